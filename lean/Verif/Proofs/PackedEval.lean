import Verif.Proofs.PackedFast
import Verif.Props.Profile

/-!
From the evaluation of a square on packed buffers to the model, in both build profiles.
-/

namespace Babs

/-- A number that is returned in a debug build is returned in a release build. -/
theorem square_of_debug {t : DType} {x z : List Nat} (h : UBig.square t true x = .ok z) (dbg : Bool) :
    UBig.square t dbg x = .ok z := by
  cases dbg with
  | true => exact h
  | false =>
    rcases Props.square_profile t x with h1 | h1 | h1
    · rw [← h1]; exact h
    · rw [Panics, h] at h1; cases h1
    · rw [Panics, h] at h1; cases h1

/-- A failed `unwrap` in a debug build is one in a release build. -/
theorem square_of_debug_unwrap {t : DType} {x : List Nat}
    (h : UBig.square t true x = .error .unwrap) (dbg : Bool) :
    UBig.square t dbg x = .error .unwrap := by
  cases dbg with
  | true => exact h
  | false =>
    rcases Props.square_profile t x with h1 | h1 | h1
    · rw [← h1]; exact h
    · rw [Panics, h] at h1; cases h1
    · rw [Panics, h] at h1; cases h1

namespace P

/-- The digits of a number in normal form. -/
theorem rep_dig {b n v : Nat} (hb : 2 ≤ b) (h : size b v = n) : Rep b (dig b n v) v := by
  have hv : v < b ^ n := h ▸ lt_pow_size v hb
  have h1 : val b (dig b n v) = v := by rw [val_dig, Nat.mod_eq_of_lt hv]
  refine ⟨digs_dig (by omega) _ _, ?_, h1⟩
  intro hl
  cases n with
  | zero => simp [dig] at hl
  | succ n =>
    have h2 : dig b (n + 1) v = dig b n v ++ [0] := by
      have h3 : dig b (n + 1) v ≠ [] := by simp [dig]
      rw [List.getLast?_eq_some_getLast h3, Option.some.injEq] at hl
      have h4 := List.dropLast_append_getLast h3
      rw [hl, List.dropLast_eq_take, dig_length, Nat.add_sub_cancel,
        dig_take (by omega) _ (by omega)] at h4
      exact h4.symm
    rw [h2, val_append, val_dig] at h1
    have h5 : v < b ^ n := by
      have := Nat.mod_lt v (show 0 < b ^ n from Nat.pow_pos (by omega))
      simp [val] at h1
      omega
    have := size_le hb h5
    omega

theorem num_of_size {b n v : Nat} (hb : 2 ≤ b) (h : size b v = n) : P.num b ⟨n, v⟩ = v := by
  have := (rep_dig hb h).val_eq
  rwa [val_dig] at this

theorem square_eval {t : DType} {n v : Nat} {p : P} (h : F.sq t.radix true ⟨n, v⟩ = .ok p) (dbg : Bool) :
    UBig.square t dbg (dig t.radix n v) = .ok (p.list t.radix) := by
  refine square_of_debug ?_ dbg
  have := sim_sq (dbg := true) (ops_lawful t true) ⟨n, v⟩
  rw [Sim, ← F.sq_eq (ops_lawful t true).pos, h] at this
  exact this

theorem square_eval_unwrap {t : DType} {n v : Nat} (h : F.sq t.radix true ⟨n, v⟩ = .error .unwrap)
    (dbg : Bool) : UBig.square t dbg (dig t.radix n v) = .error .unwrap := by
  refine square_of_debug_unwrap ?_ dbg
  have := sim_sq (dbg := true) (ops_lawful t true) ⟨n, v⟩
  rw [Sim, ← F.sq_eq (ops_lawful t true).pos, h] at this
  exact this

end P

end Babs
