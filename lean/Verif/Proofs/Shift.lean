import Verif.Model.UBig
import Verif.Proofs.MulDigit

/-!
# Helper lemmas: division by a digit, shifts of big numbers
-/

namespace Babs

variable {D : DigitOps} {B : Nat}

theorem divAssignDigit_spec (L : Lawful D B) (l : List Nat) (fac : Nat) (hl : Digs B l)
    (h0 : 0 < fac) (hf : fac < B) :
    ∃ r nd rem, divAssignDigit D l fac = .ok (r, .ok (nd, rem)) ∧ r.length = l.length ∧
      Digs B r ∧ rem < fac ∧ val B r * fac + rem = val B l ∧ nd ≤ l.length ∧
      r = r.take nd ++ List.replicate (l.length - nd) 0 ∧ Canon (r.take nd) := by
  obtain ⟨r, rem, h1, h2, h3, h4, h5⟩ := foldDigitsRev_spec (B := B)
    (f := fun d c => D.divCarry d fac c) (P := fun c => c < fac) (cv := fun c => (c : ℤ)) (F := fac)
    (by
      intro a c ha hc
      refine ⟨_, _, L.divCarry a fac c ha hf hc, div_carry_lt a fac c ha hc,
        Nat.mod_lt _ (by omega), ?_⟩
      have := Nat.div_add_mod (c * B + a) fac
      zify at this ⊢
      linarith) l 0 hl h0
  obtain ⟨nd, e1, e2, e3, e4⟩ := dropLeadingZeros_spec r r.length (le_refl _)
  rw [List.take_length, h2] at e3
  refine ⟨r, nd, rem, ?_, h2, h3, h4, ?_, by omega, e3, e4⟩
  · unfold divAssignDigit
    rw [if_neg (by omega), h1, ok_bind]
    simp only []
    rw [e1]; rfl
  · simp at h5; exact_mod_cast h5

theorem remDigit_spec (L : Lawful D B) (l : List Nat) (fac : Nat) (hl : Digs B l)
    (h0 : 0 < fac) (hf : fac < B) : remDigit D l fac = .ok (.ok (val B l % fac)) := by
  have key : readRev (fun d c => D.remCarry d fac c) l 0 = .ok (val B l % fac) := by
    induction l with
    | nil => simp [readRev]
    | cons d ds ih =>
      rw [digs_cons] at hl
      rw [readRev, ih hl.2, ok_bind, L.remCarry d fac _ hl.1 hf (Nat.mod_lt _ h0)]
      congr 1
      rw [val_cons, Nat.add_comm, Nat.add_mod, Nat.add_mod d, Nat.mul_comm B, Nat.mod_mul_mod,
        Nat.add_comm]
  unfold remDigit
  rw [if_neg (by omega), key]; rfl

theorem divDigitAssign_spec (L : Lawful D B) (x : List Nat) (fac : Nat) (hx : Digs B x)
    (h0 : 0 < fac) (hf : fac < B) :
    ∃ z, divDigitAssign D x fac = .ok (z, .ok (val B x % fac)) ∧ Rep B z (val B x / fac) := by
  obtain ⟨r, nd, rem, h1, h2, h3, h4, h5, h6, h7, h8⟩ := divAssignDigit_spec L x fac hx h0 hf
  have hm : val B x % fac = rem := by
    rw [← h5, Nat.mul_comm, Nat.mul_add_mod, Nat.mod_eq_of_lt h4]
  have hd : val B x / fac = val B r := by
    rw [← h5, Nat.mul_comm, Nat.mul_add_div h0, Nat.div_eq_of_lt h4]; simp
  refine ⟨r.take nd, ?_, h3.take nd, h8, by rw [val_take_zeros h7, hd]⟩
  unfold divDigitAssign
  rw [h1, hm]; rfl

/-- Left shift by less than a digit, with the carry pushed. -/
theorem shlPush_spec (L : Lawful D B) (x : List Nat) (s : Nat) (hx : Digs B x) (hs : 2 ^ s < B) :
    ∃ r c, shlWithin D x s 0 = .ok (r, c) ∧ Digs B (if c ≠ 0 then r ++ [c] else r) ∧
      val B (if c ≠ 0 then r ++ [c] else r) = val B x * 2 ^ s ∧
      (Canon x → Canon (if c ≠ 0 then r ++ [c] else r)) := by
  obtain ⟨r, c, h1, h2, h3, h4, h5⟩ := shlWithin_spec L x s 0 hx hs (Nat.two_pow_pos s)
  refine ⟨r, c, h1, ?_⟩
  by_cases hc : c = 0
  · subst hc
    simp only [ne_eq, not_true_eq_false, if_false]
    refine ⟨h3, by simpa using h5, fun cx => ?_⟩
    apply canon_of_max (x := x) (y := []) L.pos h3 cx canon_nil _ (by simp [h2])
    have : val B x * 1 ≤ val B x * 2 ^ s := Nat.mul_le_mul_left _ (Nat.two_pow_pos s)
    simp at h5 ⊢; omega
  · simp only [ne_eq, hc, not_false_iff, if_true]
    refine ⟨by simp [h3]; omega, ?_, fun _ => canon_snoc.mpr hc⟩
    rw [val_snoc, h2]; simpa using h5

theorem val_zeros_append (k : Nat) (x : List Nat) :
    val B (List.replicate k 0 ++ x) = B ^ k * val B x := by
  rw [val_append]; simp

theorem shlBin_spec (L : Lawful D B) {w : Nat} (hw : B = 2 ^ w) (x : List Nat) (n : Nat)
    (hx : Digs B x) :
    ∃ z, shlBin D w x n = .ok z ∧ Digs B z ∧ val B z = val B x * 2 ^ n ∧
      (Canon x → (Canon z ↔ ¬ (x = [] ∧ w ≤ n))) := by
  have hB := L.base
  have hw0 : 0 < w := by
    rcases Nat.eq_zero_or_pos w with h | h
    · subst h; simp at hw; omega
    · exact h
  have hlow : n % w < w := Nat.mod_lt _ hw0
  have hs : 2 ^ (n % w) < B := by rw [hw]; exact Nat.pow_lt_pow_right (by omega) hlow
  have key : ∃ y, (do
      if n % w ≠ 0 then
        let (x, carry) ← shlWithin D x (n % w) 0
        return if carry ≠ 0 then x ++ [carry] else x
      else return x : R (List Nat)) = .ok y ∧ Digs B y ∧ val B y = val B x * 2 ^ (n % w) ∧
      (Canon x → Canon y) := by
    by_cases h0 : n % w = 0
    · exact ⟨x, by simp [h0], hx, by simp [h0], fun c => c⟩
    · obtain ⟨r, c, h1, h2, h3, h4⟩ := shlPush_spec L x (n % w) hx hs
      exact ⟨_, by simp only [ne_eq, h0, not_false_iff, if_true, h1, ok_bind]; rfl, h2, h3, h4⟩
  obtain ⟨y, k1, k2, k3, k4⟩ := key
  have hgoal : shlBin D w x n
      = .ok (if n / w ≠ 0 then List.replicate (n / w) 0 ++ y else y) := by
    unfold shlBin
    simp only []
    have := congrArg (fun r : R (List Nat) => r >>= fun x =>
      (pure (if n / w ≠ 0 then List.replicate (n / w) 0 ++ x else x) : R (List Nat))) k1
    simp only [ok_bind, pure_eq_ok] at this
    rw [← this]
    split_ifs <;> rfl
  refine ⟨_, hgoal, ?_, ?_, ?_⟩
  · split_ifs
    · simp only [digs_append]; exact ⟨digs_replicate (by omega), k2⟩
    · exact k2
  · have e : val B (if n / w ≠ 0 then List.replicate (n / w) 0 ++ y else y)
        = B ^ (n / w) * val B y := by
      split_ifs with h
      · exact val_zeros_append _ _
      · simp at h
        have : n / w = 0 := by rw [Nat.div_eq_zero_iff]; omega
        simp [this]
    rw [e, k3, hw, ← pow_mul, Nat.mul_comm, Nat.mul_assoc, ← pow_add, Nat.mod_add_div]
  · intro cx
    have hy0 : y = [] ↔ x = [] := by
      have h1 := (k4 cx).val_eq_zero (b := B) (by omega)
      have h2 := cx.val_eq_zero (b := B) (by omega)
      have := Nat.two_pow_pos (n % w)
      rw [← h1, ← h2, k3, Nat.mul_eq_zero]
      omega
    have hd : n / w ≠ 0 ↔ w ≤ n := by
      have := Nat.div_eq_zero_iff (a := n) (b := w)
      omega
    by_cases hyx : y = []
    · have hx0 := hy0.mp hyx
      subst hyx
      split_ifs with h
      · have := hd.mp h
        simp only [List.append_nil, hx0, this, and_self, not_true_eq_false, iff_false]
        obtain ⟨k, hk⟩ : ∃ k, n / w = k + 1 := ⟨n / w - 1, (Nat.succ_pred_eq_of_ne_zero h).symm⟩
        rw [hk, List.replicate_succ', canon_snoc]
        simp
      · have : ¬ w ≤ n := fun hh => h (hd.mpr hh)
        simp [this, canon_nil]
    · have hx0 : x ≠ [] := fun h => hyx (hy0.mpr h)
      simp only [hx0, false_and, not_false_iff, iff_true]
      split_ifs
      · exact (canon_append_of hyx).mpr (k4 cx)
      · exact k4 cx

theorem shlDec_small_spec (L : Lawful D B) {dbg : Bool} {mh : Nat} (hmh : 2 ^ (4 * mh) < B)
    (x : List Nat) (n : Nat) (hx : Digs B x) (hn : n ≤ 4 * mh) :
    ∃ z, shlDec D dbg mh x n = .ok z ∧ Digs B z ∧ val B z = val B x * 2 ^ n ∧
      (Canon x → Canon z) := by
  have hs : 2 ^ n < B := lt_of_le_of_lt (Nat.pow_le_pow_right (by omega) hn) hmh
  obtain ⟨r, c, h1, h2, h3, h4⟩ := shlPush_spec L x n hx hs
  exact ⟨_, by unfold shlDec; rw [if_pos hn, h1, ok_bind]; rfl, h2, h3, h4⟩

/-- Right shift by less than a digit. -/
theorem shrTake_spec (L : Lawful D B) (x : List Nat) (s : Nat) (hx : Digs B x) (hs : 2 ^ s < B) :
    ∃ r nd c, shrWithin D x s 0 = .ok (r, nd, c) ∧ Rep B (r.take nd) (val B x / 2 ^ s) := by
  obtain ⟨r, nd, c, h1, h2, h3, h4, h5, h6, h7, h8⟩ :=
    shrWithin_spec L x s 0 hx hs (Nat.two_pow_pos s)
  refine ⟨r, nd, c, h1, h3.take nd, h8, ?_⟩
  rw [val_take_zeros h7]
  simp at h5
  rw [← h5, Nat.mul_comm, Nat.mul_add_div (Nat.two_pow_pos s), Nat.div_eq_of_lt h4]
  simp

theorem val_drop_div (x : List Nat) (k : Nat) (hx : Digs B x) (hB : 0 < B) (hk : k ≤ x.length) :
    val B (x.drop k) = val B x / B ^ k := by
  rw [← val_take_add_drop B x k hk]
  have h := val_lt (hx.take k)
  rw [List.length_take, Nat.min_eq_left hk] at h
  rw [Nat.add_comm, Nat.mul_add_div (Nat.pow_pos hB), Nat.div_eq_of_lt h]; simp

theorem canon_drop {x : List Nat} (k : Nat) (cx : Canon x) : Canon (x.drop k) := by
  by_cases h : x.drop k = []
  · rw [h]; exact canon_nil
  · rw [← List.take_append_drop k x] at cx
    exact (canon_append_of h).mp cx

theorem shrBin_spec (L : Lawful D B) {w : Nat} (hw : B = 2 ^ w) (x : List Nat) (n : Nat)
    (hx : Digs B x) (cx : Canon x) (hn : n / w ≤ x.length) :
    ∃ z, shrBin D w x n = .ok z ∧ Rep B z (val B x / 2 ^ n) := by
  have hB := L.base
  have hw0 : 0 < w := by
    rcases Nat.eq_zero_or_pos w with h | h
    · subst h; simp at hw; omega
    · exact h
  have hlow : n % w < w := Nat.mod_lt _ hw0
  have hs : 2 ^ (n % w) < B := by rw [hw]; exact Nat.pow_lt_pow_right (by omega) hlow
  have key : (if n / w ≠ 0 then slice x (n / w) x.length else pure x : R (List Nat))
      = .ok (x.drop (n / w)) := by
    split_ifs with h
    · rw [slice_ok hn (le_refl _), List.take_length]
    · simp at h
      have : n / w = 0 := by rw [Nat.div_eq_zero_iff]; omega
      simp [this]
  have hv : val B x / 2 ^ n = val B (x.drop (n / w)) / 2 ^ (n % w) := by
    rw [val_drop_div x _ hx (by omega) hn, hw, ← pow_mul, Nat.div_div_eq_div_mul, ← pow_add,
      Nat.div_add_mod]
  by_cases h0 : n % w = 0
  · refine ⟨x.drop (n / w), ?_, hx.drop _, canon_drop _ cx, by rw [hv, h0]; simp⟩
    unfold shrBin
    refine (ite_bind_eq key _).trans ?_
    simp [h0]
  · obtain ⟨r, nd, c, h1, h2⟩ := shrTake_spec L (x.drop (n / w)) (n % w) (hx.drop _) hs
    rw [← hv] at h2
    refine ⟨_, ?_, h2⟩
    unfold shrBin
    refine (ite_bind_eq key _).trans ?_
    simp only [ne_eq, h0, not_false_iff, if_true, h1, ok_bind]
    rfl

theorem shrBin_panic {w : Nat} (x : List Nat) (n : Nat) (hn : x.length < n / w) :
    shrBin D w x n = .error .index := by
  have key : slice x (n / w) x.length = .error .index := by
    unfold slice; rw [if_neg (by omega)]
  unfold shrBin
  have h : n / w ≠ 0 := by omega
  simp only [h, ne_eq, not_false_iff, if_true, key, error_bind]

theorem shrDec_spec (L : Lawful D B) {mh : Nat} (hmh : 2 ^ (4 * mh) < B)
    (x : List Nat) (n : Nat) (hx : Digs B x) (hn : n ≤ 4 * mh) :
    ∃ z, shrDec D mh x n = .ok z ∧ Rep B z (val B x / 2 ^ n) := by
  have hs : 2 ^ n < B := lt_of_le_of_lt (Nat.pow_le_pow_right (by omega) hn) hmh
  obtain ⟨r, nd, c, h1, h2⟩ := shrTake_spec L x n hx hs
  refine ⟨_, ?_, h2⟩
  unfold shrDec
  rw [if_pos hn, h1, ok_bind]; rfl

end Babs
