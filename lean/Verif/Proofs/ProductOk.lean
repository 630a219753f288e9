import Verif.Proofs.PowExact
import Verif.SpecProduct
import Verif.SpecDiv

/-!
# Helper lemmas: products that do not panic
-/

namespace Babs

variable {D : DigitOps} {B : Nat}

/-- Products that meet no bad difference do not panic. -/
theorem productOk_of_mulSafe (L : Lawful D B) {d m n : Nat} (h : mulSafe B d m n = true) :
    productOk B m n = true := by
  obtain ⟨x, hx⟩ := exists_rep (B := B) (by have := L.base; omega) m
  obtain ⟨y, hy⟩ := exists_rep (B := B) (by have := L.base; omega) n
  have h1 := mulBig_safe_spec (dbg := false) L (T := True) hx hy fun _ => ⟨d, h⟩
  have h2 := mulBig_exact_rep (dbg := false) L hx hy
  cases hm : mulBig D false x y with
  | error p => rw [hm] at h1; exact absurd trivial h1.2
  | ok z =>
    rw [hm] at h2
    unfold productOk
    simpa using h2.1

/-- A condition on the products that always holds can be left out. -/
theorem bzSafe_weaken {M M' : Nat → Nat → Bool} {b : Nat} (k : Nat) : ∀ n a y, 0 < b →
    (∀ u v, u < b ^ (n / 2) → v < b ^ (n / 2) → M u v = true → M' u v = true) →
    bzSafe M b k n a y = true → bzSafe M' b k n a y = true := by
  induction k with
  | zero => intro n a y _ _ h; simp [bzSafe] at h
  | succ k ih =>
    intro n a y hb hM h
    rw [bzSafe] at h ⊢
    split at h
    next hn => rw [if_pos hn]; exact h
    next hn =>
    rw [if_neg hn]
    have hP : 0 < b ^ (n / 2) := Nat.pow_pos hb
    have hy : y % b ^ (n / 2) < b ^ (n / 2) := Nat.mod_lt _ hP
    have hle : b ^ (n / 2 / 2) ≤ b ^ (n / 2) := Nat.pow_le_pow_right hb (by omega)
    have hpart : ∀ a',
        (if a' / b ^ (n / 2) / b ^ (n / 2) < y / b ^ (n / 2) then
          bzSafe M b k (n / 2) (a' / b ^ (n / 2)) (y / b ^ (n / 2)) &&
            M (a' / b ^ (n / 2) / (y / b ^ (n / 2))) (y % b ^ (n / 2))
        else M (b ^ (n / 2) - 1) (y % b ^ (n / 2))) = true →
        (if a' / b ^ (n / 2) / b ^ (n / 2) < y / b ^ (n / 2) then
          bzSafe M' b k (n / 2) (a' / b ^ (n / 2)) (y / b ^ (n / 2)) &&
            M' (a' / b ^ (n / 2) / (y / b ^ (n / 2))) (y % b ^ (n / 2))
        else M' (b ^ (n / 2) - 1) (y % b ^ (n / 2))) = true := by
      intro a' h
      split at h
      next hc =>
        rw [if_pos hc]
        rw [Bool.and_eq_true] at h ⊢
        refine ⟨ih _ _ _ hb (fun u v hu hv => hM u v (by omega) (by omega)) h.1,
          hM _ _ ?_ hy h.2⟩
        rw [Nat.div_lt_iff_lt_mul (Nat.zero_lt_of_lt hc)]
        rw [Nat.div_lt_iff_lt_mul hP] at hc
        rwa [Nat.mul_comm]
      next hc =>
        rw [if_neg hc]
        exact hM _ _ (by omega) hy h
    simp only [Bool.and_eq_true] at h ⊢
    exact ⟨hpart _ h.1, hpart _ h.2⟩

end Babs
