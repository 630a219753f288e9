import Verif.Proofs.MulExactAll
import Verif.Proofs.KaraWitness

/-!
# Helper lemmas: exactly which powers panic
-/

namespace Babs

variable {D : DigitOps} {B : Nat}

theorem square_exact_rep {dbg : Bool} (L : Lawful D B) {x : List Nat} {m : Nat} (hx : Rep B x m)
    (hm : m < B ^ 1131) :
    Ex (productPanics B m m = true) (square D dbg x) (Rep B · (m * m)) := by
  have hB := L.base
  have hl := hx.length_le (by omega) hm
  have key := square_exact_mid (dbg := dbg) L x.length hx.digs hl (le_refl _)
  have ls := size_canon (by omega) hx.digs hx.canon
  rw [hx.val_eq] at key ls
  rw [← ls] at key
  unfold productPanics
  rw [Nat.max_self]
  exact key

theorem mulBig_exact_rep {dbg : Bool} (L : Lawful D B) {x y : List Nat} {m n : Nat} (hx : Rep B x m)
    (hy : Rep B y n) :
    Ex (productPanics B m n = true) (mulBig D dbg x y) (Rep B · (m * n)) := by
  have hB := L.base
  have key := mulBig_exact_all (dbg := dbg) L (max x.length y.length) hx.digs hy.digs (le_refl _)
  have lx := size_canon (by omega) hx.digs hx.canon
  have ly := size_canon (by omega) hy.digs hy.canon
  rw [hx.val_eq] at key lx
  rw [hy.val_eq] at key ly
  rw [← lx, ← ly] at key
  exact key

theorem productPanics_short {m n : Nat} (h : size B m < 20) : productPanics B m n = false := by
  unfold productPanics
  exact mulPanics_short (Or.inl h)

theorem lt_1131_of_sq {a c : Nat} (h : a * a ≤ c) (hc : c < B ^ 2262) : a < B ^ 1131 := by
  refine lt_of_not_ge fun h1 => absurd (Nat.mul_le_mul h1 h1) ?_
  rw [← pow_add]
  exact not_le.mpr (lt_of_le_of_lt h hc)

/-- The loop of the power, with the steps that fail. -/
theorem powLoop_exact {dbg : Bool} (L : Lawful D B) {m e : Nat}
    (hK : ∀ i y, 2 ^ (i + 1) ≤ e → Rep B y (m ^ 2 ^ i) →
      Ex (productPanics B (m ^ 2 ^ i) (m ^ 2 ^ i) = true) (square D dbg y) (Rep B · (m ^ 2 ^ i * m ^ 2 ^ i)))
    (fuel : Nat) :
    ∀ {result power : List Nat} {k : Nat}, Rep B result (m ^ (e % 2 ^ (k + 1))) →
    Rep B power (m ^ 2 ^ k) → e / 2 ^ (k + 1) < fuel →
    Ex (∃ i, k ≤ i ∧ powStepPanics B m e i) (powLoop D dbg fuel result power (e / 2 ^ (k + 1)))
      (Rep B · (m ^ e)) := by
  induction fuel with
  | zero => intro _ _ _ _ _ h; exact absurd h (Nat.not_lt_zero _)
  | succ fuel ih =>
    intro result power k hr hp hn
    have hpos : 0 < 2 ^ (k + 1) := Nat.pow_pos (by omega)
    unfold powLoop
    by_cases hn0 : e / 2 ^ (k + 1) = 0
    · rw [if_pos hn0]
      have hlt : e < 2 ^ (k + 1) := (Nat.div_eq_zero_iff_lt hpos).mp hn0
      rw [Nat.mod_eq_of_lt hlt] at hr
      refine (Ex.of_tot (Sp.pure hr)).congr ⟨False.elim, ?_⟩
      rintro ⟨i, hi, h1, -⟩
      have : 2 ^ (k + 1) ≤ 2 ^ (i + 1) := Nat.pow_le_pow_right (by omega) (by omega)
      omega
    · rw [if_neg hn0]
      have hle : 2 ^ (k + 1) ≤ e := by
        by_contra h; exact hn0 (Nat.div_eq_of_lt (by omega))
      have hsq : m ^ 2 ^ k * m ^ 2 ^ k = m ^ 2 ^ (k + 1) := by
        rw [← pow_add]; congr 1; rw [pow_succ]; omega
      have hdiv : e / 2 ^ (k + 1) / 2 = e / 2 ^ (k + 1 + 1) := by
        rw [Nat.div_div_eq_div_mul, ← pow_succ]
      have hmod : e % 2 ^ (k + 1 + 1) = e % 2 ^ (k + 1) + 2 ^ (k + 1) * (e / 2 ^ (k + 1) % 2) := by
        rw [pow_succ 2 (k + 1), Nat.mod_mul]
      have hbody : ∀ power', Rep B power' (m ^ 2 ^ (k + 1)) →
          Ex (e / 2 ^ (k + 1) % 2 = 1 ∧
              productPanics B (m ^ (e % 2 ^ (k + 1))) (m ^ 2 ^ (k + 1)) = true)
            (if e / 2 ^ (k + 1) % 2 ≠ 0 then mulBig D dbg result power' else Pure.pure result)
            (Rep B · (m ^ (e % 2 ^ (k + 1 + 1)))) := by
        intro power' hp'
        by_cases hodd : e / 2 ^ (k + 1) % 2 ≠ 0
        · rw [if_pos hodd]
          have h1 : e / 2 ^ (k + 1) % 2 = 1 := by omega
          rw [hmod, h1, Nat.mul_one, pow_add m]
          refine Ex.congr (mulBig_exact_rep (dbg := dbg) L hr hp') ?_
          constructor
          · intro h; exact ⟨rfl, h⟩
          · intro h; exact h.2
        · rw [if_neg hodd]
          have h1 : e / 2 ^ (k + 1) % 2 = 0 := by omega
          rw [hmod, h1, Nat.mul_zero, Nat.add_zero]
          exact (Ex.of_tot (Sp.pure hr)).congr ⟨False.elim, fun h => absurd h.1 (by omega)⟩
      have hsqr := hK k power hle hp
      rw [hsq] at hsqr
      refine (Ex.bind hsqr (K2 := (e / 2 ^ (k + 1) % 2 = 1 ∧
          productPanics B (m ^ (e % 2 ^ (k + 1))) (m ^ 2 ^ (k + 1)) = true) ∨
          ∃ i, k + 1 ≤ i ∧ powStepPanics B m e i) ?_).congr ?_
      · intro power' hp'
        simp only []
        rw [ite_bind_comm]
        refine Ex.bind (hbody power' hp') ?_
        intro result' hr'
        rw [hdiv]
        refine ih hr' hp' ?_
        rw [← hdiv]
        exact lt_of_lt_of_le (Nat.div_lt_self (Nat.pos_of_ne_zero hn0) (by omega)) (by omega)
      · constructor
        · rintro (h | h | ⟨i, hi, h⟩)
          · exact ⟨k, le_refl _, hle, Or.inl h⟩
          · exact ⟨k, le_refl _, hle, Or.inr h⟩
          · exact ⟨i, by omega, h⟩
        · rintro ⟨i, hi, h⟩
          rcases Nat.lt_or_ge k i with h1 | h1
          · exact Or.inr (Or.inr ⟨i, h1, h⟩)
          · obtain rfl : i = k := by omega
            rcases h.2 with h2 | h2
            · exact Or.inl h2
            · exact Or.inr (Or.inl h2)

theorem pow_exact_all {dbg : Bool} (L : Lawful D B) {x : List Nat} {m e : Nat}
    (hx : Rep B x m) (hK : ∀ i y, 2 ^ (i + 1) ≤ e → Rep B y (m ^ 2 ^ i) →
      Ex (productPanics B (m ^ 2 ^ i) (m ^ 2 ^ i) = true) (square D dbg y) (Rep B · (m ^ 2 ^ i * m ^ 2 ^ i))) :
    Ex (∃ i, powStepPanics B m e i) (pow D dbg x e) (Rep B · (m ^ e)) := by
  have hB2 : 2 ≤ B := by have := L.base; omega
  have hone : Rep B ubigOne 1 := ⟨by simp [ubigOne]; omega, by simp [ubigOne, Canon], by simp [ubigOne]⟩
  have none : e < 2 → ¬ ∃ i, powStepPanics B m e i := by
    rintro h ⟨i, h1, -⟩
    have : 2 ^ 1 ≤ 2 ^ (i + 1) := Nat.pow_le_pow_right (by omega) (by omega)
    omega
  unfold pow
  by_cases e0 : e = 0
  · rw [if_pos e0]
    refine (Ex.of_tot (Sp.pure ?_)).congr ⟨False.elim, none (by omega)⟩
    rw [e0]; simpa using hone
  rw [if_neg e0]
  by_cases e1 : e = 1
  · rw [if_pos e1]
    refine (Ex.of_tot (Sp.pure ?_)).congr ⟨False.elim, none (by omega)⟩
    rw [e1]; simpa using hx
  rw [if_neg e1]
  by_cases e2 : e = 2
  · rw [if_pos e2]
    subst e2
    have hK := hK 0 x (by norm_num) (by simpa using hx)
    rw [pow_zero, pow_one] at hK
    rw [pow_two]
    refine hK.congr ⟨fun h => ⟨0, ?_⟩, ?_⟩
    · exact ⟨by norm_num, Or.inl (by simpa using h)⟩
    · rintro ⟨i, h1, h2⟩
      have : i = 0 := by
        by_contra hi
        have : 2 ^ 2 ≤ 2 ^ (i + 1) := Nat.pow_le_pow_right (by omega) (by omega)
        omega
      subst this
      rcases h2 with h2 | ⟨-, h2⟩
      · simpa using h2
      · exfalso
        have h1 : size B 1 = 1 := size_of_bounds (k := 0) hB2 (by simp) (by simpa using (show 1 < B by omega))
        rw [show 2 % 2 ^ (0 + 1) = 0 from rfl, pow_zero, productPanics_short (by omega)] at h2
        cases h2
  rw [if_neg e2]
  have key := @powLoop_exact D B dbg L m e hK (e + 1) (if e % 2 = 0 then ubigOne else x) x 0
  simp only [Nat.zero_add, pow_one, pow_zero] at key
  refine (key ?_ hx (by omega)).congr ⟨fun ⟨i, _, h⟩ => ⟨i, h⟩, fun ⟨i, h⟩ => ⟨i, Nat.zero_le _, h⟩⟩
  by_cases hev : e % 2 = 0
  · rw [if_pos hev, hev]; simpa using hone
  · rw [if_neg hev, show e % 2 = 1 by omega]; simpa using hx

/-- The shift by more places than are done digit by digit, with the steps that fail. -/
theorem shlDec_exact {dbg : Bool} (L : Lawful D B) {mh : Nat} {x : List Nat} {m n : Nat}
    (hx : Rep B x m) (hn : ¬ n ≤ 4 * mh) (hK : ∀ i y, 2 ^ (i + 1) ≤ n → Rep B y (2 ^ 2 ^ i) →
      Ex (productPanics B (2 ^ 2 ^ i) (2 ^ 2 ^ i) = true) (square D dbg y) (Rep B · (2 ^ 2 ^ i * 2 ^ 2 ^ i))) :
    Ex ((∃ i, powStepPanics B 2 n i) ∨ productPanics B m (2 ^ n) = true) (shlDec D dbg mh x n)
      (Rep B · (m * 2 ^ n)) := by
  have hB := L.base
  have h2 : Rep B [2] 2 := ⟨by simp; omega, by simp [Canon], by simp⟩
  have htwo : addBig D ubigOne ubigOne = .ok [2] := by
    obtain ⟨z, h1, h2, h3, h4, -⟩ := addBig_spec L ubigOne ubigOne (by simp [ubigOne]; omega)
      (by simp [ubigOne]; omega)
    have h2 : Rep B z 2 := ⟨h2, h4 (by simp [ubigOne, Canon]) (by simp [ubigOne, Canon]),
      by rw [h3]; simp [ubigOne]⟩
    rw [h1]
    congr 1
    exact h2.unique ‹Rep B [2] 2›
  unfold shlDec
  rw [if_neg hn, htwo, ok_bind]
  refine Ex.bind (pow_exact_all L h2 hK) ?_
  intro scale hs
  exact mulBig_exact_rep L hx hs

end Babs
