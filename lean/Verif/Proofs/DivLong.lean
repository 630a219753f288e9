import Verif.Proofs.DivDigit
import Mathlib.Data.Nat.ModEq

/-!
# Helper lemmas: schoolbook division (`src/ubig/div/long.rs`)
-/

namespace Babs

variable {D : DigitOps} {B : Nat} {dbg : Bool}

theorem dec_q (L : Lawful D B) {q : Nat} (hq : QOk D B q) (h0 : 0 < q) :
    ∃ b, D.dec q = .ok (q - 1, b) ∧ QOk D B (q - 1) := by
  rcases hq with h | ⟨T, h⟩
  · refine ⟨decide (q = 0), ?_, Or.inl (by omega)⟩
    rw [L.dec q h, show q + (B - 1) = (q - 1) + B by omega, Nat.add_mod_right,
      Nat.mod_eq_of_lt (by omega)]
  · exact ⟨false, T.decTie q h0, Or.inr ⟨T, by omega⟩⟩

/-- One correction of an estimate that is too large. -/
theorem corr_step (L : Lawful D B) {r den : List Nat} {top q q0 : Nat} (hr : Digs B r)
    (hd : Digs B den) (hl : r.length = den.length) (hq : QOk D B q) (hq0 : QOk D B q0)
    (htop : top < q0 ∨ top = 0) (h0 : 0 < q)
    (hv : val B r + B ^ den.length * top = q * val B den) :
    ∃ b r' top' res, D.dec q = .ok (q - 1, b) ∧
      subAssignBig D (r ++ [top]) den = .ok (r' ++ [top'], res) ∧ QOk D B (q - 1) ∧
      r'.length = den.length ∧ Digs B r' ∧ (top' < q0 ∨ top' = 0) ∧
      val B r' + B ^ den.length * top' = (q - 1) * val B den := by
  obtain ⟨b, h1, h2⟩ := dec_q L hq h0
  have hY : q * val B den = (q - 1) * val B den + val B den := by
    obtain ⟨k, rfl⟩ : ∃ k, q = k + 1 := ⟨q - 1, by omega⟩
    rw [Nat.add_sub_cancel]; ring
  obtain ⟨r', top', res, e1, e2, e3, e4, e5⟩ := subTop L hr hd hl hq0 htop (by rw [hv, hY]; omega)
  exact ⟨b, r', top', res, h1, e1, h2, e2, e3, by omega, by omega⟩

/-- The product with the right quotient digit has proper digits only. -/
theorem digs_top {r : List Nat} {m top N : Nat} (hr : Digs B r)
    (hm : r.length = m) (hN : N < B ^ (m + 1)) (hle : val B r + B ^ m * top ≤ N) :
    Digs B (r ++ [top]) ∧ val B (r ++ [top]) = val B r + B ^ m * top := by
  have : top < B := by
    by_contra h
    have h1 : B ^ m * B ≤ B ^ m * top := Nat.mul_le_mul_left _ (by omega)
    rw [pow_succ] at hN
    omega
  refine ⟨by simp [hr, this], ?_⟩
  rw [val_snoc, hm]

theorem ltBig_dec {xs ys : List Nat} {a b : Nat} (h : ltBig xs ys = true ↔ a < b) :
    ltBig xs ys = decide (a < b) := by
  by_cases h1 : a < b
  · simp [h1, h.mpr h1]
  · have : ltBig xs ys ≠ true := fun h2 => h1 (h.mp h2)
    simp [h1, this]

/-- The subtraction of a multiple of the divisor. -/
theorem sub_window (L : Lawful D B) {w p : List Nat} (hw : Digs B w) (hp : Digs B p)
    (hl : w.length = p.length) (hle : val B p ≤ val B w) :
    ∃ w' res, subAssignBig D w p = .ok (w', res) ∧ w'.length = w.length ∧ Digs B w' ∧
      val B w' = val B w - val B p := by
  obtain ⟨w', res, h1, h2⟩ := subAssignBig_spec L w p hw hp (by omega)
  refine ⟨w', res, h1, h2.len, h2.digs, ?_⟩
  rcases h2.cases with ⟨h3, -⟩ | ⟨-, nd, -, -, h3, -⟩ <;> omega

theorem div_eq_sub_mod {N Y : Nat} : N - N / Y * Y = N % Y := by
  have := Nat.div_add_mod N Y
  rw [Nat.mul_comm] at this
  omega

theorem longStep_spec (L : Lawful D B) {lo u hi v quot qden : List Nat} {a c f iq : Nat}
    (hu : Digs B (u ++ [a, c])) (hv : Digs B (v ++ [f])) (huv : u.length = v.length)
    (hlo : lo.length = iq) (hB : B ≤ 2 * f) (hq : iq < quot.length)
    (hqd : qden.length = v.length + 2)
    (hlt : val B (u ++ [a, c]) < val B (v ++ [f]) * B)
    (htie : c < f ∨ TieLaw D B) :
    ∃ w' qden', longStep D dbg (v ++ [f]) f iq (lo ++ (u ++ [a, c]) ++ hi) quot qden
        = .ok (lo ++ w' ++ hi, quot.set iq (val B (u ++ [a, c]) / val B (v ++ [f])), qden') ∧
      w'.length = v.length + 2 ∧ Digs B w' ∧
      val B w' = val B (u ++ [a, c]) % val B (v ++ [f]) ∧ qden'.length = v.length + 2 ∧
      (Digs B qden → Digs B qden') := by
  have hB0 := L.pos
  have hdu := hu
  have hdv := hv
  simp only [digs_append, digs_cons, digs_nil, and_true] at hu hv
  have hVN : val B (u ++ [a, c]) = (c * B + a) * B ^ v.length + val B u := by
    rw [val_append, huv]; simp; ring
  have hVY : val B (v ++ [f]) = f * B ^ v.length + val B v := by rw [val_snoc]; ring
  have hnu := val_lt hu.1
  have hnv := val_lt hv.1
  rw [huv] at hnu
  have hY : 0 < val B (v ++ [f]) := by
    rw [hVY]
    have : 0 < f * B ^ v.length := Nat.mul_pos (by omega) (pow_pos hB0 _)
    omega
  have hkn := knuth_est (B := B) (a := a) (f := f) (c := c) hu.2.1 hB hnu hnv
    (by rw [← hVN, ← hVY]; exact hlt)
  rw [← hVN, ← hVY] at hkn
  have hNlt : val B (u ++ [a, c]) < B ^ (v.length + 1 + 1) := by
    have := val_lt hdu
    simpa [huv] using this
  have hqmul := Nat.div_mul_le_self (val B (u ++ [a, c])) (val B (v ++ [f]))
  have hqlt : val B (u ++ [a, c]) < (val B (u ++ [a, c]) / val B (v ++ [f]) + 1) * val B (v ++ [f]) := by
    have := Nat.lt_div_mul_add hY (a := val B (u ++ [a, c]))
    rw [Nat.add_mul, Nat.one_mul]; exact this
  have hcf : c < f ∨ (c = f ∧ TieLaw D B) := by
    rcases htie with h | h
    · exact Or.inl h
    · by_cases h1 : c < f
      · exact Or.inl h1
      · refine Or.inr ⟨?_, h⟩
        by_contra h2
        have h3 : (f + 1) * B * B ^ v.length ≤ (c * B + a) * B ^ v.length := by
          apply Nat.mul_le_mul_right
          have : (f + 1) * B ≤ c * B := Nat.mul_le_mul_right _ (by omega)
          omega
        have h4 : (f * B ^ v.length + val B v) * B < (f + 1) * B * B ^ v.length := by
          calc _ < (f * B ^ v.length + B ^ v.length) * B :=
                Nat.mul_lt_mul_of_pos_right (by omega) hB0
            _ = _ := by ring
        rw [hVN, hVY] at hlt
        omega
  obtain ⟨rm, hdc, hqok⟩ := divCarry_est L hu.2.1 hv.2 hB hcf
  -- abstract the values
  generalize hN : val B (u ++ [a, c]) = N at *
  generalize hYv : val B (v ++ [f]) = Y at *
  generalize hqh : (c * B + a) / f = qh at *
  generalize hqq : N / Y = q at *
  have hmod : N - q * Y = N % Y := by rw [← hqq]; exact div_eq_sub_mod
  have hnden : (v ++ [f]).length = v.length + 1 := by simp
  unfold longStep
  simp only [hnden]
  have hg1 : getR (lo ++ (u ++ [a, c]) ++ hi) (iq + (v.length + 1) - 1) = .ok a := by
    rw [getR_ok (by simp; omega)]
    congr 1
    simp [hlo, huv]
  have hg2 : getR (lo ++ (u ++ [a, c]) ++ hi) (iq + (v.length + 1)) = .ok c := by
    rw [getR_ok (by simp; omega)]
    congr 1
    simp [hlo, huv]
  rw [hg1, ok_bind, hg2, ok_bind, hdc, ok_bind]
  simp only []
  by_cases hz : qh = 0
  · -- the digit is zero
    have hq0 : q = 0 := by omega
    refine ⟨u ++ [a, c], qden, ?_, by simp [huv], hdu, ?_, hqd, fun h => h⟩
    · rw [if_pos hz]
      simp only [pure_eq_ok, ok_bind]
      rw [setR_ok hq, hz, hq0]
      rfl
    · rw [hN, ← hmod, hq0]; simp
  · obtain ⟨r0, t0, e1, e2, e3, e4, e5⟩ := mulDigitInto_q (dbg := dbg) L hqok (v ++ [f]) qden hdv
      (by simp [hqd])
    rw [if_neg hz, e1, ok_bind]
    have hsl : slice (lo ++ (u ++ [a, c]) ++ hi) iq (iq + (v.length + 1) + 1) = .ok (u ++ [a, c]) :=
      slice_append hlo (by simp [huv]; omega)
    rw [hsl, ok_bind]
    have hwtop : u ++ [a, c] = (u ++ [a]) ++ [c] := by simp
    have hlu : (u ++ [a]).length = v.length + 1 := by simp [huv]
    have hdu1 : Digs B (u ++ [a]) := by simp [hu.1, hu.2.1]
    have hvw : val B (u ++ [a]) + B ^ (v.length + 1) * c = N := by
      rw [← hN, hwtop, val_snoc (xs := u ++ [a]), hlu]
    have hcmp : ∀ {r : List Nat} {t : Nat}, r.length = v.length + 1 → Digs B r →
        ltBig (u ++ [a, c]) (r ++ [t]) = decide (N < val B r + B ^ (v.length + 1) * t) := by
      intro r t h1 h2
      rw [hwtop]
      have := ltBig_dec (ltBig_top (a := c) (b := t) hdu1 h2 (by omega))
      rw [this, hlu, hvw]
    -- the final subtraction
    have hfin : ∀ {r : List Nat} {t : Nat}, r.length = v.length + 1 → Digs B r →
        val B r + B ^ (v.length + 1) * t = q * Y →
        ∃ w', (onSlice (lo ++ (u ++ [a, c]) ++ hi) iq (iq + (v.length + 1) + 1)
            (fun s => subAssignBig D s (r ++ [t]))).map Prod.fst = .ok (lo ++ w' ++ hi) ∧
          w'.length = v.length + 2 ∧ Digs B w' ∧ val B w' = N % Y ∧ Digs B (r ++ [t]) := by
      intro r t h1 h2 h3
      obtain ⟨h4, h5⟩ := digs_top h2 h1 hNlt (by rw [h3]; exact hqmul)
      obtain ⟨w', res, h6, h7, h8, h9⟩ := sub_window L hdu h4 (by simp [huv, h1])
        (by rw [h5, h3, hN]; exact hqmul)
      refine ⟨w', ?_, by rw [h7]; simp [huv], h8, by rw [h9, hN, h5, h3, hmod], h4⟩
      rw [onSlice_append hlo (by simp [huv]; omega), h6]
      rfl
    have hos : ∀ {x : R (List Nat × Res Nat)} {y : List Nat}, x.map Prod.fst = .ok y →
        ∃ z, x = .ok (y, z) := by
      intro x y h
      cases x with
      | error p => simp [Except.map] at h
      | ok p =>
        obtain ⟨p1, p2⟩ := p
        simp [Except.map] at h
        exact ⟨p2, by rw [h]⟩
    have e5' : val B r0 + B ^ (v ++ [f]).length * t0 = qh * val B (v ++ [f]) := by
      rw [e5]; ring
    have e2' : r0.length = v.length + 1 := by rw [e2, hnden]
    have e5n : val B r0 + B ^ (v.length + 1) * t0 = qh * Y := by rw [← hnden, e5', hYv]
    rw [hcmp e2' e3, e5n]
    by_cases c1 : N < qh * Y
    · have hgt : q < qh := by
        by_contra h
        have : qh * Y ≤ q * Y := Nat.mul_le_mul_right _ (by omega)
        omega
      obtain ⟨b1, r1, t1, s1, f1, f2, f3, f4, f5, f6, f7⟩ :=
        corr_step L e3 hdv e2 hqok hqok e4 (by omega) e5'
      have f4' : r1.length = v.length + 1 := by rw [f4, hnden]
      have f7n : val B r1 + B ^ (v.length + 1) * t1 = (qh - 1) * Y := by rw [← hnden, f7, hYv]
      rw [if_pos (by simpa using c1), f1, ok_bind]
      simp only []
      rw [f2, ok_bind]
      simp only []
      simp only [ok_bind]
      rw [hcmp f4' f5, f7n]
      by_cases c2 : N < (qh - 1) * Y
      · have hgt2 : q < qh - 1 := by
          by_contra h
          have : (qh - 1) * Y ≤ q * Y := Nat.mul_le_mul_right _ (by omega)
          omega
        obtain ⟨b2, r2, t2, s2, g1, g2, g3, g4, g5, g6, g7⟩ :=
          corr_step L f5 hdv f4 f3 hqok f6 (by omega) f7
        have g4' : r2.length = v.length + 1 := by rw [g4, hnden]
        have hq2 : qh - 1 - 1 = q := by omega
        have g7n : val B r2 + B ^ (v.length + 1) * t2 = q * Y := by
          rw [← hnden, g7, hYv, hq2]
        obtain ⟨w', i1, i2, i3, i4, i6⟩ := hfin g4' g5 g7n
        obtain ⟨z, i5⟩ := hos i1
        refine ⟨w', r2 ++ [t2], ?_, i2, i3, i4, by simp [g4'], fun _ => i6⟩
        rw [if_pos (by simpa using c2), g1, ok_bind]
        simp only []
        rw [g2, ok_bind]
        simp only [pure_eq_ok, ok_bind]
        rw [i5, ok_bind]
        simp only [ok_bind]
        rw [setR_ok hq, ok_bind, hq2]
      · have hq1 : qh - 1 = q := by
          have h1 : qh - 1 < q + 1 := by
            by_contra h
            have : (q + 1) * Y ≤ (qh - 1) * Y := Nat.mul_le_mul_right _ (by omega)
            omega
          omega
        rw [hq1] at f7n
        obtain ⟨w', i1, i2, i3, i4, i6⟩ := hfin f4' f5 f7n
        obtain ⟨z, i5⟩ := hos i1
        refine ⟨w', r1 ++ [t1], ?_, i2, i3, i4, by simp [f4'], fun _ => i6⟩
        rw [if_neg (by simpa using c2)]
        simp only [pure_eq_ok, ok_bind]
        rw [i5, ok_bind]
        simp only [ok_bind]
        rw [setR_ok hq, ok_bind, hq1]
    · have hq1 : qh = q := by
        have h1 : qh < q + 1 := by
          by_contra h
          have : (q + 1) * Y ≤ qh * Y := Nat.mul_le_mul_right _ (by omega)
          omega
        omega
      rw [hq1] at e5n
      obtain ⟨w', i1, i2, i3, i4, i6⟩ := hfin e2' e3 e5n
      obtain ⟨z, i5⟩ := hos i1
      refine ⟨w', r0 ++ [t0], ?_, i2, i3, i4, by simp [e2'], fun _ => i6⟩
      rw [if_neg (by simpa using c1)]
      simp only [pure_eq_ok, ok_bind]
      rw [i5, ok_bind]
      simp only [ok_bind]
      rw [setR_ok hq, ok_bind, hq1]

/-! ## The first digit -/

theorem firstTooLarge_spec {lo w r : List Nat} {c t m : Nat} (hw : Digs B w) (hr : Digs B r)
    (hwl : w.length = m) (hrl : r.length = m) :
    firstTooLarge (lo ++ w) c m (r ++ [t])
      = .ok (decide (val B w + B ^ m * c < val B r + B ^ m * t)) := by
  have hvw := val_lt hw
  have hvr := val_lt hr
  rw [hwl] at hvw
  rw [hrl] at hvr
  have hmul : ∀ {x y : Nat}, x < y → B ^ m * x + B ^ m ≤ B ^ m * y := by
    intro x y h
    calc _ = B ^ m * (x + 1) := by ring
      _ ≤ _ := Nat.mul_le_mul_left _ h
  unfold firstTooLarge
  rw [getR_ok (by simp; omega), ok_bind]
  have hg : (r ++ [t])[m]'(by simp; omega) = t := by simp [← hrl]
  rw [hg]
  have hs1 : slice (lo ++ w) ((lo ++ w).length - m) (lo ++ w).length = .ok w := by
    have := slice_append (p := lo) (s := w) (q := []) (a := (lo ++ w).length - m)
      (b := (lo ++ w).length) (by simp; omega) (by simp; omega)
    simpa using this
  have hs2 : slice (r ++ [t]) 0 m = .ok r := by
    have := slice_append (p := []) (s := r) (q := [t]) (a := 0) (b := m) rfl (by omega)
    simpa using this
  rcases Nat.lt_trichotomy c t with h | h | h
  · have := hmul h
    rw [if_pos h, pure_eq_ok]
    congr 1
    simp; omega
  · subst h
    rw [if_neg (lt_irrefl _), if_pos rfl, hs1, ok_bind, hs2, ok_bind,
      ltBig_dec (ltBig_same_length hw hr (by omega)), pure_eq_ok]
    congr 1
    simp
  · have := hmul h
    rw [if_neg (by omega), if_neg (by omega), pure_eq_ok]
    congr 1
    simp; omega

/-- What the first digit leaves: `k` is the number of other digits; `P` holds if nothing is stored. -/
def FirstPost (B : Nat) (lo : List Nat) (N Y m k : Nat) (P : Prop) (quot qden : List Nat)
    (r : List Nat × List Nat × List Nat × Nat) : Prop :=
  ∃ w', r.1 = lo ++ w' ∧ w'.length = m ∧ Digs B w' ∧ val B w' = N % Y ∧
    r.2.2.1.length = m + 1 ∧ (Digs B qden → Digs B r.2.2.1) ∧
    ((r.2.1 = quot ∧ r.2.2.2 = k ∧ N / Y = 0 ∧ P) ∨
     (k < quot.length ∧ r.2.1 = quot.set k (N / Y) ∧ r.2.2.2 = k + 1))

theorem longFirst_spec (L : Lawful D B) {lo u v quot qden : List Nat} {a c f : Nat}
    (hu : Digs B (u ++ [a])) (hv : Digs B (v ++ [f])) (huv : u.length = v.length)
    (hB : B ≤ 2 * f) (hqd : qden.length = v.length + 2) (hcf : c < f) :
    Sp (fun p => p = .index ∧ quot.length ≤ lo.length ∧ f ≤ c * B + a)
      (longFirst D dbg (lo ++ (u ++ [a])) c (v ++ [f]) f quot qden)
      (FirstPost B lo (val B (u ++ [a]) + B ^ (v.length + 1) * c) (val B (v ++ [f])) (v.length + 1)
        lo.length (c * B + a < f) quot qden) := by
  have hB0 := L.pos
  have hdu := hu
  have hdv := hv
  simp only [digs_append, digs_cons, digs_nil, and_true] at hu hv
  have hVN : val B (u ++ [a]) + B ^ (v.length + 1) * c
      = (c * B + a) * B ^ v.length + val B u := by
    rw [val_snoc, huv]; ring
  have hVY : val B (v ++ [f]) = f * B ^ v.length + val B v := by rw [val_snoc]; ring
  have hnu := val_lt hu.1
  have hnv := val_lt hv.1
  rw [huv] at hnu
  have hY : 0 < val B (v ++ [f]) := by
    rw [hVY]
    have : 0 < f * B ^ v.length := Nat.mul_pos (by omega) (pow_pos hB0 _)
    omega
  have hlt : val B (u ++ [a]) + B ^ (v.length + 1) * c < val B (v ++ [f]) * B := by
    have h1 := val_lt hdu
    have h2 : (u ++ [a]).length = v.length + 1 := by simp [huv]
    rw [h2] at h1
    have h3 : B ^ (v.length + 1) * (c + 1) ≤ B ^ (v.length + 1) * f := Nat.mul_le_mul_left _ hcf
    have h4 : B ^ (v.length + 1) * (c + 1) = B ^ (v.length + 1) * c + B ^ (v.length + 1) := by ring
    have h5 : (f * B ^ v.length + val B v) * B = B ^ (v.length + 1) * f + val B v * B := by ring
    rw [hVY, h5]
    omega
  have hkn := knuth_est (B := B) (a := a) (f := f) (c := c) hu.2 hB hnu hnv
    (by rw [← hVN, ← hVY]; exact hlt)
  rw [← hVN, ← hVY] at hkn
  have hNlt : val B (u ++ [a]) + B ^ (v.length + 1) * c < B ^ (v.length + 1 + 1) := by
    have h1 := val_lt hdu
    have h2 : (u ++ [a]).length = v.length + 1 := by simp [huv]
    rw [h2] at h1
    have h3 : B ^ (v.length + 1) * (c + 1) ≤ B ^ (v.length + 1) * B :=
      Nat.mul_le_mul_left _ (by omega)
    have h4 : B ^ (v.length + 1) * (c + 1) = B ^ (v.length + 1) * c + B ^ (v.length + 1) := by ring
    rw [pow_succ B (v.length + 1)]
    omega
  have hqmul := Nat.div_mul_le_self (val B (u ++ [a]) + B ^ (v.length + 1) * c) (val B (v ++ [f]))
  have hYlt := val_lt hdv
  have hmodlt : (val B (u ++ [a]) + B ^ (v.length + 1) * c) % val B (v ++ [f]) < val B (v ++ [f]) :=
    Nat.mod_lt _ hY
  obtain ⟨rm, hdc, hqok⟩ := divCarry_est L hu.2 hv.2 hB (Or.inl hcf)
  have hz2 : (c * B + a) / f = 0 → c = 0 := by
    intro h
    rw [Nat.div_eq_zero_iff] at h
    by_contra h0
    have : 1 * B ≤ c * B := Nat.mul_le_mul_right _ (by omega)
    omega
  -- abstract the values
  generalize hN : val B (u ++ [a]) + B ^ (v.length + 1) * c = N at *
  generalize hYv : val B (v ++ [f]) = Y at *
  generalize hqh : (c * B + a) / f = qh at *
  generalize hqq : N / Y = q at *
  have hmod : N - q * Y = N % Y := by rw [← hqq]; exact div_eq_sub_mod
  have hqlt : N < (q + 1) * Y := by
    have := Nat.lt_div_mul_add hY (a := N)
    rw [hqq] at this
    rw [Nat.add_mul, Nat.one_mul]; exact this
  have hnden : (v ++ [f]).length = v.length + 1 := by simp
  have hnnum : (lo ++ (u ++ [a])).length = lo.length + v.length + 1 := by simp [huv]; omega
  have hk : lo.length + v.length + 1 - (v.length + 1) = lo.length := by omega
  unfold longFirst
  simp only [hnden, hnnum, hk]
  have hg1 : getR (lo ++ (u ++ [a])) (lo.length + v.length + 1 - 1) = .ok a := by
    rw [getR_ok (by simp; omega)]
    congr 1
    simp [huv]
  rw [hg1, ok_bind, hdc, ok_bind]
  simp only []
  by_cases hz : qh = 0
  · have hq0 : q = 0 := by omega
    rw [if_pos hz]
    refine Sp.pure ⟨u ++ [a], rfl, by simp [huv], hdu, ?_, hqd, fun h => h, 
      Or.inl ⟨rfl, by simp, hqq.trans hq0, ?_⟩⟩
    rotate_left
    · rw [← hqh, Nat.div_eq_zero_iff] at hz; omega
    have := hz2 hz
    subst this
    simp at hN
    rw [hN, ← hmod, hq0]; simp
  · obtain ⟨r0, t0, e1, e2, e3, e4, e5⟩ := mulDigitInto_q (dbg := dbg) L hqok (v ++ [f]) qden hdv
      (by simp [hqd])
    rw [if_neg hz, e1, ok_bind]
    have hwl : (u ++ [a]).length = v.length + 1 := by simp [huv]
    have hcmp : ∀ {r : List Nat} {t : Nat}, r.length = v.length + 1 → Digs B r →
        firstTooLarge (lo ++ (u ++ [a])) c (v.length + 1) (r ++ [t])
          = .ok (decide (N < val B r + B ^ (v.length + 1) * t)) := by
      intro r t h1 h2
      rw [firstTooLarge_spec hdu h2 hwl h1, hN]
    -- the rest
    have hfin : ∀ {r : List Nat} {t : Nat}, r.length = v.length + 1 → Digs B r →
        val B r + B ^ (v.length + 1) * t = q * Y →
        Sp (fun p => p = .index ∧ quot.length ≤ lo.length ∧ f ≤ c * B + a)
          (do
            let (num, _) ← onSlice (lo ++ (u ++ [a])) lo.length (lo.length + v.length + 1)
              (fun s => do subAssignBig D s (← slice (r ++ [t]) 0 (v.length + 1)))
            let quot ← setR quot (lo.length + 1 - 1) q
            return (num, quot, r ++ [t], lo.length + 1))
          (FirstPost B lo N Y (v.length + 1) lo.length (c * B + a < f) quot qden) := by
      intro r t h1 h2 h3
      obtain ⟨h4, -⟩ := digs_top h2 h1 hNlt (by rw [h3]; exact hqmul)
      obtain ⟨w', res, h6, h7⟩ := subAssignBig_spec L (u ++ [a]) r hdu h2 (by simp [huv, h1])
      have hv' : val B w' = N % Y := by
        have hw1 := val_lt h7.digs
        have hmeq : val B w' + (q * Y + B ^ (v.length + 1) * c)
            = val B (u ++ [a]) + B ^ (v.length + 1) * t + B ^ (v.length + 1) * c ∨
            val B w' + (q * Y + B ^ (v.length + 1) * c)
            = val B (u ++ [a]) + B ^ (v.length + 1) * t + B ^ (v.length + 1) * c
              + B ^ (v.length + 1) := by
          rcases h7.cases with ⟨-, -, h8⟩ | ⟨-, nd, -, -, h8, -⟩
          · right; rw [hwl] at h8; omega
          · left; omega
        rw [h7.len, hwl] at hw1
        rw [hnden] at hYlt
        have e : val B w' % B ^ (v.length + 1) = (N % Y) % B ^ (v.length + 1) := by
          have hN' : N % Y + q * Y = N := by omega
          have e1 : val B w' + q * Y ≡ N % Y + q * Y [MOD B ^ (v.length + 1)] := by
            rw [hN', ← hN]
            rcases hmeq with h | h
            · have h' : val B w' + q * Y = val B (u ++ [a]) + B ^ (v.length + 1) * t := by omega
              rw [h']
              exact (Nat.ModEq.refl _).add ((Nat.modEq_zero_iff_dvd.mpr (dvd_mul_right _ _)).trans
                (Nat.modEq_zero_iff_dvd.mpr (dvd_mul_right _ _)).symm)
            · have h' : val B w' + q * Y = val B (u ++ [a]) + B ^ (v.length + 1) * (t + 1) := by
                rw [Nat.mul_add, Nat.mul_one]; omega
              rw [h']
              exact (Nat.ModEq.refl _).add ((Nat.modEq_zero_iff_dvd.mpr (dvd_mul_right _ _)).trans
                (Nat.modEq_zero_iff_dvd.mpr (dvd_mul_right _ _)).symm)
          exact Nat.ModEq.add_right_cancel' _ e1
        rwa [Nat.mod_eq_of_lt hw1, Nat.mod_eq_of_lt (by omega)] at e
      have hos := onSlice_append (p := lo) (s := u ++ [a]) (q := []) (a := lo.length)
        (b := lo.length + v.length + 1)
        (f := fun s => do subAssignBig D s (← slice (r ++ [t]) 0 (v.length + 1))) rfl
        (by simp [huv]; omega)
      have hs2 : slice (r ++ [t]) 0 (v.length + 1) = .ok r := by
        have := slice_append (p := []) (s := r) (q := [t]) (a := 0) (b := v.length + 1) rfl (by omega)
        simpa using this
      rw [List.append_nil] at hos
      rw [hos, hs2, ok_bind, h6]
      simp only [ok_bind, pure_eq_ok, Nat.add_sub_cancel, List.append_nil]
      by_cases hql : lo.length < quot.length
      · rw [setR_ok hql, ok_bind]
        exact Sp.ok ⟨w', rfl, by rw [h7.len, hwl], h7.digs, hv', by simp [h1], fun _ => h4,
          Or.inr ⟨hql, by simp [hqq], rfl⟩⟩
      · have : setR quot lo.length q = .error .index := by simp [setR, hql]
        rw [this, error_bind]
        refine ⟨rfl, by omega, ?_⟩
        by_contra h
        rw [← hqh, Nat.div_eq_of_lt (by omega)] at hz
        exact hz rfl
    have e5' : val B r0 + B ^ (v ++ [f]).length * t0 = qh * val B (v ++ [f]) := by
      rw [e5]; ring
    have e2' : r0.length = v.length + 1 := by rw [e2, hnden]
    have e5n : val B r0 + B ^ (v.length + 1) * t0 = qh * Y := by rw [← hnden, e5', hYv]
    rw [hcmp e2' e3, e5n, ok_bind]
    by_cases c1 : N < qh * Y
    · have hgt : q < qh := by
        by_contra h
        have : qh * Y ≤ q * Y := Nat.mul_le_mul_right _ (by omega)
        omega
      obtain ⟨b1, r1, t1, s1, f1, f2, f3, f4, f5, f6, f7⟩ :=
        corr_step L e3 hdv e2 hqok hqok e4 (by omega) e5'
      have f4' : r1.length = v.length + 1 := by rw [f4, hnden]
      have f7n : val B r1 + B ^ (v.length + 1) * t1 = (qh - 1) * Y := by rw [← hnden, f7, hYv]
      rw [if_pos (by simpa using c1), f1, ok_bind]
      simp only []
      rw [f2, ok_bind]
      simp only []
      rw [hcmp f4' f5, f7n, ok_bind]
      by_cases c2 : N < (qh - 1) * Y
      · have hgt2 : q < qh - 1 := by
          by_contra h
          have : (qh - 1) * Y ≤ q * Y := Nat.mul_le_mul_right _ (by omega)
          omega
        obtain ⟨b2, r2, t2, s2, g1, g2, g3, g4, g5, g6, g7⟩ :=
          corr_step L f5 hdv f4 f3 hqok f6 (by omega) f7
        have g4' : r2.length = v.length + 1 := by rw [g4, hnden]
        have hq2 : qh - 1 - 1 = q := by omega
        have g7n : val B r2 + B ^ (v.length + 1) * t2 = q * Y := by
          rw [← hnden, g7, hYv, hq2]
        rw [if_pos (by simpa using c2), g1, ok_bind]
        simp only []
        rw [g2, ok_bind]
        simp only [pure_eq_ok, ok_bind]
        rw [hq2]
        exact hfin g4' g5 g7n
      · have hq1 : qh - 1 = q := by
          have h1 : qh - 1 < q + 1 := by
            by_contra h
            have : (q + 1) * Y ≤ (qh - 1) * Y := Nat.mul_le_mul_right _ (by omega)
            omega
          omega
        rw [hq1] at f7n
        rw [if_neg (by simpa using c2)]
        simp only [pure_eq_ok, ok_bind]
        rw [hq1]
        exact hfin f4' f5 f7n
    · have hq1 : qh = q := by
        have h1 : qh < q + 1 := by
          by_contra h
          have : (q + 1) * Y ≤ qh * Y := Nat.mul_le_mul_right _ (by omega)
          omega
        omega
      rw [hq1] at e5n
      rw [if_neg (by simpa using c1)]
      simp only [pure_eq_ok, ok_bind]
      rw [hq1]
      exact hfin e2' e3 e5n

/-! ## The loop -/

/-- The condition under which the estimates are right: no tie of the leading digits of remainder and
divisor, unless the digits can represent the estimate.  `f` is the leading digit of the divisor,
which has `m + 1` digits; `iq` quotient digits are still to do. -/
def TieOk (D : DigitOps) (B X Y f m iq : Nat) : Prop :=
  TieLaw D B ∨ ∀ i, i < iq → (X / B ^ (i + 1)) % Y < f * B ^ m

theorem longLoop_spec (L : Lawful D B) {v : List Nat} {f : Nat} (hv : Digs B (v ++ [f]))
    (hB : B ≤ 2 * f) (iq : Nat) :
    ∀ (lo w hi ql qh qden : List Nat), lo.length = iq → w.length = v.length + 1 → Digs B lo →
      Digs B w → ql.length = iq → qden.length = v.length + 2 → val B w < val B (v ++ [f]) →
      TieOk D B (val B lo + B ^ iq * val B w) (val B (v ++ [f])) f v.length iq →
    ∃ w' ql' qden', longLoop D dbg (v ++ [f]) f iq (lo ++ w ++ hi) (ql ++ qh) qden
        = .ok (w' ++ List.replicate iq 0 ++ hi, ql' ++ qh, qden') ∧
      w'.length = v.length + 1 ∧ Digs B w' ∧ ql'.length = iq ∧ Digs B ql' ∧
      qden'.length = v.length + 2 ∧ (Digs B qden → Digs B qden') ∧
      val B w' = (val B lo + B ^ iq * val B w) % val B (v ++ [f]) ∧
      val B ql' = (val B lo + B ^ iq * val B w) / val B (v ++ [f]) := by
  have hB0 := L.pos
  induction iq with
  | zero =>
    intro lo w hi ql qh qden h1 h2 h3 h4 h5 h6 h7 h8
    have : lo = [] := List.eq_nil_of_length_eq_zero h1
    subst this
    have : ql = [] := List.eq_nil_of_length_eq_zero h5
    subst this
    refine ⟨w, [], qden, by simp [longLoop], h2, h4, rfl, digs_nil B, h6, fun h => h, ?_, ?_⟩
    · simp [Nat.mod_eq_of_lt h7]
    · simp [Nat.div_eq_of_lt h7]
  | succ iq ih =>
    intro lo w hi ql qh qden h1 h2 h3 h4 h5 h6 h7 h8
    obtain ⟨lo, d, rfl⟩ : ∃ lo' d, lo = lo' ++ [d] :=
      ⟨lo.dropLast, lo.getLast (by intro h; simp [h] at h1),
        (List.dropLast_concat_getLast _).symm⟩
    obtain ⟨ql, x, rfl⟩ : ∃ ql' x, ql = ql' ++ [x] :=
      ⟨ql.dropLast, ql.getLast (by intro h; simp [h] at h5),
        (List.dropLast_concat_getLast _).symm⟩
    obtain ⟨u0, c, rfl⟩ : ∃ u c, w = u ++ [c] :=
      ⟨w.dropLast, w.getLast (by intro h; simp [h] at h2),
        (List.dropLast_concat_getLast _).symm⟩
    have hlo : lo.length = iq := by simpa using h1
    have hql : ql.length = iq := by simpa using h5
    have hu0 : u0.length = v.length := by simpa using h2
    simp only [digs_append, digs_cons, digs_nil, and_true] at h3 h4
    -- the window
    obtain ⟨u, a, hua⟩ : ∃ u a, d :: u0 = u ++ [a] :=
      ⟨(d :: u0).dropLast, (d :: u0).getLast (by simp), (List.dropLast_concat_getLast _).symm⟩
    have hul : u.length = v.length := by
      have := congrArg List.length hua
      simp at this; omega
    have hwin : [d] ++ (u0 ++ [c]) = u ++ [a, c] := by
      have : u ++ [a, c] = (u ++ [a]) ++ [c] := by simp
      rw [this, ← hua]; simp
    have hdw : Digs B (u ++ [a, c]) := by rw [← hwin]; simp [h3.2, h4.1, h4.2]
    have hvwin : val B (u ++ [a, c]) = d + B * val B (u0 ++ [c]) := by rw [← hwin]; simp
    have hd := h3.2
    have hlt : val B (u ++ [a, c]) < val B (v ++ [f]) * B := by
      rw [hvwin]
      have : B * (val B (u0 ++ [c]) + 1) ≤ B * val B (v ++ [f]) := Nat.mul_le_mul_left _ h7
      have h9 : B * (val B (u0 ++ [c]) + 1) = B * val B (u0 ++ [c]) + B := by ring
      have h10 : val B (v ++ [f]) * B = B * val B (v ++ [f]) := Nat.mul_comm _ _
      omega
    have hY : 0 < val B (v ++ [f]) := by omega
    have hX : val B (lo ++ [d]) + B ^ (iq + 1) * val B (u0 ++ [c])
        = val B lo + B ^ iq * val B (u ++ [a, c]) := by
      rw [hvwin, val_snoc, hlo]; ring
    have hvlo := val_lt h3.1
    rw [hlo] at hvlo
    have htie : c < f ∨ TieLaw D B := by
      rcases h8 with h | h
      · exact Or.inr h
      · left
        have := h iq (by omega)
        have hdl := val_lt (b := B) (ds := lo ++ [d]) (by simp [h3.1, h3.2])
        rw [h1] at hdl
        rw [Nat.add_comm (val B (lo ++ [d])), Nat.mul_add_div (pow_pos hB0 _),
          Nat.div_eq_of_lt hdl, Nat.add_zero, Nat.mod_eq_of_lt h7, val_snoc, hu0] at this
        by_contra hc
        have h9 : f * B ^ v.length ≤ c * B ^ v.length := Nat.mul_le_mul_right _ (by omega)
        have h10 : B ^ v.length * c = c * B ^ v.length := Nat.mul_comm _ _
        omega
    obtain ⟨w1, qden1, e1, e2, e3, e4, e5, e6⟩ := longStep_spec (dbg := dbg) L (lo := lo) (hi := hi)
      (quot := (ql ++ [x]) ++ qh) (iq := iq) hdw hv hul hlo hB (by simp; omega) h6 hlt htie
    -- the top digit of the new window is zero
    obtain ⟨w2, z, rfl⟩ : ∃ w' z, w1 = w' ++ [z] :=
      ⟨w1.dropLast, w1.getLast (by intro h; simp [h] at e2),
        (List.dropLast_concat_getLast _).symm⟩
    have hw2 : w2.length = v.length + 1 := by simpa using e2
    simp only [digs_append, digs_cons, digs_nil, and_true] at e3
    have hmlt : val B (u ++ [a, c]) % val B (v ++ [f]) < val B (v ++ [f]) := Nat.mod_lt _ hY
    have hYlt := val_lt hv
    have hz : z = 0 := by
      rw [val_snoc, hw2] at e4
      simp only [List.length_append, List.length_singleton] at hYlt
      by_contra h
      have : B ^ (v.length + 1) * 1 ≤ B ^ (v.length + 1) * z := Nat.mul_le_mul_left _ (by omega)
      omega
    subst hz
    have hvw2 : val B w2 = val B (u ++ [a, c]) % val B (v ++ [f]) := by
      rw [← e4, val_snoc]; simp
    -- the rest of the digits
    generalize hN : val B (u ++ [a, c]) = N at *
    generalize hYv : val B (v ++ [f]) = Y at *
    have hNq := Nat.mod_add_div N Y
    have hXX : val B lo + B ^ iq * N = (val B lo + B ^ iq * val B w2) + B ^ iq * (N / Y) * Y := by
      rw [hvw2]
      conv_lhs => rw [← hNq]
      ring
    have hq : N / Y < B := by
      rw [Nat.div_lt_iff_lt_mul hY]; rw [Nat.mul_comm]; exact hlt
    obtain ⟨w', ql', qden', f1, f2, f3, f4, f5, f6, f9, f7, f8⟩ := ih lo w2 (0 :: hi) ql
      (N / Y :: qh) qden1 hlo hw2 h3.1 e3.1 hql e5 (by omega) (by
        rcases h8 with h | h
        · exact Or.inl h
        · refine Or.inr (fun i hi => ?_)
          have := h i (by omega)
          rw [hX, hXX] at this
          obtain ⟨j, rfl⟩ : ∃ j, iq = (i + 1) + j := ⟨iq - (i + 1), by omega⟩
          have e : B ^ (i + 1 + j) * (N / Y) * Y = B ^ (i + 1) * (B ^ j * (N / Y) * Y) := by
            rw [pow_add]; ring
          rw [e, Nat.add_mul_div_left _ _ (pow_pos hB0 _), Nat.add_mul_mod_self_right] at this
          exact this)
    refine ⟨w', ql' ++ [N / Y], qden', ?_, f2, f3, by simp [f4], by simp [f5, hq], f6, fun h => f9 (e6 h), ?_, ?_⟩
    · rw [longLoop]
      have harg : (lo ++ [d]) ++ (u0 ++ [c]) ++ hi = lo ++ (u ++ [a, c]) ++ hi := by
        rw [← hwin]; simp
      rw [harg, e1, ok_bind]
      simp only []
      have hset : ((ql ++ [x]) ++ qh).set iq (N / Y) = ql ++ (N / Y :: qh) := by
        rw [List.append_assoc, List.set_append_right _ _ (by omega), hql]
        simp
      have hnum : lo ++ (w2 ++ [0]) ++ hi = lo ++ w2 ++ (0 :: hi) := by simp
      rw [hset, hnum, f1]
      congr 2
      · rw [List.replicate_succ']; simp
      · simp
    · rw [hX, hXX, Nat.add_mul_mod_self_right]; exact f7
    · rw [hX, hXX, Nat.add_mul_div_right _ _ hY, val_snoc, f8, f4]

theorem TieOk.sub {X Y f m iq q : Nat} (hB : 0 < B)
    (h : TieOk D B (X + B ^ iq * q * Y) Y f m iq) : TieOk D B X Y f m iq := by
  rcases h with h | h
  · exact Or.inl h
  · refine Or.inr (fun i hi => ?_)
    have := h i hi
    obtain ⟨j, rfl⟩ : ∃ j, iq = (i + 1) + j := ⟨iq - (i + 1), by omega⟩
    have e : B ^ (i + 1 + j) * q * Y = B ^ (i + 1) * (B ^ j * q * Y) := by
      rw [pow_add]; ring
    rw [e, Nat.add_mul_div_left _ _ (pow_pos hB _), Nat.add_mul_mod_self_right] at this
    exact this

/-! ## The whole -/

/-- The effect of a division of `X` by `Y` on the buffers: the remainder replaces the dividend and
is followed by zeros; the quotient, followed by zeros up to some place not after `k`, is in `quot`;
after that, `quot` is as before. -/
structure DivOut (B X Y k : Nat) (num quot num' quot' : List Nat) (nquot nrem : Nat) : Prop where
  nlen : num'.length = num.length
  ndigs : Digs B num'
  nrem_le : nrem ≤ num.length
  num_eq : num' = num'.take nrem ++ List.replicate (num.length - nrem) 0
  rcanon : Canon (num'.take nrem)
  rval : val B num' = X % Y
  qlen : quot'.length = quot.length
  nquot_le : nquot ≤ quot.length
  quot_eq : ∃ j, nquot ≤ j ∧ j ≤ k ∧ j ≤ quot.length ∧
    quot' = quot'.take nquot ++ List.replicate (j - nquot) 0 ++ quot.drop j
  qdigs : Digs B (quot'.take nquot)
  qcanon : Canon (quot'.take nquot)
  qval : val B (quot'.take nquot) = X / Y

theorem divBigLongScaled_spec (L : Lawful D B) {num v quot work : List Nat} {c f : Nat}
    (hn : Digs B num) (hv : Digs B (v ++ [f])) (hlen : v.length + 1 ≤ num.length)
    (hB : B ≤ 2 * f) (hcf : c < f) (hq : num.length - (v.length + 1) ≤ quot.length)
    (hw : v.length + 2 ≤ work.length)
    (ht : TieOk D B (val B num + B ^ num.length * c) (val B (v ++ [f])) f v.length
      (num.length - (v.length + 1))) :
    Sp (fun p => p = .index ∧ quot.length ≤ num.length - (v.length + 1) ∧
        B ^ (num.length - 1) * f ≤ val B num + B ^ num.length * c)
      (divBigLongScaled D dbg num c (v ++ [f]) quot work)
      (fun r => DivOut B (val B num + B ^ num.length * c) (val B (v ++ [f]))
        (num.length - (v.length + 1) + 1) num quot r.1 r.2.1 r.2.2.2.1 r.2.2.2.2 ∧
        r.2.2.1.length = work.length ∧ (Digs B work → Digs B r.2.2.1) ∧
        r.2.2.2.2 ≤ v.length + 1 ∧ (quot.length ≤ num.length - (v.length + 1) →
          val B num + B ^ num.length * c < B ^ (num.length - 1) * f)) := by
  have hB0 := L.pos
  have hnden : (v ++ [f]).length = v.length + 1 := by simp
  have hf : f < B := hv f (by simp)
  unfold divBigLongScaled
  have hg : getR (v ++ [f]) ((v ++ [f]).length - 1) = .ok f := by
    rw [getR_ok (by simp)]; simp
  simp only []
  rw [hg, ok_bind]
  obtain ⟨s, hs1, hs2, hs3⟩ := L.maxShift f (by omega) hf
  have hs0 : s = 0 := by
    by_contra h
    have : 2 ^ 1 ≤ 2 ^ s := Nat.pow_le_pow_right (by omega) (by omega)
    have : f * 2 ^ 1 ≤ f * 2 ^ s := Nat.mul_le_mul_left _ this
    omega
  rw [hs1, ok_bind, hs0]
  refine Sp.bind_eq (a := ()) (by simp [debugAssertR]) ?_
  rw [splitAtR_ok (by rw [hnden]; omega), ok_bind]
  simp only []
  obtain ⟨lo, ua, hlo, hsplit⟩ : ∃ lo ua, lo.length = num.length - (v.length + 1) ∧ num = lo ++ ua :=
    ⟨num.take _, num.drop _, by simp, (List.take_append_drop (num.length - (v.length + 1)) num).symm⟩
  have hual : ua.length = v.length + 1 := by
    have := congrArg List.length hsplit
    simp at this; omega
  obtain ⟨u, a, rfl⟩ : ∃ u a, ua = u ++ [a] :=
    ⟨ua.dropLast, ua.getLast (by intro h; simp [h] at hual), (List.dropLast_concat_getLast _).symm⟩
  have hul : u.length = v.length := by simpa using hual
  have hdig := hn
  rw [hsplit, digs_append] at hdig
  have hfirst := longFirst_spec (dbg := dbg) L (lo := lo) (quot := quot)
    (qden := work.take (v.length + 1 + 1)) hdig.2 hv hul hB (by simp; omega) hcf
  have hX : val B num + B ^ num.length * c
      = val B lo + B ^ lo.length * (val B (u ++ [a]) + B ^ (v.length + 1) * c) := by
    have : num.length = lo.length + (v.length + 1) := by omega
    rw [this, pow_add]
    rw [hsplit, val_append]; ring
  have hk : num.length - (v.length + 1) = lo.length := by omega
  rw [hX] at ht ⊢
  rw [hnden, hk]
  rw [hk] at ht hq
  conv => arg 2; arg 1; rw [hsplit]
  refine Sp.bind (hfirst.weaken ?_) ?_
  · rintro p ⟨p1, p2, p3⟩
    refine ⟨p1, p2, ?_⟩
    have h1 : num.length - 1 = lo.length + v.length := by omega
    have h2 := Nat.mul_le_mul_left (B ^ lo.length * B ^ v.length) p3
    have h3 : B ^ lo.length * B ^ v.length * (c * B + a)
        = B ^ lo.length * (B ^ v.length * a + B ^ (v.length + 1) * c) := by ring
    rw [h1, pow_add, val_snoc, hul]
    refine le_trans h2 ?_
    rw [h3]
    refine le_trans (Nat.mul_le_mul_left _ ?_) (Nat.le_add_left _ _)
    omega
  rintro ⟨num1, quot1, qden1, nq1⟩ ⟨w1, h1, h2, h3, h4, h5, h7, h6⟩
  simp only at h1 h5 h6 h7 ⊢
  subst h1
  generalize hN : val B (u ++ [a]) + B ^ (v.length + 1) * c = N at *
  have hY : 0 < val B (v ++ [f]) := by
    rw [val_snoc]
    have : 0 < B ^ v.length * f := Nat.mul_pos (pow_pos hB0 _) (by omega)
    omega
  have hroom : quot.length ≤ lo.length →
      val B lo + B ^ lo.length * N < B ^ (num.length - 1) * f := by
    intro hl
    rcases h6 with ⟨-, -, -, hlt⟩ | ⟨h, -⟩
    · have g1 : num.length - 1 = lo.length + v.length := by omega
      have g2 := val_lt hdig.1
      have g3 := val_lt (b := B) (ds := u) (fun x hx => hdig.2 x (by simp [hx]))
      rw [hul] at g3
      have g4 : N < B ^ v.length * f := by
        rw [← hN, val_snoc, hul]
        have : B ^ v.length * (c * B + a + 1) ≤ B ^ v.length * f := Nat.mul_le_mul_left _ hlt
        have e : B ^ v.length * (c * B + a + 1)
          = B ^ v.length * a + B ^ (v.length + 1) * c + B ^ v.length := by ring
        omega
      have g5 : B ^ lo.length * (N + 1) ≤ B ^ lo.length * (B ^ v.length * f) :=
        Nat.mul_le_mul_left _ g4
      rw [g1, pow_add, Nat.mul_assoc]
      have e : B ^ lo.length * (N + 1) = B ^ lo.length * N + B ^ lo.length := by ring
      omega
    · omega
  have hw1 : val B w1 < val B (v ++ [f]) := by rw [h4]; exact Nat.mod_lt _ hY
  have hXX : val B lo + B ^ lo.length * N
      = (val B lo + B ^ lo.length * val B w1) + B ^ lo.length * (N / val B (v ++ [f])) * val B (v ++ [f]) := by
    rw [h4]
    conv_lhs => rw [← Nat.mod_add_div N (val B (v ++ [f]))]
    ring
  have ht1 : TieOk D B (val B lo + B ^ lo.length * val B w1) (val B (v ++ [f])) f v.length
      lo.length := by rw [hXX] at ht; exact ht.sub hB0
  have hql1 : quot1.length = quot.length := by
    rcases h6 with ⟨h, -⟩ | ⟨-, h, -⟩
    · rw [h]
    · rw [h]; simp
  obtain ⟨w', ql', qden', f1, f2, f3, f4, f5, f6, f9, f7, f8⟩ := longLoop_spec (dbg := dbg) L hv hB
    lo.length lo w1 [] (quot1.take lo.length) (quot1.drop lo.length) qden1 rfl h2 hdig.1 h3
    (by simp; omega) h5 hw1 ht1
  rw [List.take_append_drop, List.append_nil, List.append_nil] at f1
  rw [f1, ok_bind]
  simp only []
  -- the quotient
  have hq' : ∃ qd, ql' ++ quot1.drop lo.length = qd ++ quot.drop nq1 ∧ qd.length = nq1 ∧
      nq1 ≤ lo.length + 1 ∧ nq1 ≤ quot.length ∧ Digs B qd ∧
      val B qd = (val B lo + B ^ lo.length * N) / val B (v ++ [f]) := by
    rcases h6 with ⟨g1, g2, g3, -⟩ | ⟨g1, g2, g3⟩
    · refine ⟨ql', by rw [g1, g2], by rw [f4, g2], by omega, by omega, f5, ?_⟩
      rw [hXX, g3]; simpa using f8
    · have hNB : N / val B (v ++ [f]) < B := by
        rw [Nat.div_lt_iff_lt_mul hY, ← hN]
        have g4 := val_lt hdig.2
        rw [hual] at g4
        have g5 : B ^ (v.length + 1) * (c + 1) ≤ B ^ (v.length + 1) * f := Nat.mul_le_mul_left _ hcf
        have g6 : B ^ (v.length + 1) * (c + 1) = B ^ (v.length + 1) * c + B ^ (v.length + 1) := by ring
        have g7 : B * val B (v ++ [f]) = B ^ (v.length + 1) * f + B * val B v := by
          rw [val_snoc]; ring
        omega
      refine ⟨ql' ++ [N / val B (v ++ [f])], ?_, by simp [f4, g3], by omega, by omega,
        by simp [f5, hNB], ?_⟩
      · rw [g2, g3, List.append_assoc]
        congr 1
        have : lo.length < (quot.set lo.length (N / val B (v ++ [f]))).length := by simpa using g1
        rw [List.drop_eq_getElem_cons this, List.drop_set_of_lt (by omega)]
        simp
      · rw [val_snoc, f4, f8, hXX, Nat.add_mul_div_right _ _ hY]
  obtain ⟨qd, q1, q2, q3, q4, q5, q6⟩ := hq'
  rw [q1]
  obtain ⟨nd, d1, d2, d3, d4⟩ := dropLeadingZeros_spec (qd ++ quot.drop nq1) nq1 (by simp; omega)
  obtain ⟨nr, r1, r2, r3, r4⟩ := dropLeadingZeros_spec (w' ++ List.replicate lo.length 0)
    (v.length + 1) (by simp; omega)
  rw [d1, ok_bind, r1, ok_bind]
  have hnumlen : num.length = lo.length + (v.length + 1) := by omega
  refine Sp.pure ⟨⟨?_, ?_, ?_, ?_, r4, ?_, ?_, ?_, ⟨nq1, d2, q3, q4, ?_⟩, ?_, d4, ?_⟩, ?_, ?_, r2, hroom⟩
  · simp [f2]; omega
  · simp [f3, digs_replicate hB0]
  · simp only []; omega
  · simp only []
    have : w' = (w' ++ List.replicate lo.length 0).take nr ++ List.replicate (v.length + 1 - nr) 0 := by
      rw [← r3, List.take_left' f2]
    conv_lhs => rw [this]
    rw [List.append_assoc]
    congr 1
    rw [List.replicate_append_replicate]
    congr 1
    omega
  · rw [val_append, hXX, Nat.add_mul_mod_self_right, ← f7]; simp
  · rw [← q1, List.length_append, f4, List.length_drop, hql1]; omega
  · simp only []; omega
  · have : qd = (qd ++ quot.drop nq1).take nd ++ List.replicate (nq1 - nd) 0 := by
      rw [← d3, List.take_left' q2]
    conv_lhs => rw [this]
  · simp only []
    rw [List.take_append_of_le_length (by omega)]
    exact q5.take _
  · simp only []
    have : qd = (qd ++ quot.drop nq1).take nd ++ List.replicate (nq1 - nd) 0 := by
      rw [← d3, List.take_left' q2]
    rw [← q6]
    conv_rhs => rw [this]
    rw [val_append]; simp
  · simp [f6]; omega
  · intro h
    simp only [digs_append]
    exact ⟨f9 (h7 (h.take _)), h.drop _⟩

/-! ## Scaling -/

/-- The divisor does not grow when it is scaled, so that its leading digit is at least half the
base.  `s` is the shift. -/
theorem scaled_den (L : Lawful D B) {v : List Nat} {d s : Nat} (hv : Digs B (v ++ [d]))
    (h1 : d * 2 ^ s < B) (h2 : B ≤ d * 2 ^ (s + 1))
    (hfit : val B (v ++ [d]) * 2 ^ s < B ^ (v.length + 1)) :
    ∃ v' f, shlWithin D (v ++ [d]) s 0 = .ok (v' ++ [f], 0) ∧ v'.length = v.length ∧
      Digs B (v' ++ [f]) ∧ val B (v' ++ [f]) = val B (v ++ [d]) * 2 ^ s ∧ B ≤ 2 * f ∧
      2 ^ s ≤ f ∧ 2 ^ s < B := by
  have hB := L.base
  have hd0 : 0 < d := by
    by_contra h
    have : d = 0 := by omega
    subst this
    simp at h2; omega
  have hs : 2 ^ s < B := by
    have : 1 * 2 ^ s ≤ d * 2 ^ s := Nat.mul_le_mul_right _ hd0
    omega
  obtain ⟨r, c, e1, e2, e3, e4, e5⟩ := shlWithin_spec L (v ++ [d]) s 0 hv hs (pow_pos (by omega) _)
  have hlen : (v ++ [d]).length = v.length + 1 := by simp
  rw [hlen] at e5
  have hc : c = 0 := by
    by_contra h
    have : B ^ (v.length + 1) * 1 ≤ B ^ (v.length + 1) * c := Nat.mul_le_mul_left _ (by omega)
    omega
  subst hc
  obtain ⟨v', f, rfl⟩ : ∃ v' f, r = v' ++ [f] :=
    ⟨r.dropLast, r.getLast (by intro h; simp [h] at e2), (List.dropLast_concat_getLast _).symm⟩
  have hl' : v'.length = v.length := by simpa using e2
  have hval : val B (v' ++ [f]) = val B (v ++ [d]) * 2 ^ s := by simpa using e5
  have hdf : d * 2 ^ s ≤ f := by
    have h3 : d * 2 ^ s * B ^ v.length ≤ val B (v ++ [d]) * 2 ^ s := by
      rw [val_snoc]
      have : (val B v + B ^ v.length * d) * 2 ^ s = val B v * 2 ^ s + d * 2 ^ s * B ^ v.length := by
        ring
      omega
    rw [← hval, val_snoc, hl'] at h3
    have h4 := val_lt (b := B) (ds := v') (by rw [digs_append] at e3; exact e3.1)
    rw [hl'] at h4
    by_contra h
    have h5 : B ^ v.length * (f + 1) ≤ B ^ v.length * (d * 2 ^ s) := Nat.mul_le_mul_left _ (by omega)
    have h6 : B ^ v.length * (f + 1) = B ^ v.length * f + B ^ v.length := by ring
    have h7 : B ^ v.length * (d * 2 ^ s) = d * 2 ^ s * B ^ v.length := by ring
    omega
  refine ⟨v', f, e1, hl', e3, hval, ?_, ?_, hs⟩
  · rw [pow_succ] at h2
    have : d * (2 ^ s * 2) = 2 * (d * 2 ^ s) := by ring
    omega
  · have : 1 * 2 ^ s ≤ d * 2 ^ s := Nat.mul_le_mul_right _ hd0
    omega

/-- The hypotheses of the division: with the shift `s` that makes the leading digit of the divisor
at least half the base, the divisor keeps its number of digits, and there is no tie the digits
cannot handle. -/
structure DivHyp (D : DigitOps) (B X : Nat) (nnum : Nat) (den : List Nat) : Prop where
  fit : ∀ s d, den.getLast? = some d → d * 2 ^ s < B → B ≤ d * 2 ^ (s + 1) →
    val B den * 2 ^ s < B ^ den.length
  tie : TieLaw D B ∨ ∀ s d, den.getLast? = some d → d * 2 ^ s < B → B ≤ d * 2 ^ (s + 1) →
    ∀ i, i < nnum - den.length → (X * 2 ^ s / B ^ (i + 1)) % (val B den * 2 ^ s) / B ^ (den.length - 1)
      < val B den * 2 ^ s / B ^ (den.length - 1)

theorem divBigLong_spec (L : Lawful D B) {num den quot work : List Nat}
    (hn : Digs B num) (hv : Digs B den) (cv : Canon den) (h2 : 2 < den.length)
    (hlen : den.length ≤ num.length)
    (hq : num.length - den.length < quot.length ∨ (num.length - den.length ≤ quot.length ∧
      ltBig (num.drop (num.length - den.length)) den = true))
    (hw : den.length + 1 ≤ work.length)
    (H : DivHyp D B (val B num) num.length den) :
    Sp (fun p => p = .index ∧ quot.length ≤ num.length - den.length ∧
        ∀ d, den.getLast? = some d → B ≤ 2 * d → B ^ (num.length - 1) * d ≤ val B num)
      (divBigLong D dbg num den quot work)
      (fun r => DivOut B (val B num) (val B den)
        (num.length - den.length + 1) num quot r.1 r.2.1 r.2.2.2.1 r.2.2.2.2 ∧
        r.2.2.1.length = work.length ∧ (Digs B work → Digs B r.2.2.1) ∧
        (quot.length ≤ num.length - den.length → ∀ d, den.getLast? = some d → B ≤ 2 * d →
          val B num < B ^ (num.length - 1) * d)) := by
  have hB0 := L.pos
  obtain ⟨v, d, rfl⟩ : ∃ v d, den = v ++ [d] :=
    ⟨den.dropLast, den.getLast (by intro h; simp [h] at h2), (List.dropLast_concat_getLast _).symm⟩
  have hnden : (v ++ [d]).length = v.length + 1 := by simp
  rw [hnden] at hlen hq hw h2 ⊢
  have hd0 : 0 < d := by
    have := canon_snoc.mp cv
    omega
  have hd : d < B := hv d (by simp)
  have hlast : (v ++ [d]).getLast? = some d := by simp
  obtain ⟨s, hs1, hs2, hs3⟩ := L.maxShift d hd0 hd
  have hfit := H.fit s d hlast hs2 hs3
  rw [hnden] at hfit
  obtain ⟨v', f, e1, e2, e3, e4, e5, e6, e7⟩ := scaled_den L hv hs2 hs3 hfit
  have htie : TieOk D B (val B num * 2 ^ s) (val B (v ++ [d]) * 2 ^ s) f v.length
      (num.length - (v.length + 1)) := by
    rcases H.tie with h | h
    · exact Or.inl h
    · refine Or.inr (fun i hi => ?_)
      have h3 := h s d hlast hs2 hs3 i (by rw [hnden]; exact hi)
      rw [hnden, Nat.add_sub_cancel] at h3
      have h4 : val B (v ++ [d]) * 2 ^ s / B ^ v.length = f := by
        rw [← e4, val_snoc, e2, Nat.add_comm, Nat.mul_add_div (pow_pos hB0 _),
          Nat.div_eq_of_lt, Nat.add_zero]
        have := val_lt (b := B) (ds := v') (by rw [digs_append] at e3; exact e3.1)
        rwa [e2] at this
      rw [h4] at h3
      rwa [Nat.div_lt_iff_lt_mul (pow_pos hB0 _)] at h3
  unfold divBigLong
  simp only [hnden]
  have hsl : slice num (num.length - (v.length + 1)) num.length
      = .ok (num.drop (num.length - (v.length + 1))) := by
    rw [slice_ok (by omega) (le_refl _), List.take_length]
  rw [hsl]
  refine Sp.bind_eq (a := ()) (by simp [debugAssertR]; omega) ?_
  refine Sp.bind_eq (a := ()) (by simp [debugAssertR, hlen]) ?_
  rw [ok_bind]
  refine Sp.bind_eq (a := ()) ?_ ?_
  · have : (decide (num.length - (v.length + 1) + 1 ≤ quot.length) ||
      (decide (num.length - (v.length + 1) ≤ quot.length) &&
        ltBig (num.drop (num.length - (v.length + 1))) (v ++ [d]))) = true := by
      rcases hq with h | ⟨h, h'⟩
      · rw [Bool.or_eq_true]; left; simp; omega
      · rw [Bool.or_eq_true]; right; rw [h']; simpa using h
    rw [this]; simp [debugAssertR]
  refine Sp.bind_eq (a := ()) (by simp [debugAssertR, divLongWorkSize, hw]) ?_
  have hg : getR (v ++ [d]) (v.length + 1 - 1) = .ok d := by
    rw [getR_ok (by simp)]; simp
  rw [hg, ok_bind, hs1, ok_bind]
  by_cases hs0 : s = 0
  · subst hs0
    rw [if_pos rfl]
    simp only [pow_zero, Nat.mul_one] at htie e4 hs2 hs3
    have := divBigLongScaled_spec (dbg := dbg) L (num := num) (v := v) (quot := quot) (work := work)
      (c := 0) (f := d) hn hv hlen (by omega) hd0 (by omega) (by omega) (by
        simp only [Nat.mul_zero, Nat.add_zero]
        rcases htie with h | h
        · exact Or.inl h
        · refine Or.inr (fun i hi => ?_)
          have h3 := h i hi
          have hfd : f = d := by
            have h5 := val_lt (b := B) (ds := v') (by rw [digs_append] at e3; exact e3.1)
            have h6 := val_lt (b := B) (ds := v) (by rw [digs_append] at hv; exact hv.1)
            rw [e2] at h5
            have h7 := congrArg (· / B ^ v.length) e4
            simp only [val_snoc, e2] at h7
            rwa [Nat.add_comm, Nat.mul_add_div (pow_pos hB0 _), Nat.div_eq_of_lt h5, Nat.add_comm (val B v),
              Nat.mul_add_div (pow_pos hB0 _), Nat.div_eq_of_lt h6] at h7
          rwa [hfd] at h3)
    simp only [Nat.mul_zero, Nat.add_zero] at this
    refine (this.mono (fun r h => ⟨h.1, h.2.1, h.2.2.1, fun hl d' h1 _ => ?_⟩)).weaken ?_
    rotate_left
    · rw [hlast] at h1
      cases h1
      exact h.2.2.2.2 hl
    rintro p ⟨p1, p2, p3⟩
    refine ⟨p1, p2, fun d' h1 _ => ?_⟩
    rw [hlast] at h1
    cases h1
    exact p3
  · rw [if_neg hs0, e1, ok_bind]
    simp only []
    obtain ⟨num1, c, n1, n2, n3, n4, n5⟩ := shlWithin_spec L num s 0 hn e7 (pow_pos (by omega) _)
    rw [n1, ok_bind]
    simp only []
    rw [Nat.add_zero] at n5
    have hsc := divBigLongScaled_spec (dbg := dbg) L (num := num1) (v := v') (quot := quot)
      (work := work) (c := c) (f := f) n3 e3 (by omega) e5 (by omega) (by rw [n2, e2]; omega) (by omega)
      (by rw [n2, n5, e4, e2]; exact htie)
    rw [n2, n5, e4, e2] at hsc
    refine Sp.bind (hsc.weaken ?_) ?_
    · rintro p ⟨p1, p2, -⟩
      refine ⟨p1, p2, fun d' h1 h2 => ?_⟩
      rw [hlast] at h1
      cases h1
      have h3 : 2 ^ 1 ≤ 2 ^ s := Nat.pow_le_pow_right (by omega) (by omega)
      have h4 : d * 2 ^ 1 ≤ d * 2 ^ s := Nat.mul_le_mul_left _ h3
      omega
    rintro ⟨num2, quot2, work2, nq2, nr2⟩ ⟨h, hw2, hw3, hnr, -⟩
    simp only at h hw2 hw3 hnr ⊢
    have hpow : 0 < 2 ^ s := pow_pos (by omega) _
    have hlen2 : num2.length = num.length := by rw [h.nlen, n2]
    have hnl := h.nrem_le
    rw [n2] at hnl
    -- shift the remainder back
    obtain ⟨r, nd, cc, r1, r2, r3, r4, r5, r6, r7, r8⟩ := shrWithin_spec L (num2.take nr2) s 0
      (h.ndigs.take _) e7 hpow
    have hrl : (num2.take nr2).length = nr2 := by simp; omega
    have hos := onSlice_append (p := []) (s := num2.take nr2)
      (q := List.replicate (num.length - nr2) 0) (a := 0) (b := nr2)
      (f := fun t => do
        let (a, b, c) ← shrWithin D t s 0
        return (a, b, c)) rfl (by omega)
    have hnum2 : num2.take nr2 ++ List.replicate (num.length - nr2) 0 = num2 := by
      rw [← n2]; exact h.num_eq.symm
    have hos2 : onSlice num2 0 nr2 (fun t => shrWithin D t s 0)
        = .ok (r ++ List.replicate (num.length - nr2) 0, nd, cc) := by
      conv_lhs => rw [← hnum2]
      have := onSlice_append (p := []) (s := num2.take nr2)
        (q := List.replicate (num.length - nr2) 0) (a := 0) (b := nr2)
        (f := fun t => shrWithin D t s 0) rfl (by omega)
      rw [List.nil_append] at this
      rw [this, r1]
      rfl
    rw [hos2, ok_bind]
    have hval2 : val B (num2.take nr2) = (val B num * 2 ^ s) % (val B (v ++ [d]) * 2 ^ s) := by
      rw [← h.rval]
      exact val_take_zeros (by rw [n2] at *; exact hnum2.symm)
    have hvr : val B r = val B num % val B (v ++ [d]) := by
      rw [Nat.zero_mul, Nat.zero_add, hval2, Nat.mul_mod_mul_right] at r5
      have h3 : cc = 0 := by
        have h4 := congrArg (· % 2 ^ s) r5
        simp only [Nat.mul_add_mod_self_right, Nat.mul_mod_left] at h4
        rwa [Nat.mod_eq_of_lt r4] at h4
      rw [h3, Nat.add_zero] at r5
      exact Nat.eq_of_mul_eq_mul_right hpow r5
    rw [hrl] at r2 r6 r7
    have htk : (r ++ List.replicate (num.length - nr2) 0).take nd = r.take nd := by
      rw [List.take_append_of_le_length (by omega)]
    refine Sp.pure ⟨⟨?_, ?_, ?_, ?_, ?_, ?_, h.qlen, h.nquot_le, h.quot_eq, h.qdigs, h.qcanon, ?_⟩,
      hw2, hw3, fun _ d' h1 h2 => ?_⟩
    rotate_right
    · rw [hlast] at h1
      cases h1
      have h3 : 2 ^ 1 ≤ 2 ^ s := Nat.pow_le_pow_right (by omega) (by omega)
      have h4 : d * 2 ^ 1 ≤ d * 2 ^ s := Nat.mul_le_mul_left _ h3
      omega
    · simp [r2]; omega
    · simp [r3, digs_replicate hB0]
    · simp only []; omega
    · simp only [htk]
      conv_lhs => rw [r7]
      rw [List.append_assoc, List.replicate_append_replicate]
      congr 2
      omega
    · simp only [htk]; exact r8
    · rw [val_append]; simpa using hvr
    · rw [h.qval, Nat.mul_div_mul_right _ _ hpow]

/-- There is no room for the first digit of the quotient. -/
theorem divBigLong_full (L : Lawful D B) {num v quot work : List Nat} {f : Nat}
    (hn : Digs B num) (hv : Digs B (v ++ [f])) (h2 : 2 < v.length + 1)
    (hlen : v.length + 1 ≤ num.length) (hB : B ≤ 2 * f) (hf0 : 0 < f)
    (hq : num.length - (v.length + 1) = quot.length)
    (hq' : ltBig (num.drop (num.length - (v.length + 1))) (v ++ [f]) = true)
    (hw : v.length + 2 ≤ work.length) (hlead : B ^ (num.length - 1) * f ≤ val B num) :
    divBigLong D dbg num (v ++ [f]) quot work = .error .index := by
  have hB0 := L.pos
  have hnden : (v ++ [f]).length = v.length + 1 := by simp
  have hf : f < B := hv f (by simp)
  obtain ⟨s, hs1, hs2, hs3⟩ := L.maxShift f hf0 hf
  have hs0 : s = 0 := by
    by_contra h
    have : 2 ^ 1 ≤ 2 ^ s := Nat.pow_le_pow_right (by omega) (by omega)
    have : f * 2 ^ 1 ≤ f * 2 ^ s := Nat.mul_le_mul_left _ this
    omega
  subst hs0
  have hdebug : ∀ {c : Bool}, c = true → debugAssertR dbg c = .ok () := by
    intro c h; simp [debugAssertR, h]
  have hg : getR (v ++ [f]) (v.length + 1 - 1) = .ok f := by
    rw [getR_ok (by simp)]; simp
  unfold divBigLong
  simp only [hnden]
  have hsl : slice num (num.length - (v.length + 1)) num.length
      = .ok (num.drop (num.length - (v.length + 1))) := by
    rw [slice_ok (by omega) (le_refl _), List.take_length]
  rw [hdebug (decide_eq_true h2), ok_bind, hdebug (decide_eq_true hlen), ok_bind, hsl, ok_bind, hq',
    hdebug (by simp [hq]), ok_bind, hdebug (decide_eq_true (by unfold divLongWorkSize; omega)),
    ok_bind, hg, ok_bind, hs1, ok_bind, if_pos rfl]
  unfold divBigLongScaled
  simp only [hnden]
  rw [hg, ok_bind, hs1, ok_bind, hdebug (by simp), ok_bind, splitAtR_ok (by omega), ok_bind]
  simp only []
  obtain ⟨lo, ua, hlo, hsplit⟩ : ∃ lo ua, lo.length = num.length - (v.length + 1) ∧ num = lo ++ ua :=
    ⟨num.take _, num.drop _, by simp, (List.take_append_drop (num.length - (v.length + 1)) num).symm⟩
  have hual : ua.length = v.length + 1 := by
    have := congrArg List.length hsplit
    simp at this; omega
  obtain ⟨u, a, rfl⟩ : ∃ u a, ua = u ++ [a] :=
    ⟨ua.dropLast, ua.getLast (by intro h; simp [h] at hual), (List.dropLast_concat_getLast _).symm⟩
  have hul : u.length = v.length := by simpa using hual
  have hdig := hn
  rw [hsplit, digs_append] at hdig
  have hfirst := longFirst_spec (dbg := dbg) L (lo := lo) (quot := quot) (c := 0)
    (qden := work.take (v.length + 1 + 1)) hdig.2 hv hul hB (by simp; omega) hf0
  rw [← hsplit] at hfirst
  cases h : longFirst D dbg num 0 (v ++ [f]) f quot (work.take (v.length + 1 + 1)) with
  | error p =>
    rw [h] at hfirst
    rw [error_bind, hfirst.1]
  | ok r =>
    exfalso
    rw [h] at hfirst
    obtain ⟨w1, -, -, -, -, -, -, h6⟩ := hfirst
    rcases h6 with ⟨-, -, -, hlt⟩ | ⟨hlt, -⟩
    · rw [Nat.zero_mul, Nat.zero_add] at hlt
      have e1 : num.length - 1 = lo.length + v.length := by omega
      have g2 := val_lt hdig.1
      have g3 := val_lt (b := B) (ds := u) (fun x hx => hdig.2 x (by simp [hx]))
      rw [hul] at g3
      rw [e1, pow_add, Nat.mul_assoc, hsplit, val_append, val_snoc, hul] at hlead
      have g4 : B ^ v.length * (a + 1) ≤ B ^ v.length * f := Nat.mul_le_mul_left _ hlt
      have g5 : B ^ v.length * (a + 1) = B ^ v.length * a + B ^ v.length := by ring
      have g6 : B ^ lo.length * (val B u + B ^ v.length * a + 1) ≤ B ^ lo.length * (B ^ v.length * f) :=
        Nat.mul_le_mul_left _ (by omega)
      have g7 : B ^ lo.length * (val B u + B ^ v.length * a + 1)
        = B ^ lo.length * (val B u + B ^ v.length * a) + B ^ lo.length := by ring
      omega
    · omega

end Babs
