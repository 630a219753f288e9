import Verif.Proofs.DivLong

/-!
# Helper lemmas: division by a pair of digits (`div_assign_digit_pair`)
-/

namespace Babs

variable {D : DigitOps} {B : Nat} {dbg : Bool}

theorem lexCmp_swap (a b : List Nat) : (lexCmp a b).swap = lexCmp b a := by
  induction a generalizing b with
  | nil => cases b <;> rfl
  | cons x a ih =>
    cases b with
    | nil => rfl
    | cons y b => rw [lexCmp, lexCmp, Ordering.swap_then, ih, Nat.compare_swap]

/-- The comparison of three digits, the top digit may be too large. -/
theorem arrayGt_spec {d1 d2 d3 g l h : Nat} (hd1 : d1 < B) (hd2 : d2 < B) (hg : g < B) (hl : l < B) :
    arrayGt [d3, d2, d1] [h, l, g]
      = decide (g + B * l + B ^ 2 * h < d1 + B * d2 + B ^ 2 * d3) := by
  have h1 := ltBig_top (B := B) (l1 := [g, l]) (l2 := [d1, d2]) (a := h) (b := d3)
    (by simp [hg, hl]) (by simp [hd1, hd2]) rfl
  have h2 : arrayGt [d3, d2, d1] [h, l, g] = ltBig ([g, l] ++ [h]) ([d1, d2] ++ [d3]) := by
    unfold arrayGt ltBig cmpBig
    rw [← lexCmp_swap]
    simp only [List.reverse_cons, List.reverse_nil, List.nil_append,
      List.cons_append, List.length_cons, List.length_nil]
    rw [compare_nat_eq, if_neg (by omega), if_pos rfl]
    cases lexCmp [h, l, g] [d3, d2, d1] <;> rfl
  rw [h2, ltBig_dec h1]
  simp

theorem subCarry_nat (L : Lawful D B) {a b : Nat} {c : Bool} (ha : a < B) (hb : b < B) :
    ∃ d c', D.subCarry a b c = .ok (d, c') ∧ d < B ∧
      d + b + c.toNat = a + B * c'.toNat := by
  obtain ⟨d, c', h1, h2, -, h4⟩ := subCarry_step L a b c ha hb trivial
  refine ⟨d, c', h1, h2, ?_⟩
  simp only [cvB] at h4
  zify
  linarith

set_option maxHeartbeats 1000000 in
theorem divPairStep_spec (L : Lawful D B) {yl f g a c : Nat} (hyl : yl < B) (hf : f < B)
    (hg : g < B) (ha : a < B) (hB : B ≤ 2 * f) (hlt : a + B * c < yl + B * f)
    (htie : c < f ∨ TieLaw D B) :
    ∃ a' c', divPairStep D yl f g (a, c) = .ok ((g + B * (a + B * c)) / (yl + B * f), (a', c')) ∧
      a' < B ∧ c' < B ∧ a' + B * c' = (g + B * (a + B * c)) % (yl + B * f) := by
  have hB0 := L.pos
  have hcle : c ≤ f := by
    by_contra h
    have : B * (f + 1) ≤ B * c := Nat.mul_le_mul_left _ (by omega)
    have h2 : B * (f + 1) = B * f + B := by ring
    omega
  have hcf : c < f ∨ (c = f ∧ TieLaw D B) := by
    rcases htie with h | h
    · exact Or.inl h
    · by_cases h1 : c < f
      · exact Or.inl h1
      · exact Or.inr ⟨by omega, h⟩
  have hNB : g + B * (a + B * c) < (yl + B * f) * B := by
    have h1 : B * (a + B * c + 1) ≤ B * (yl + B * f) := Nat.mul_le_mul_left _ hlt
    have h2 : B * (a + B * c + 1) = B * (a + B * c) + B := by ring
    have h3 : (yl + B * f) * B = B * (yl + B * f) := Nat.mul_comm _ _
    omega
  have hkn := knuth_est (B := B) (a := a) (f := f) (c := c) (P := B) (n := g) (y := yl) ha hB hg hyl
    (by
      have e1 : (c * B + a) * B + g = g + B * (a + B * c) := by ring
      have e2 : f * B + yl = yl + B * f := by ring
      rw [e1, e2]; exact hNB)
  have e1 : (c * B + a) * B + g = g + B * (a + B * c) := by ring
  have e2 : f * B + yl = yl + B * f := by ring
  rw [e1, e2] at hkn
  obtain ⟨rm, hdc, hqok⟩ := divCarry_est L ha hf hB hcf
  have hN2 : g + B * a + B ^ 2 * c = g + B * (a + B * c) := by ring
  have hY0 : 0 < yl + B * f := by
    have : 0 < B * f := Nat.mul_pos hB0 (by omega)
    omega
  have hYlt : yl + B * f < B ^ 2 := by
    have : B * (f + 1) ≤ B * B := Nat.mul_le_mul_left _ hf
    have h2 : B * (f + 1) = B * f + B := by ring
    rw [sq]; omega
  have hNsplit : g + B * a < B ^ 2 := by
    have : B * (a + 1) ≤ B * B := Nat.mul_le_mul_left _ ha
    have h2 : B * (a + 1) = B * a + B := by ring
    rw [sq]; omega
  generalize hN : g + B * (a + B * c) = N at *
  generalize hY : yl + B * f = Y at *
  generalize hqh : (c * B + a) / f = qh at *
  have hqmul := Nat.div_mul_le_self N Y
  have hqlt := Nat.lt_div_mul_add hY0 (a := N)
  have hmod : N - N / Y * Y = N % Y := div_eq_sub_mod
  have hmlt := Nat.mod_lt N hY0
  generalize hqq : N / Y = q at *
  have hqlt' : N < (q + 1) * Y := by rw [Nat.add_mul, Nat.one_mul]; exact hqlt
  obtain ⟨p1, k1, m1, m2, m3, m4⟩ := mulCarry_q L hyl hqok (Or.inr rfl : 0 < qh ∨ 0 = 0)
  obtain ⟨p2, p3, n1, n2, n3, n4⟩ := mulCarry_q L hf hqok m3
  have hprod : p1 + B * p2 + B ^ 2 * p3 = qh * Y := by
    have : B ^ 2 * p3 = B * (B * p3) := by ring
    have h2 : B * (f * qh + k1) = B * (p2 + B * p3) := by rw [n4]
    have h3 : p1 + B * p2 + B ^ 2 * p3 = p1 + B * (p2 + B * p3) := by ring
    rw [h3, ← h2, ← hY]
    have h4 : p1 + B * (f * qh + k1) = (p1 + B * k1) + B * (f * qh) := by ring
    rw [h4, m4]; ring
  unfold divPairStep
  simp only []
  rw [hdc, ok_bind]
  simp only []
  rw [m1, ok_bind]
  simp only []
  rw [n1, ok_bind]
  simp only []
  -- the end
  have hfin : ∀ {x1 x2 x3 : Nat}, x1 < B → x2 < B → x1 + B * x2 + B ^ 2 * x3 = q * Y →
      ∃ a' c', (do
        let (digit, carry) ← D.subCarry g x1 false
        let (remLow, _) ← D.subCarry a x2 carry
        return (q, (digit, remLow))) = (.ok (q, (a', c')) : R (Nat × (Nat × Nat))) ∧
        a' < B ∧ c' < B ∧ a' + B * c' = N % Y := by
    intro x1 x2 x3 hx1 hx2 hx
    obtain ⟨s1, b1, t1, t2, t3⟩ := subCarry_nat L (c := false) hg hx1
    obtain ⟨s2, b2, u1, u2, u3⟩ := subCarry_nat L (c := b1) ha hx2
    refine ⟨s1, s2, ?_, t2, u2, ?_⟩
    · rw [t1, ok_bind]
      simp only []
      rw [u1]; rfl
    · simp only [Bool.toNat_false, Nat.add_zero] at t3
      have h1 : s1 + B * s2 + (x1 + B * x2) = g + B * a + B ^ 2 * b2.toNat := by
        zify at t3 u3 ⊢
        linear_combination t3 + (B : ℤ) * u3
      have h2 : s1 + B * s2 + q * Y + B ^ 2 * c = N + B ^ 2 * (b2.toNat + x3) := by
        rw [← hx, ← hN2]
        zify at h1 ⊢
        linear_combination h1
      have hs : s1 + B * s2 < B ^ 2 := by
        have : B * (s2 + 1) ≤ B * B := Nat.mul_le_mul_left _ u2
        have h3 : B * (s2 + 1) = B * s2 + B := by ring
        rw [sq]; omega
      have h3 : s1 + B * s2 + B ^ 2 * c = N % Y + B ^ 2 * (b2.toNat + x3) := by omega
      have h4 := congrArg (· % B ^ 2) h3
      simp only [Nat.add_mul_mod_self_left] at h4
      rwa [Nat.mod_eq_of_lt hs, Nat.mod_eq_of_lt (by omega)] at h4
  have hg3 : ∀ {x1 x2 x3 : Nat}, x1 < B → x2 < B →
      arrayGt [x3, x2, x1] [c, a, g] = decide (N < x1 + B * x2 + B ^ 2 * x3) := by
    intro x1 x2 x3 h1 h2
    rw [arrayGt_spec h1 h2 hg ha, hN2]
  -- one correction
  have hcorr : ∀ {x1 x2 x3 k : Nat}, x1 < B → x2 < B → (x3 < qh ∨ x3 = 0) → 0 < k →
      x1 + B * x2 + B ^ 2 * x3 = k * Y →
      ∃ y1 b1 y2 b2 y3, D.subCarry x1 yl false = .ok (y1, b1) ∧
        D.subCarry x2 f b1 = .ok (y2, b2) ∧ y1 < B ∧ y2 < B ∧ (y3 < qh ∨ y3 = 0) ∧
        (∃ b, (if b2 then D.dec x3 else pure (x3, false)) = (.ok (y3, b) : R (Nat × Bool))) ∧
        y1 + B * y2 + B ^ 2 * y3 = (k - 1) * Y := by
    intro x1 x2 x3 k hx1 hx2 hx3 hk hx
    obtain ⟨y1, b1, t1, t2, t3⟩ := subCarry_nat L (c := false) hx1 hyl
    obtain ⟨y2, b2, u1, u2, u3⟩ := subCarry_nat L (c := b1) hx2 hf
    simp only [Bool.toNat_false, Nat.add_zero] at t3
    have h1 : y1 + B * y2 + Y = x1 + B * x2 + B ^ 2 * b2.toNat := by
      rw [← hY]
      zify at t3 u3 ⊢
      linear_combination t3 + (B : ℤ) * u3
    have hkY : k * Y = (k - 1) * Y + Y := by
      obtain ⟨j, rfl⟩ : ∃ j, k = j + 1 := ⟨k - 1, by omega⟩
      rw [Nat.add_sub_cancel]; ring
    cases b2 with
    | false =>
      refine ⟨y1, b1, y2, false, x3, t1, u1, t2, u2, hx3, ⟨false, by simp⟩, ?_⟩
      simp at h1; omega
    | true =>
      simp only [Bool.toNat_true, Nat.mul_one] at h1
      have hx30 : 0 < x3 := by
        by_contra h
        have h0 : x3 = 0 := by omega
        subst h0
        have hs : y1 + B * y2 < B ^ 2 := by
          have : B * (y2 + 1) ≤ B * B := Nat.mul_le_mul_left _ u2
          have h3 : B * (y2 + 1) = B * y2 + B := by ring
          rw [sq]; omega
        simp at hx
        omega
      have hdec : ∃ b, D.dec x3 = .ok (x3 - 1, b) := by
        have hok : QOk D B x3 := by
          rcases hqok with h | ⟨T, h⟩
          · exact Or.inl (by omega)
          · exact Or.inr ⟨T, by omega⟩
        obtain ⟨b, h, -⟩ := dec_q L hok hx30
        exact ⟨b, h⟩
      obtain ⟨b, hb⟩ := hdec
      refine ⟨y1, b1, y2, true, x3 - 1, t1, u1, t2, u2, by omega, ⟨b, by simpa using hb⟩, ?_⟩
      obtain ⟨z, rfl⟩ : ∃ z, x3 = z + 1 := ⟨x3 - 1, by omega⟩
      rw [Nat.add_sub_cancel]
      have : B ^ 2 * (z + 1) = B ^ 2 * z + B ^ 2 := by ring
      omega
  rw [hg3 m2 n2, hprod]
  by_cases c1 : N < qh * Y
  · have hgt : q < qh := by
      by_contra h
      have : qh * Y ≤ q * Y := Nat.mul_le_mul_right _ (by omega)
      omega
    obtain ⟨b0, i1, i2⟩ := dec_q L hqok (by omega)
    obtain ⟨y1, b1, y2, b2, y3, j1, j2, j3, j4, j5, ⟨b3, j6⟩, j7⟩ := hcorr m2 n2 n3 (by omega) hprod
    rw [if_pos (by simpa using c1), i1, ok_bind]
    simp only []
    rw [j1, ok_bind]
    simp only []
    rw [j2, ok_bind]
    simp only []
    rw [ite_bind_eq j6]
    simp only []
    rw [hg3 j3 j4, j7]
    by_cases c2 : N < (qh - 1) * Y
    · have hgt2 : q < qh - 1 := by
        by_contra h
        have : (qh - 1) * Y ≤ q * Y := Nat.mul_le_mul_right _ (by omega)
        omega
      obtain ⟨b4, i3, i4⟩ := dec_q L i2 (by omega)
      obtain ⟨z1, b5, z2, b6, z3, k1, k2, k3, k4, k5, -, k7⟩ := hcorr j3 j4 j5 (by omega) j7
      rw [if_pos (by simpa using c2), i3, ok_bind]
      simp only []
      rw [k1, ok_bind]
      simp only []
      rw [k2]
      simp only [ok_bind, pure_eq_ok]
      have hq2 : qh - 1 - 1 = q := by omega
      rw [hq2] at k7 ⊢
      exact hfin k3 k4 k7
    · have hq1 : qh - 1 = q := by
        have h1 : qh - 1 < q + 1 := by
          by_contra h
          have : (q + 1) * Y ≤ (qh - 1) * Y := Nat.mul_le_mul_right _ (by omega)
          omega
        omega
      rw [if_neg (by simpa using c2)]
      simp only [ok_bind, pure_eq_ok]
      rw [hq1] at j7 ⊢
      exact hfin j3 j4 j7
  · have hq1 : qh = q := by
      have h1 : qh < q + 1 := by
        by_contra h
        have : (q + 1) * Y ≤ qh * Y := Nat.mul_le_mul_right _ (by omega)
        omega
      omega
    rw [if_neg (by simpa using c1)]
    simp only [ok_bind, pure_eq_ok]
    rw [hq1] at hprod ⊢
    exact hfin m2 n2 hprod

/-- The loop. -/
theorem divPairFold_spec (L : Lawful D B) {yl f : Nat} (hyl : yl < B) (hf : f < B) (hB : B ≤ 2 * f)
    (l : List Nat) (a c : Nat) (hl : Digs B l) (ha : a < B) (hc : c < B)
    (hlt : a + B * c < yl + B * f)
    (ht : TieOk D B (val B l + B ^ l.length * (a + B * c)) (yl + B * f) f 1 l.length) :
    ∃ r a' c', foldDigitsRev (divPairStep D yl f) l (a, c) = .ok (r, (a', c')) ∧
      r.length = l.length ∧ Digs B r ∧ a' < B ∧ c' < B ∧
      val B r = (val B l + B ^ l.length * (a + B * c)) / (yl + B * f) ∧
      a' + B * c' = (val B l + B ^ l.length * (a + B * c)) % (yl + B * f) := by
  have hB0 := L.pos
  have hY0 : 0 < yl + B * f := by omega
  induction l with
  | nil =>
    refine ⟨[], a, c, rfl, rfl, digs_nil B, ha, hc, ?_, ?_⟩
    · simp [Nat.div_eq_of_lt hlt]
    · simp [Nat.mod_eq_of_lt hlt]
  | cons g l ih =>
    rw [digs_cons] at hl
    have hX : val B (g :: l) + B ^ (g :: l).length * (a + B * c)
        = g + B * (val B l + B ^ l.length * (a + B * c)) := by
      simp only [val_cons, List.length_cons]; ring
    rw [hX] at ht ⊢
    generalize hX1 : val B l + B ^ l.length * (a + B * c) = X1 at *
    have ht1 : TieOk D B X1 (yl + B * f) f 1 l.length := by
      rcases ht with h | h
      · exact Or.inl h
      · refine Or.inr (fun i hi => ?_)
        have := h (i + 1) (by simp; omega)
        rwa [pow_succ B (i + 1), Nat.mul_comm (B ^ (i + 1)), ← Nat.div_div_eq_div_mul,
          Nat.add_mul_div_left _ _ hB0, Nat.div_eq_of_lt hl.1, Nat.zero_add] at this
    obtain ⟨r, a1, c1, e1, e2, e3, e4, e5, e6, e7⟩ := ih hl.2 ht1
    have hmod := Nat.mod_lt X1 hY0
    have htie : c1 < f ∨ TieLaw D B := by
      rcases ht with h | h
      · exact Or.inr h
      · left
        have := h 0 (by simp)
        rw [pow_one, Nat.add_mul_div_left _ _ hB0, Nat.div_eq_of_lt hl.1, Nat.zero_add, ← e7]
          at this
        by_contra hcon
        have h2 : B * f ≤ B * c1 := Nat.mul_le_mul_left _ (by omega)
        have h3 : f * B = B * f := Nat.mul_comm _ _
        omega
    obtain ⟨a2, c2, f1, f2, f3, f4⟩ := divPairStep_spec L hyl hf hl.1 e4 hB (by omega) htie
    rw [e7] at f1 f4
    have hqB : (g + B * (X1 % (yl + B * f))) / (yl + B * f) < B := by
      rw [Nat.div_lt_iff_lt_mul hY0]
      have h1 : B * (X1 % (yl + B * f) + 1) ≤ B * (yl + B * f) := Nat.mul_le_mul_left _ hmod
      have h2 : B * (X1 % (yl + B * f) + 1) = B * (X1 % (yl + B * f)) + B := by ring
      omega
    have hXX : g + B * X1 = (g + B * (X1 % (yl + B * f))) + B * (X1 / (yl + B * f)) * (yl + B * f) := by
      conv_lhs => rw [← Nat.mod_add_div X1 (yl + B * f)]
      ring
    refine ⟨(g + B * (X1 % (yl + B * f))) / (yl + B * f) :: r, a2, c2, ?_, by simp [e2], by simp [hqB, e3], f2, f3, ?_, ?_⟩
    · simp only [foldDigitsRev, e1, ok_bind, f1, pure_eq_ok]
    · rw [val_cons, e6]
      conv_rhs => rw [hXX, Nat.add_mul_div_right _ _ hY0]
    · rw [f4]
      conv_rhs => rw [hXX, Nat.add_mul_mod_self_right]

/-- `div_assign_digit_pair` for a denominator of two digits. -/
theorem divAssignDigitPair_spec (L : Lawful D B) (l : List Nat) {yl yh : Nat} (hl : Digs B l)
    (hn : 2 ≤ l.length) (hyl : yl < B) (hyh : yh < B) (h0 : 0 < yh)
    (H : DivHyp D B (val B l) l.length [yl, yh]) :
    ∃ r nd a c, divAssignDigitPair D l yl yh = .ok (r, .ok (nd, a, c)) ∧ r.length = l.length ∧
      Digs B r ∧ a < B ∧ c < B ∧ val B r = val B l / (yl + B * yh) ∧
      a + B * c = val B l % (yl + B * yh) ∧ nd ≤ l.length ∧
      r = r.take nd ++ List.replicate (l.length - nd) 0 ∧ Canon (r.take nd) := by
  have hB0 := L.pos
  have hden : Digs B ([yl] ++ [yh]) := by simp [hyl, hyh]
  have hvden : val B [yl, yh] = yl + B * yh := by simp
  obtain ⟨s, hs1, hs2, hs3⟩ := L.maxShift yh h0 hyh
  have hfit := H.fit s yh (by simp) hs2 hs3
  obtain ⟨v', f, e1, e2, e3, e4, e5, e6, e7⟩ := scaled_den L (v := [yl]) hden hs2 hs3
    (by simpa using hfit)
  obtain ⟨zl, rfl⟩ : ∃ zl, v' = [zl] := List.length_eq_one_iff.mp (by simpa using e2)
  have hzl : zl < B := e3 zl (by simp)
  have hf : f < B := e3 f (by simp)
  have e4' : zl + B * f = (yl + B * yh) * 2 ^ s := by
    have := e4
    simpa using this
  have hpow : 0 < 2 ^ s := pow_pos (by omega) _
  -- the scaling
  have hscale : ∃ l1 top, (if 0 < s then (do
          let (denLow, carry) ← D.shlCarry yl s 0
          let (denHigh, _) ← D.shlCarry yh s carry
          let (nr, remHigh) ← shlWithin D l s 0
          return (nr, denLow, denHigh, remHigh))
        else return (l, yl, yh, 0)) = (.ok (l1, zl, f, top) : R (List Nat × Nat × Nat × Nat)) ∧
      l1.length = l.length ∧ Digs B l1 ∧ top < 2 ^ s ∧
      val B l1 + B ^ l.length * top = val B l * 2 ^ s := by
    by_cases hs : 0 < s
    · obtain ⟨l1, top, n1, n2, n3, n4, n5⟩ := shlWithin_spec L l s 0 hl e7 hpow
      refine ⟨l1, top, ?_, n2, n3, n4, by simpa using n5⟩
      have hw := e1
      unfold shlWithin at hw
      rw [if_neg (by omega)] at hw
      simp only [List.singleton_append, foldDigits] at hw
      rw [L.shlCarry yl s 0 hyl hs e7 hpow] at hw
      rw [if_pos hs, L.shlCarry yl s 0 hyl hs e7 hpow, ok_bind]
      simp only [ok_bind] at hw ⊢
      have hc : (yl * 2 ^ s + 0) / B < 2 ^ s := by
        rw [Nat.div_lt_iff_lt_mul hB0, Nat.add_zero, Nat.mul_comm]
        exact Nat.mul_lt_mul_of_pos_left hyl hpow
      rw [L.shlCarry yh s _ hyh hs e7 hc] at hw ⊢
      simp only [ok_bind, n1, pure_eq_ok, Except.ok.injEq, Prod.mk.injEq, List.cons.injEq, and_true] at hw ⊢
      exact ⟨trivial, hw.1⟩
    · have hs0 : s = 0 := by omega
      subst hs0
      have hw := e1
      unfold shlWithin at hw
      simp at hw
      refine ⟨l, 0, ?_, rfl, hl, by simp, by simp⟩
      simp [hw.1, hw.2]
  obtain ⟨l1, top, n1, n2, n3, n4, n5⟩ := hscale
  obtain ⟨lo, a0, rfl⟩ : ∃ lo a0, l1 = lo ++ [a0] :=
    ⟨l1.dropLast, l1.getLast (by intro h; simp [h] at n2; omega),
      (List.dropLast_concat_getLast _).symm⟩
  have hlo : lo.length = l.length - 1 := by simp at n2; omega
  have hdlo : Digs B lo := by rw [digs_append] at n3; exact n3.1
  have ha0 : a0 < B := n3 a0 (by simp)
  have htopf : top < f := by omega
  have hR0 : a0 + B * top < zl + B * f := by
    have h1 : B * (top + 1) ≤ B * f := Nat.mul_le_mul_left _ htopf
    have h2 : B * (top + 1) = B * top + B := by ring
    omega
  have hX : val B lo + B ^ lo.length * (a0 + B * top) = val B l * 2 ^ s := by
    rw [← n5, val_snoc]
    have : l.length = lo.length + 1 := by omega
    rw [this]; ring
  have htie : TieOk D B (val B l * 2 ^ s) (zl + B * f) f 1 lo.length := by
    rcases H.tie with h | h
    · exact Or.inl h
    · refine Or.inr (fun i hi => ?_)
      by_cases hi2 : i < l.length - 2
      · have h3 := h s yh (by simp) hs2 hs3 i (by simpa using hi2)
        rw [hvden, ← e4'] at h3
        have h4 : (zl + B * f) / B ^ ([yl, yh].length - 1) = f := by
          simp only [List.length_cons, List.length_nil, Nat.add_sub_cancel, Nat.zero_add, pow_one]
          rw [Nat.add_mul_div_left _ _ hB0, Nat.div_eq_of_lt hzl, Nat.zero_add]
        rw [h4, Nat.div_lt_iff_lt_mul (pow_pos hB0 _)] at h3
        simpa using h3
      · have hi3 : i + 1 = lo.length := by omega
        rw [hi3, ← hX, Nat.add_comm, Nat.mul_add_div (pow_pos hB0 _),
          Nat.div_eq_of_lt (val_lt hdlo), Nat.add_zero, Nat.mod_eq_of_lt hR0, pow_one]
        have h1 : B * (top + 1) ≤ B * f := Nat.mul_le_mul_left _ htopf
        have h2 : B * (top + 1) = B * top + B := by ring
        have h3 : f * B = B * f := Nat.mul_comm _ _
        omega
  obtain ⟨r, a, c, f1, f2, f3, f4, f5, f6, f7⟩ := divPairFold_spec L hzl hf e5 lo a0 top hdlo ha0
    (by omega) hR0 (by rw [hX]; exact htie)
  rw [hX, e4'] at f6 f7
  rw [Nat.mul_div_mul_right _ _ hpow] at f6
  rw [Nat.mul_mod_mul_right] at f7
  -- shift back
  have hback : ∃ a' c', (if 0 < s then (do
          let (remHigh, carry) ← D.shrCarry c s 0
          let (remLow, _) ← D.shrCarry a s carry
          return (remLow, remHigh))
        else return (a, c)) = (.ok (a', c') : R (Nat × Nat)) ∧ a' < B ∧ c' < B ∧
      a' + B * c' = val B l % (yl + B * yh) := by
    by_cases hs : 0 < s
    · have hcm : c % 2 ^ s < 2 ^ s := Nat.mod_lt _ hpow
      refine ⟨(c % 2 ^ s * B + a) / 2 ^ s, c / 2 ^ s, ?_, div_carry_lt a _ _ f4 hcm, ?_, ?_⟩
      · rw [if_pos hs, L.shrCarry c s 0 f5 hs e7 hpow, ok_bind]
        simp only [Nat.zero_mul, Nat.zero_add]
        rw [L.shrCarry a s _ f4 hs e7 hcm]
        rfl
      · exact lt_of_le_of_lt (Nat.div_le_self _ _) f5
      · have h1 : a + B * c = (c % 2 ^ s * B + a) + 2 ^ s * (B * (c / 2 ^ s)) := by
          conv_lhs => rw [← Nat.mod_add_div c (2 ^ s)]
          ring
        have h2 := congrArg (· / 2 ^ s) (h1.symm.trans f7)
        simp only [Nat.add_mul_div_left _ _ hpow, Nat.mul_div_left _ hpow] at h2
        exact h2
    · have hs0 : s = 0 := by omega
      subst hs0
      exact ⟨a, c, by simp, f4, f5, by simpa using f7⟩
  obtain ⟨a', c', g1, g2, g3, g4⟩ := hback
  obtain ⟨nd, d1, d2, d3, d4⟩ := dropLeadingZeros_spec (r ++ [0]) l.length (by simp; omega)
  have hrl : (r ++ [0]).length = l.length := by simp; omega
  refine ⟨r ++ [0], nd, a', c', ?_, hrl, by simp [f3, hB0], g2, g3, by rw [val_snoc, ← f6]; simp,
    g4, d2, ?_, d4⟩
  · unfold divAssignDigitPair
    rw [if_neg (by omega)]
    obtain ⟨x, y, t, rfl⟩ : ∃ x y t, l = x :: y :: t := by
      match l, hn with
      | x :: y :: t, _ => exact ⟨x, y, t, rfl⟩
    simp only []
    rw [hs1, ok_bind, n1, ok_bind]
    simp only []
    have hgl : getR (lo ++ [a0]) ((x :: y :: t).length - 1) = .ok a0 := by
      rw [getR_ok (by simp at hlo ⊢; omega)]
      simp only [← hlo]
      simp
    rw [hgl, ok_bind, setR_ok (by simp at hlo ⊢; omega), ok_bind]
    have hset : (lo ++ [a0]).set ((x :: y :: t).length - 1) 0 = lo ++ [0] := by
      rw [← hlo, List.set_append_right _ _ (le_refl _)]; simp
    rw [hset]
    have hos := onSlice_append (p := []) (s := lo) (q := [0]) (a := 0)
      (b := (x :: y :: t).length - 1) (f := fun s => foldDigitsRev (divPairStep D zl f) s (a0, top))
      rfl (by omega)
    rw [List.nil_append] at hos
    rw [hos, f1]
    simp only [ok_bind, pure_eq_ok, List.nil_append]
    simp only [pure_eq_ok] at g1
    rw [g1, ok_bind]
    simp only []
    rw [d1]; rfl
  · rw [← hrl, List.take_length] at d3
    rw [hrl] at d3
    exact d3

end Babs
