import Verif.Proofs.ToomDigits
import Verif.Proofs.ToomEval

/-!
# Helper lemmas: exactly when the evaluation step of Toom-Cook multiplication panics
-/

namespace Babs

variable {D : DigitOps} {B : Nat}

/-- The parts of a number are determined. -/
theorem parts_unique {P a0 a1 a2 c0 c1 c2 : Nat} (h : a0 + P * a1 + P * P * a2 = c0 + P * c1 + P * P * c2)
    (ha0 : a0 < P) (ha1 : a1 < P) (hc0 : c0 < P) (hc1 : c1 < P) : a0 = c0 ∧ a1 = c1 ∧ a2 = c2 := by
  have hP : 0 < P := by omega
  rw [mul_assoc, mul_assoc, add_assoc, add_assoc, ← mul_add, ← mul_add] at h
  have h0 : a0 = c0 := by
    have := congrArg (· % P) h
    simpa [Nat.add_mul_mod_self_left, Nat.mod_eq_of_lt ha0, Nat.mod_eq_of_lt hc0] using this
  subst h0
  have h1 := Nat.eq_of_mul_eq_mul_left hP (Nat.add_left_cancel h)
  have h2 : a1 = c1 := by
    have := congrArg (· % P) h1
    simpa [Nat.add_mul_mod_self_left, Nat.mod_eq_of_lt ha1, Nat.mod_eq_of_lt hc1] using this
  subst h2
  exact ⟨rfl, rfl, Nat.eq_of_mul_eq_mul_left hP (Nat.add_left_cancel h1)⟩

/-- What evaluation of an operand at 1, -1 and -2 gives. -/
structure EvalEx (B b : Nat) (x : List Nat) (k1 k2 k3 a0 a1 a2 : Nat) (e : ToomEval) : Prop where
  p0 : Rep B e.p0 a0
  p0len : e.p0.length ≤ b
  pinf : Digs B e.pinf
  pinfv : val B e.pinf = a2
  pinflen : e.pinf.length = x.length - 2 * b
  p1 : Buf B e.p1 e.lenP1 (a0 + a1 + a2)
  p1len : e.p1.length = k1
  lenP1 : e.lenP1 ≤ b + 1
  pm1 : Buf B e.pm1 e.lenPm1 (Nat.dist (a0 + a2) a1)
  pm1len : e.pm1.length = k2
  lenPm1 : e.lenPm1 ≤ b + 1
  pm2 : Buf B e.pm2 e.lenPm2 (Nat.dist (a0 + 4 * a2) (2 * a1))
  pm2len : e.pm2.length = k3
  lenPm2 : e.lenPm2 ≤ b + 1
  s1 : e.signPm1 = decide (a0 + a2 < a1)
  s2 : e.signPm2 = decide (a0 + 4 * a2 < 2 * a1)
  n1 : e.lenP1 = digits1 B a0 a1 (x.length - 2 * b) a2
  nm1 : e.lenPm1 = digitsM1 B a0 a1 (x.length - 2 * b) a2
  nm2 : e.lenPm2 = digitsM2 B a0 a1 (x.length - 2 * b) a2

theorem toomEval_exact {dbg : Bool} (L : Lawful D B) {x : List Nat} {b k1 k2 k3 a0 a1 a2 : Nat}
    (hx : Digs B x) (hb : x.length ≤ 3 * b) (h1 : b + 1 ≤ k1) (h2 : b + 1 ≤ k2) (h3 : b + 2 ≤ k3)
    (hv : val B x = a0 + B ^ b * a1 + B ^ (2 * b) * a2) (ha0 : a0 < B ^ b) (ha1 : a1 < B ^ b) :
    Ex (evalFails B a0 a1 (x.length - 2 * b) a2 = true)
      (toomEval D dbg b x (List.replicate k1 0) (List.replicate k2 0) (List.replicate k3 0))
      (EvalEx B b x k1 k2 k3 a0 a1 a2) := by
  have hB := L.base
  obtain ⟨l0, p0, l1, m1, pinf, s1, s2, s3, s4, s5, s6, p0l, p0d, p0c, p0b, m1d, m1c, m1b, pid, pil,
    -, hv'⟩ := toom_split hx hb
  obtain ⟨rfl, rfl, rfl⟩ : val B p0 = a0 ∧ val B m1 = a1 ∧ val B pinf = a2 := by
    refine parts_unique (P := B ^ b) ?_ ?_ ?_ ha0 ha1
    · rw [← pow_add, ← two_mul, ← hv', hv]
    · exact lt_of_lt_of_le (val_lt p0d) (Nat.pow_le_pow_right L.pos p0b)
    · exact lt_of_lt_of_le (val_lt m1d) (Nat.pow_le_pow_right L.pos m1b)
  have pib : pinf.length ≤ b := by omega
  have ha2 : val B pinf < B ^ b :=
    lt_of_lt_of_le (val_lt pid) (Nat.pow_le_pow_right L.pos pib)
  have hp1 : 8 * B ^ b ≤ B ^ (b + 1) := by
    rw [pow_succ, mul_comm]; exact Nat.mul_le_mul_left _ (by omega)
  have hp2 : B ^ (b + 1) ≤ B ^ (b + 2) := Nat.pow_le_pow_right L.pos (by omega)
  have pil' : x.length - 2 * b = pinf.length := by omega
  have z0 := size_canon (B := B) (by omega) p0d p0c
  have z1 := size_canon (B := B) (by omega) m1d m1c
  unfold toomEval
  simp only []
  rw [s1, ok_bind, s2, ok_bind, s3, ok_bind, s4, ok_bind, s5, ok_bind, s6, ok_bind]
  clear s1 s2 s3 s4 s5 s6
  -- p0 + pinf
  obtain ⟨q, n, e1, e2, e3, e4, e5⟩ := addInto_buf_digits L (k := k2) (m := b + 1) p0d pid h2
    (by omega) (by omega) (by omega)
  rw [← z0] at e5
  change n = digits02 _ _ _ _ at e5
  rw [e1, ok_bind]
  simp only [unwrapR, ok_bind]
  rw [slice_take e3.le, ok_bind]
  -- p(1)
  obtain ⟨q1, n1, f1, f2, f3, f4, f5⟩ := addInto_buf_digits L (k := k1) (m := b + 1) e3.take_digs m1d h1
    (by rw [e3.take_len]; omega) (by omega) (by rw [e3.take_val]; omega)
  rw [e3.take_val] at f3 f5
  rw [e3.take_len, e5, ← z1] at f5
  change n1 = digits1 _ _ _ _ _ at f5
  rw [f1, ok_bind]
  simp only [ok_bind]
  rw [pil']
  refine Ex.congr (K := absFail n (val B p0 + val B pinf) m1.length (val B m1) = true ∨
    (val B p0 + val B pinf < val B m1 ∧ absFail pinf.length (val B pinf)
      (digitsM1 B (val B p0) (val B m1) pinf.length (val B pinf))
      (Nat.dist (val B p0 + val B pinf) (val B m1)) = true) ∨
    ((val B m1 ≤ val B p0 + 2 * val B pinf ∧
      absFail (digitsTwice B (val B p0) (val B m1) pinf.length (val B pinf))
        (2 * Nat.dist (val B p0 + 2 * val B pinf) (val B m1)) p0.length (val B p0) = true) ∨ False)) ?_ ?_
  swap
  · rw [e5, ← z0, ← z1]
    unfold evalFails
    simp only [Bool.or_eq_true, Bool.and_eq_true, decide_eq_true_eq, or_assoc, or_false]
  -- p(-1)
  refine Ex.bind (subAssignBigAbsSign_exact L e3 m1d (by omega)) ?_
  rintro ⟨pm1, sg1, len1⟩ ⟨g1, g2, g3, -, g5, g6, g7⟩
  simp only [] at g1 g2 g3 g5 g6 g7 ⊢
  replace g6 := g6 m1c
  rw [e5, ← z1] at g5
  change len1 = digitsM1 _ _ _ _ _ at g5
  have hv1 : Nat.dist (val B p0 + val B pinf) (val B m1) < 2 * B ^ b := by
    unfold Nat.dist; omega
  have hlen1 : len1 ≤ b + 1 := by omega
  generalize hd1 : Nat.dist (val B p0 + val B pinf) (val B m1) = v1 at *
  -- p(-1) + pinf
  refine Ex.bind (P := fun res => Buf B res.1 res.2.2 (Nat.dist (val B p0 + 2 * val B pinf) (val B m1)) ∧
    res.1.length = k3 ∧ res.2.2 ≤ b + 1 ∧
    res.2.1 = decide (val B p0 + 2 * val B pinf < val B m1) ∧
    res.2.2 = digitsMid B (val B p0) (val B m1) pinf.length (val B pinf)) ?_ ?_
  · unfold digitsMid
    rw [← g5, hd1]
    by_cases hc : val B p0 + val B pinf < val B m1
    · have hs : sg1 = true := by rw [g6]; simpa using hc
      subst hs
      rw [if_pos rfl, if_pos hc, slice_take g1.le, ok_bind]
      have hq := subBigIntoAbsSign_exact_buf (dbg := dbg) L pid g1.take_digs (g7 rfl) (k := k3)
        (by rw [g1.take_len]; omega)
      rw [g1.take_len, g1.take_val] at hq
      refine Ex.congr (K := absFail pinf.length (val B pinf) len1 v1 = true) ?_ (by simp [hc])
      refine hq.mono ?_
      rintro ⟨r, s, len⟩ ⟨t1, t2, t3, t4, t5⟩
      simp only [] at t1 t2 t3 t4 t5 ⊢
      refine ⟨?_, t2, by omega, ?_, t4⟩
      · rw [show Nat.dist (val B p0 + 2 * val B pinf) (val B m1) = Nat.dist (val B pinf) v1 by
          rw [← hd1]; unfold Nat.dist; omega]
        exact t1
      · rw [t5, decide_eq_decide, ← hd1]; unfold Nat.dist; omega
    · have hs : sg1 = false := by rw [g6]; simpa using hc
      subst hs
      rw [if_neg (by simp), if_neg hc, slice_take g1.le, ok_bind]
      obtain ⟨r, len, t1, t2, t3, t4, t5⟩ := addInto_buf_digits L (k := k3) (m := b + 1) g1.take_digs pid
        (by omega) (by rw [g1.take_len]; omega) (by omega) (by rw [g1.take_val]; omega)
      rw [t1, ok_bind]
      rw [g1.take_val] at t3
      rw [g1.take_len, g1.take_val] at t5
      refine Ex.congr (K := False) ?_ (by simp [hc])
      refine ⟨not_false, ?_, t2, t4, ?_, t5⟩
      · rw [show Nat.dist (val B p0 + 2 * val B pinf) (val B m1) = v1 + val B pinf by
          rw [← hd1]; unfold Nat.dist; omega]
        exact t3
      · simp; omega
  rintro ⟨pm2, sg2, len2⟩ ⟨i1, i2, i3, i4, i5⟩
  simp only [] at i1 i2 i3 i4 i5 ⊢
  have hv2 : Nat.dist (val B p0 + 2 * val B pinf) (val B m1) < 3 * B ^ b := by
    unfold Nat.dist; omega
  generalize hd2 : Nat.dist (val B p0 + 2 * val B pinf) (val B m1) = v2 at *
  obtain ⟨r, c, r', n', j1, j2, j3, j4, j5, j6⟩ := i1.doublePush_digits L (k := b + 1) (by omega) i3
    (by omega)
  rw [j1, ok_bind]
  simp only []
  rw [j2, ok_bind]
  simp only []
  rw [i5, ← hd2] at j6
  change n' = digitsTwice _ _ _ _ _ at j6
  refine Ex.bind (P := fun res =>
    Buf B res.1 res.2.2 (Nat.dist (val B p0 + 4 * val B pinf) (2 * val B m1)) ∧ res.1.length = k3 ∧
    res.2.2 ≤ b + 1 ∧ res.2.1 = decide (val B p0 + 4 * val B pinf < 2 * val B m1) ∧
    res.2.2 = digitsM2 B (val B p0) (val B m1) pinf.length (val B pinf)) ?_ ?_
  · unfold digitsM2
    rw [← j6, hd2, z0]
    by_cases hc : val B p0 + 2 * val B pinf < val B m1
    · have hs : sg2 = true := by rw [i4]; simpa using hc
      subst hs
      rw [if_pos rfl, if_pos hc, ← p0l]
      obtain ⟨buf1, c1, buf', n'', t1, t2, t3, t4, t5, t6⟩ := j4.addPush_digits L (k := b + 1) p0d
        (by omega) j5 (by omega) (by omega)
      rw [t1, ok_bind]
      simp only []
      rw [t2, ok_bind]
      refine Ex.congr (K := False) ?_ (by simp; omega)
      refine ⟨not_false, ?_, by simp only []; omega, by simp only []; omega, ?_, t6⟩
      · rw [show Nat.dist (val B p0 + 4 * val B pinf) (2 * val B m1) = 2 * v2 + val B p0 by
          rw [← hd2]; unfold Nat.dist; omega]
        exact t4
      · simp; omega
    · have hs : sg2 = false := by rw [i4]; simpa using hc
      subst hs
      rw [if_neg (by simp), if_neg hc]
      refine Ex.congr (K := absFail n' (2 * v2) p0.length (val B p0) = true) ?_
        (by simp only [show val B m1 ≤ val B p0 + 2 * val B pinf by omega, true_and])
      refine (subAssignBigAbsSign_exact L j4 p0d (by omega)).mono ?_
      rintro ⟨r2, s2, n2⟩ ⟨t1, t2, t3, t4, t5, t6, -⟩
      simp only [] at t1 t2 t3 t4 t5 t6 ⊢
      have t7 := t6 p0c
      refine ⟨?_, by omega, by omega, ?_, t5⟩
      · rw [show Nat.dist (val B p0 + 4 * val B pinf) (2 * val B m1) = Nat.dist (2 * v2) (val B p0) by
          rw [← hd2]; unfold Nat.dist; omega]
        exact t1
      · rw [t7, decide_eq_decide, ← hd2]; unfold Nat.dist; omega
  rintro ⟨pm2', sg2', len2'⟩ ⟨w1, w2, w3, w4, w5⟩
  simp only [] at w1 w2 w3 w4 w5 ⊢
  refine ⟨not_false, ⟨p0d, p0c, rfl⟩, p0b, pid, rfl, pil'.symm, ?_, f2, f4, ?_, by simp; omega,
    hlen1, w1, w2, w3, g6, w4, ?_, ?_, ?_⟩
  · rw [show val B p0 + val B m1 + val B pinf = val B p0 + val B pinf + val B m1 by ring]; exact f3
  · rw [hd1]; exact g1
  · rw [pil']; exact f5
  · rw [pil']; exact g5
  · rw [pil']; exact w5

end Babs
