import Verif.Proofs.DivPair
import Verif.Proofs.MulExactAll
import Verif.SpecProduct
import Verif.SpecDiv

/-!
# Helper lemmas: Burnikel-Ziegler division (`src/ubig/div/bz.rs`)

For digits that can handle ties (decimal digits), or if there is no tie.  The result is right, unless a
panic occurs: an index out of bounds in the schoolbook division of the parts, or a failed `unwrap` in
the Karatsuba multiplication.  `bzSafe` says when there is no panic.
-/

namespace Babs

variable {D : DigitOps} {B : Nat} {dbg : Bool}

/-- The panics that may occur. -/
def bzFail (p : Panic) : Prop := p = .index ∨ p = .unwrap

/-- A list that ends in zeros after `n` digits. -/
def ZeroFrom (l : List Nat) (n : Nat) : Prop := l = l.take n ++ List.replicate (l.length - n) 0

/-- Lower the quotient while the remainder is negative. -/
theorem bzCorrect_spec (L : Lawful D B) {den qden : List Nat} (hd : Digs B den) (hq : Digs B qden)
    (cq : Canon qden) (k : Nat) :
    ∀ (num quot : List Nat) (nquot : Nat), Digs B num → Digs B quot → nquot ≤ quot.length →
      ZeroFrom quot nquot → den.length ≤ num.length →
      val B qden + val B den ≤ B ^ num.length →
      val B qden ≤ val B num + k * val B den →
      (∀ i, val B num + i * val B den < val B qden → i < val B quot) →
    ∃ num' quot' nq' j, bzCorrect D den qden k num quot nquot = .ok (num', quot', nq') ∧
      num'.length = num.length ∧ Digs B num' ∧ quot'.length = quot.length ∧ Digs B quot' ∧
      nq' ≤ quot.length ∧ ZeroFrom quot' nq' ∧ val B num' = val B num + j * val B den ∧
      val B quot' + j = val B quot ∧ val B qden ≤ val B num' ∧
      (j = 0 ∨ val B num' < val B qden + val B den) := by
  have hB0 := L.pos
  induction k with
  | zero =>
    intro num quot nquot h1 h2 h3 h4 h5 h6 h7 h8
    exact ⟨num, quot, nquot, 0, rfl, rfl, h1, rfl, h2, h3, h4, by simp, by simp, by simpa using h7,
      Or.inl rfl⟩
  | succ k ih =>
    intro num quot nquot h1 h2 h3 h4 h5 h6 h7 h8
    obtain ⟨nd, d1, d2, d3, d4⟩ := dropLeadingZeros_spec num num.length (le_refl _)
    rw [List.take_length] at d3
    have hlt := ltBig_canon hB0 (h1.take nd) hq d4 cq
    rw [val_take_zeros d3] at hlt
    have hsl : slice num 0 nd = .ok (num.take nd) := by
      rw [slice_ok (by omega) (by omega)]; rfl
    unfold bzCorrect
    rw [d1, ok_bind, hsl, ok_bind, ltBig_dec hlt]
    by_cases hc : val B num < val B qden
    · rw [if_pos (by simpa using hc)]
      obtain ⟨num1, c, a1, a2, a3, a4⟩ := addAssignBig_spec L num den h1 hd h5
      have hc0 : c = false := by
        cases c with
        | false => rfl
        | true => simp at a4; omega
      subst hc0
      simp only [Bool.toNat_false, Nat.mul_zero, Nat.add_zero] at a4
      rw [a1, ok_bind]
      simp only []
      have hq0 : 0 < val B quot := h8 0 (by simpa using hc)
      obtain ⟨r, res, b1, b2, b3, b4⟩ := decGo_spec L nquot (quot.take nquot) (h2.take _) (by simp)
      have hvt : val B (quot.take nquot) = val B quot := val_take_zeros h4
      have hlt2 : (quot.take nquot).length = nquot := by simp; omega
      rcases b4 with ⟨b5, -⟩ | ⟨-, b6, b7, -⟩
      · omega
      have hdec : decAssign D (quot.take nquot) = .ok (r, res) := by
        unfold decAssign; rw [hlt2]; exact b1
      have hos : onSlice quot 0 nquot (decAssign D)
          = .ok (r ++ List.replicate (quot.length - nquot) 0, res) := by
        have := onSlice_append (p := []) (s := quot.take nquot)
          (q := List.replicate (quot.length - nquot) 0) (a := 0) (b := nquot) (f := decAssign D) rfl
          (by omega)
        rw [List.nil_append, ← h4] at this
        rw [this, hdec]; rfl
      rw [hos, ok_bind]
      simp only []
      have hz : ∃ nq1, res = .ok nq1 ∧ nq1 ≤ nquot ∧
          ZeroFrom (r ++ List.replicate (quot.length - nquot) 0) nq1 := by
        have hrl : r.length = nquot := by omega
        rcases b7 with rfl | ⟨rfl, b8, b9, -⟩
        · refine ⟨nquot, rfl, le_refl _, ?_⟩
          unfold ZeroFrom
          rw [List.take_left' hrl, List.length_append, List.length_replicate, hrl]
          congr 2; omega
        · refine ⟨nquot - 1, rfl, by omega, ?_⟩
          rw [hlt2] at b8 b9
          unfold ZeroFrom
          rw [List.take_append_of_le_length (by omega), List.length_append, List.length_replicate,
            hrl]
          conv_lhs => rw [← List.take_append_drop (nquot - 1) r, b9]
          rw [List.append_assoc]
          congr 1
          rw [show nquot + (quot.length - nquot) - (nquot - 1) = (quot.length - nquot) + 1 by omega,
            List.replicate_succ]
          rfl
      obtain ⟨nq1, hres, hn1, hn2⟩ := hz
      have hvr : val B (r ++ List.replicate (quot.length - nquot) 0) + 1 = val B quot := by
        rw [val_append]; simp; omega
      rw [hres]
      simp only [unwrapR, ok_bind]
      have hql : (r ++ List.replicate (quot.length - nquot) 0).length = quot.length := by
        simp; omega
      obtain ⟨num', quot', nq', j, e1, e2, e3, e4, e5, e6, e7, e8, e9, e10, e11⟩ :=
        ih num1 (r ++ List.replicate (quot.length - nquot) 0) nq1 a3
          (by simp [b3, digs_replicate hB0]) (by omega) hn2 (by omega) (by rw [a2]; exact h6)
          (by rw [a4]; have : (k + 1) * val B den = k * val B den + val B den := by ring
              omega)
          (by
            intro i hi
            rw [a4] at hi
            have := h8 (i + 1) (by
              have : (i + 1) * val B den = i * val B den + val B den := by ring
              omega)
            omega)
      refine ⟨num', quot', nq', j + 1, e1, by omega, e3, by omega, e5, by omega, e7, ?_, by omega,
        e10, ?_⟩
      · rw [e8, a4]; ring
      · right
        rcases e11 with h | h
        · subst h
          simp at e8
          omega
        · exact h
    · rw [if_neg (by simpa using hc)]
      exact ⟨num, quot, nquot, 0, rfl, rfl, h1, rfl, h2, h3, h4, by simp, by simp, by omega,
        Or.inl rfl⟩

/-- What the recursive functions do. -/
structure BzPost (B : Nat) (num den quot work : List Nat)
    (r : List Nat × List Nat × List Nat × Nat × Nat) : Prop where
  nlen : r.1.length = num.length
  ndigs : Digs B r.1
  nval : val B r.1 = val B num % val B den
  qlen : r.2.1.length = quot.length
  qdigs : Digs B r.2.1
  qval : val B r.2.1 = val B num / val B den
  wlen : r.2.2.1.length = work.length
  wdigs : Digs B r.2.2.1
  nq : r.2.2.2.1 ≤ quot.length
  qzero : ZeroFrom r.2.1 r.2.2.2.1

/-- The scratch space needed to divide by `n` digits. -/
def BzWork (n w : Nat) : Prop := 3 * (n / 2) + 1 + mulWorkSize (n / 2) ≤ w ∧ 20 ≤ w

/-- The contract of `div_big_bz_2n_n` for `n` digits.  `G` is the condition on the dividend and divisor;
if `Z` holds, there is no panic; if there is no panic, `P` holds. -/
def Bz2 (B n : Nat) (Z : Prop) (G P : Nat → Nat → Prop) (div2n : DivFn) : Prop :=
  ∀ (num v work : List Nat) (f : Nat), num.length = 2 * n → v.length + 1 = n → Digs B num →
    Digs B (v ++ [f]) → B ≤ 2 * f → val B num < val B (v ++ [f]) * B ^ n → BzWork n work.length →
    Digs B work → G (val B num) (val B (v ++ [f])) →
    Sp (fun p => bzFail p ∧ ¬ Z) (div2n num (v ++ [f]) (List.replicate n 0) work)
      (fun r => BzPost B num (v ++ [f]) (List.replicate n 0) work r ∧
        Canon (r.2.1.take r.2.2.2.1) ∧ P (val B num) (val B (v ++ [f])))

theorem mulWorkSize_mono {m n : Nat} (h : m ≤ n) : mulWorkSize m ≤ mulWorkSize n := by
  unfold mulWorkSize toom3Cutoff karatsubaCutoff
  split_ifs
  · exact toom3WorkSize_mono h
  · omega
  · omega
  · exact le_trans (karatsuba_le_toom3 _) (toom3WorkSize_mono h)
  · exact karatsubaWorkSize_mono h
  · omega
  · omega
  · omega
  · omega

theorem workOk_mul {m n k w : Nat} (h1 : m ≤ k) (h2 : n ≤ k) (hw : mulWorkSize k ≤ w) :
    WorkOk m n w := by
  unfold mulWorkSize toom3Cutoff karatsubaCutoff at hw
  split_ifs at hw with h3 h4
  · exact workOk_toom h1 h2 hw
  · exact workOk_kara h1 h2 (by omega) hw
  · exact ⟨fun h => by omega, fun h => by omega⟩

theorem BzWork.mono {m n w : Nat} (h : BzWork n w) (hm : m ≤ n) : BzWork m w := by
  obtain ⟨h1, h2⟩ := h
  have := mulWorkSize_mono (Nat.div_le_div_right (c := 2) hm)
  exact ⟨by omega, h2⟩

/-- The leading half of a scaled divisor is large. -/
theorem half_ge {v : List Nat} {f n : Nat} (hv : v.length + 1 = n) (hB : B ≤ 2 * f) :
    B ^ n ≤ 2 * val B (v ++ [f]) := by
  rw [val_snoc, ← hv, pow_succ]
  have h1 : B ^ v.length * B ≤ B ^ v.length * (2 * f) := Nat.mul_le_mul_left _ hB
  have h2 : B ^ v.length * (2 * f) = 2 * (B ^ v.length * f) := by ring
  omega

/-- The estimate of the quotient: `num = num3 + B^n * a12` with quotient `q` and remainder `r` of
`a12` by the upper half of the divisor. -/
theorem bz3_arith {P n3 a12 b1 b2 q r : Nat} (hb2 : b2 < P)
    (hdiv : a12 = q * b1 + r) (hq : q < P) (hhalf : P ≤ 2 * b1)
    (hlt : n3 + P * a12 < (b2 + P * b1) * P)
    (hr : r < b1 ∨ q + 1 = P) (hn3 : n3 < P) :
    (n3 + P * r) + q * (b2 + P * b1) = (n3 + P * a12) + q * b2 ∧
    q * b2 ≤ (n3 + P * r) + 2 * (b2 + P * b1) ∧
    (∀ i, (n3 + P * r) + i * (b2 + P * b1) < q * b2 → i < q) ∧
    (q * b2 ≤ n3 + P * r → n3 + P * r < q * b2 + (b2 + P * b1)) := by
  have e1 : (n3 + P * r) + q * (b2 + P * b1) = (n3 + P * a12) + q * b2 := by
    rw [hdiv]; ring
  refine ⟨e1, ?_, ?_, ?_⟩
  · have h1 : q * b2 ≤ P * P := Nat.mul_le_mul hq.le hb2.le
    have h2 : P * P ≤ P * (2 * b1) := Nat.mul_le_mul_left _ hhalf
    have h3 : P * (2 * b1) = 2 * (P * b1) := by ring
    omega
  · intro i hi
    by_contra h
    have h1 : q * (b2 + P * b1) ≤ i * (b2 + P * b1) := Nat.mul_le_mul_right _ (by omega)
    have h2 : q * b2 ≤ q * (b2 + P * b1) := Nat.mul_le_mul_left _ (by omega)
    omega
  · intro _
    rcases hr with h | h
    · have h1 : P * (r + 1) ≤ P * b1 := Nat.mul_le_mul_left _ h
      have h2 : P * (r + 1) = P * r + P := by ring
      omega
    · have h1 : (b2 + P * b1) * P = q * (b2 + P * b1) + (b2 + P * b1) := by
        rw [← h]; ring
      omega

theorem div_mod_of_lt {A Y q r : Nat} (h : A = q * Y + r) (hr : r < Y) : A / Y = q ∧ A % Y = r := by
  subst h
  have hY : 0 < Y := by omega
  constructor
  · rw [Nat.mul_comm, Nat.mul_add_div hY, Nat.div_eq_of_lt hr, Nat.add_zero]
  · rw [Nat.mul_comm, Nat.mul_add_mod, Nat.mod_eq_of_lt hr]

set_option maxHeartbeats 1000000 in
theorem divBz3n2n_spec (L : Lawful D B) {n : Nat} {Z : Prop} {G P : Nat → Nat → Prop}
    {div2n : DivFn} (h2 : Bz2 B n Z G P div2n)
    (hn : 1 ≤ n) {num v work : List Nat} {f : Nat} (hnum : num.length = 3 * n)
    (hv : v.length + 1 = 2 * n) (hdn : Digs B num) (hdv : Digs B (v ++ [f])) (hB : B ≤ 2 * f)
    (hlt : val B num < val B (v ++ [f]) * B ^ n) (hw : 3 * n + 1 + mulWorkSize n ≤ work.length)
    (hw2 : 20 ≤ work.length) (hdw : Digs B work)
    (hG : val B num / B ^ n / B ^ n < val B (v ++ [f]) / B ^ n →
      G (val B num / B ^ n) (val B (v ++ [f]) / B ^ n))
    (hZ : Z → productOk B (if val B num / B ^ n / B ^ n < val B (v ++ [f]) / B ^ n then
        val B num / B ^ n / (val B (v ++ [f]) / B ^ n) else B ^ n - 1)
      (val B (v ++ [f]) % B ^ n) = true) :
    Sp (fun p => bzFail p ∧ ¬ Z) (divBz3n2n D dbg div2n num (v ++ [f]) (List.replicate n 0) work)
      (fun r => BzPost B num (v ++ [f]) (List.replicate n 0) work r ∧
        (val B num / B ^ n / B ^ n < val B (v ++ [f]) / B ^ n →
          P (val B num / B ^ n) (val B (v ++ [f]) / B ^ n)) ∧
        productOk B (if val B num / B ^ n / B ^ n < val B (v ++ [f]) / B ^ n then
            val B num / B ^ n / (val B (v ++ [f]) / B ^ n) else B ^ n - 1)
          (val B (v ++ [f]) % B ^ n) = true) := by
  have hB0 := L.pos
  have hBb := L.base
  have hden : (v ++ [f]).length = 2 * n := by simp [hv]
  have hhalfn : (v ++ [f]).length / 2 = n := by rw [hden]; omega
  have hf : f < B := hdv f (by simp)
  -- the parts
  obtain ⟨b2, v1, hb2l, hvsplit⟩ : ∃ b2 v1, b2.length = n ∧ v = b2 ++ v1 :=
    ⟨v.take n, v.drop n, by simp; omega, (List.take_append_drop n v).symm⟩
  subst hvsplit
  have hv1 : v1.length + 1 = n := by simp at hv; omega
  obtain ⟨n3, a12, hn3l, hnsplit⟩ : ∃ n3 a12, n3.length = n ∧ num = n3 ++ a12 :=
    ⟨num.take n, num.drop n, by simp; omega, (List.take_append_drop n num).symm⟩
  subst hnsplit
  have ha12 : a12.length = 2 * n := by simp at hnum; omega
  have hden2 : (b2 ++ v1) ++ [f] = b2 ++ (v1 ++ [f]) := by simp
  simp only [digs_append, digs_cons, digs_nil, and_true] at hdn hdv
  have hdb1 : Digs B (v1 ++ [f]) := by simp [hdv.1.2, hdv.2]
  have hYeq : val B ((b2 ++ v1) ++ [f]) = val B b2 + B ^ n * val B (v1 ++ [f]) := by
    rw [hden2, val_append, hb2l]
  have hAeq : val B (n3 ++ a12) = val B n3 + B ^ n * val B a12 := by rw [val_append, hn3l]
  have hvb2 := val_lt hdv.1.1
  have hvn3 := val_lt hdn.1
  rw [hb2l] at hvb2
  rw [hn3l] at hvn3
  have hdivA : val B (n3 ++ a12) / B ^ n = val B a12 := by
    rw [hAeq, Nat.add_mul_div_left _ _ (pow_pos hB0 _), Nat.div_eq_of_lt hvn3, Nat.zero_add]
  have hdivY : val B ((b2 ++ v1) ++ [f]) / B ^ n = val B (v1 ++ [f]) := by
    rw [hYeq, Nat.add_mul_div_left _ _ (pow_pos hB0 _), Nat.div_eq_of_lt hvb2, Nat.zero_add]
  have hmodY : val B ((b2 ++ v1) ++ [f]) % B ^ n = val B b2 := by
    rw [hYeq, Nat.add_mul_mod_self_left, Nat.mod_eq_of_lt hvb2]
  rw [hdivA, hdivY] at hG
  rw [hdivA, hdivY, hmodY] at hZ
  rw [hdivA, hdivY, hmodY]
  have hhalf := half_ge (B := B) hv1 hB
  have hP : 0 < B ^ n := pow_pos hB0 _
  have hvb1 := val_lt hdb1
  have hb1l : (v1 ++ [f]).length = n := by simpa using hv1
  rw [hb1l] at hvb1
  have hdebug : ∀ {c : Bool}, c = true → debugAssertR dbg c = .ok () := by
    intro c h; simp [debugAssertR, h]
  unfold divBz3n2n
  simp only [hhalfn]
  rw [hdebug (by simpa using hnum), ok_bind, hdebug (by have := hv; simp at this ⊢; omega), ok_bind,
    hdebug (by simp), ok_bind]
  have hg : getR ((b2 ++ v1) ++ [f]) (2 * n - 1) = .ok f := by
    rw [getR_ok (by rw [hden]; omega)]
    congr 1
    have : 2 * n - 1 = (b2 ++ v1).length := by simp; omega
    simp only [this]
    simp
  rw [hg, ok_bind]
  obtain ⟨s, hs1, hs2, hs3⟩ := L.maxShift f (by omega) hf
  have hs0 : s = 0 := by
    by_contra h
    have : 2 ^ 1 ≤ 2 ^ s := Nat.pow_le_pow_right (by omega) (by omega)
    have : f * 2 ^ 1 ≤ f * 2 ^ s := Nat.mul_le_mul_left _ this
    omega
  rw [hs1, ok_bind, hs0, hdebug (by simp), ok_bind, hdebug (by simp; omega), ok_bind, hden2,
    splitAtR_append hb2l, ok_bind]
  simp only []
  rw [splitAtR_append hn3l, ok_bind]
  simp only []
  -- the estimate
  rw [← List.append_assoc]
  have hest : Sp (fun p => bzFail p ∧ ¬ Z) (do
      if ltBig (← slice a12 n a12.length) (v1 ++ [f]) then
        let (a12, quot, work, nquot, _) ← div2n a12 (v1 ++ [f]) (List.replicate n 0) work
        return (a12, quot, work, nquot)
      else
        let quot := fillWith D.max (List.replicate n 0)
        let (a12, _) ← onSlice a12 n a12.length (fun s => subAssignBig D s (v1 ++ [f]))
        let (a12, _) ← addAssignBig D a12 (v1 ++ [f])
        let _ ← dropLeadingZeros a12 a12.length
        return (a12, quot, work, n))
      (fun r : List Nat × List Nat × List Nat × Nat => r.1.length = 2 * n ∧ Digs B r.1 ∧ r.2.1.length = n ∧ Digs B r.2.1 ∧
        r.2.2.1.length = work.length ∧ Digs B r.2.2.1 ∧ r.2.2.2 ≤ n ∧ ZeroFrom r.2.1 r.2.2.2 ∧
        val B a12 = val B r.2.1 * val B (v1 ++ [f]) + val B r.1 ∧
        (val B r.1 < val B (v1 ++ [f]) ∨ val B r.2.1 + 1 = B ^ n) ∧ Canon (r.2.1.take r.2.2.2) ∧
        (val B r.2.1 = if val B a12 / B ^ n < val B (v1 ++ [f]) then
          val B a12 / val B (v1 ++ [f]) else B ^ n - 1) ∧
        (val B a12 / B ^ n < val B (v1 ++ [f]) → P (val B a12) (val B (v1 ++ [f])))) := by
    obtain ⟨al, ah, hal, hsplit⟩ : ∃ al ah, al.length = n ∧ a12 = al ++ ah :=
      ⟨a12.take n, a12.drop n, by simp; omega, (List.take_append_drop n a12).symm⟩
    subst hsplit
    have hah : ah.length = n := by simp at ha12; omega
    have hda := hdn.2
    rw [digs_append] at hda
    have hsl : slice (al ++ ah) n (al ++ ah).length = .ok ah := by
      have := slice_append (p := al) (s := ah) (q := []) (a := n) (b := (al ++ ah).length) hal
        (by simp; omega)
      simpa using this
    have hvl := val_lt hda.1
    have hvh := val_lt hda.2
    rw [hal] at hvl
    rw [hah] at hvh
    have hdal : val B (al ++ ah) / B ^ n = val B ah := by
      rw [val_append, hal, Nat.add_mul_div_left _ _ (pow_pos hB0 _), Nat.div_eq_of_lt hvl,
        Nat.zero_add]
    rw [hsl, ok_bind, ltBig_dec (ltBig_same_length hda.2 hdb1 (by omega))]
    by_cases hc : val B ah < val B (v1 ++ [f])
    · rw [if_pos (by simpa using hc)]
      have hlt2 : val B (al ++ ah) < val B (v1 ++ [f]) * B ^ n := by
        rw [val_append, hal]
        have h3 : B ^ n * (val B ah + 1) ≤ B ^ n * val B (v1 ++ [f]) := Nat.mul_le_mul_left _ hc
        have h4 : B ^ n * (val B ah + 1) = B ^ n * val B ah + B ^ n := by ring
        rw [Nat.mul_comm (val B (v1 ++ [f]))]
        omega
      have := h2 (al ++ ah) v1 work f ha12 hv1 hdn.2 hdb1 hB hlt2
        ⟨by have := mulWorkSize_mono (Nat.div_le_self n 2); omega, hw2⟩ hdw
        (hG (by rw [hdal]; exact hc))
      refine Sp.bind this ?_
      rintro ⟨a', q', w', nq', nr'⟩ ⟨h, hcan, hP⟩
      refine Sp.pure ⟨by rw [h.nlen, ha12], h.ndigs, by rw [h.qlen]; simp, h.qdigs, h.wlen, h.wdigs,
        by simpa using h.nq, h.qzero, ?_, Or.inl ?_, hcan, ?_, fun _ => hP⟩
      · rw [h.nval, h.qval, Nat.mul_comm, Nat.div_add_mod]
      · rw [h.nval]; exact Nat.mod_lt _ (by omega)
      · rw [hdal, if_pos hc]; exact h.qval
    · rw [if_neg (by simpa using hc)]
      have heq : val B ah = val B (v1 ++ [f]) := by
        have h3 : val B (al ++ ah) < val B b2 + B ^ n * val B (v1 ++ [f]) := by
          rw [hYeq, hAeq] at hlt
          have h4 : B ^ n * val B (al ++ ah) < B ^ n * (val B b2 + B ^ n * val B (v1 ++ [f])) := by
            rw [Nat.mul_comm _ (B ^ n)] at hlt; omega
          exact Nat.lt_of_mul_lt_mul_left h4
        rw [val_append, hal] at h3
        by_contra hne
        have h5 : B ^ n * (val B (v1 ++ [f]) + 1) ≤ B ^ n * val B ah :=
          Nat.mul_le_mul_left _ (by omega)
        have h6 : B ^ n * (val B (v1 ++ [f]) + 1) = B ^ n * val B (v1 ++ [f]) + B ^ n := by ring
        omega
      obtain ⟨ah', res, s1, s2, s3, s4⟩ := sub_window L hda.2 hdb1 (by omega) (by omega)
      have hos := onSlice_append (p := al) (s := ah) (q := []) (a := n) (b := (al ++ ah).length)
        (f := fun s => subAssignBig D s (v1 ++ [f])) hal (by simp; omega)
      rw [List.append_nil] at hos
      rw [hos, s1]
      simp only [ok_bind, pure_eq_ok, List.append_nil]
      obtain ⟨a', c, t1, t2, t3, t4⟩ := addAssignBig_spec L (al ++ ah') (v1 ++ [f])
        (by simp [hda.1, s3]) hdb1 (by simp; omega)
      have hz : val B ah' = 0 := by omega
      have hlen' : (al ++ ah').length = 2 * n := by simp; omega
      rw [hlen', val_append, hz, Nat.mul_zero, Nat.add_zero] at t4
      have hc0 : c = false := by
        cases c with
        | false => rfl
        | true =>
          have h3 : B ^ (2 * n) = B ^ n * B ^ n := by rw [← pow_add]; congr 1; omega
          have h4 : 2 * B ^ n ≤ B ^ n * B ^ n := Nat.mul_le_mul_right _ (by
            calc 2 ≤ B ^ 1 := by rw [pow_one]; omega
              _ ≤ B ^ n := Nat.pow_le_pow_right hB0 hn)
          rw [Bool.toNat_true, Nat.mul_one, h3] at t4; omega
      subst hc0
      simp only [Bool.toNat_false, Nat.mul_zero, Nat.add_zero] at t4
      rw [t1, ok_bind]
      simp only []
      obtain ⟨nd, u1, -⟩ := dropLeadingZeros_spec a' a'.length (le_refl _)
      rw [u1, ok_bind]
      have hfill : fillWith D.max (List.replicate n 0) = List.replicate n (B - 1) := by
        simp [fillWith, L.max]
      have hvf : ∀ k, val B (List.replicate k (B - 1)) + 1 = B ^ k := by
        intro k
        induction k with
        | zero => simp
        | succ k ih =>
          rw [List.replicate_succ, val_cons, pow_succ, ← ih]
          have : (val B (List.replicate k (B - 1)) + 1) * B
            = B * val B (List.replicate k (B - 1)) + B := by ring
          omega
      rw [hfill]
      refine Sp.ok ⟨by rw [t2, hlen'], t3, by simp, digs_replicate (by omega), rfl, hdw, le_refl _, ?_,
        ?_, Or.inr (hvf n), ?_, ?_, fun h => absurd (hdal ▸ h) hc⟩
      rotate_left 2
      · simp only [List.take_replicate, Nat.min_self]
        obtain ⟨k, rfl⟩ : ∃ k, n = k + 1 := ⟨n - 1, by omega⟩
        rw [List.replicate_succ', canon_snoc]
        omega
      · rw [hdal, if_neg hc]
        have := hvf n
        simp only []
        omega
      · unfold ZeroFrom; simp
      · simp only []
        rw [val_append, hal, heq, t4]
        have := hvf n
        obtain ⟨k, hk⟩ : ∃ k, val B (List.replicate n (B - 1)) = k := ⟨_, rfl⟩
        rw [hk] at this ⊢
        rw [← this]; ring
  refine Sp.bind hest ?_
  rintro ⟨a', q', w', nq'⟩ ⟨h1, h3, h4, h5, h6, h7, h8, h9, h10, h11, h12, h13, h14⟩
  simp only at h1 h3 h4 h5 h6 h7 h8 h9 h10 h11 h12 h13 h14 ⊢
  rw [← h13] at hZ ⊢
  have hvq := val_lt h5
  rw [h4] at hvq
  rw [hYeq, hAeq] at hlt
  obtain ⟨r1, r2, r3, r4⟩ := bz3_arith (P := B ^ n) hvb2 h10 hvq hhalf hlt h11 hvn3
  obtain ⟨nb2, d1, d2, d3, d4⟩ := dropLeadingZeros_spec b2 b2.length (le_refl _)
  rw [List.take_length] at d3
  rw [d1, ok_bind]
  obtain ⟨wq, wm, hwq, hwsplit⟩ : ∃ wq wm, wq.length = 3 * n + 1 ∧ w' = wq ++ wm :=
    ⟨w'.take (3 * n + 1), w'.drop (3 * n + 1), by simp; omega,
      (List.take_append_drop (3 * n + 1) w').symm⟩
  subst hwsplit
  rw [splitAtR_append hwq, ok_bind]
  simp only []
  rw [slice_ok (Nat.zero_le _) (by omega), ok_bind, slice_ok (Nat.zero_le _) (by omega), ok_bind]
  simp only [List.drop_zero]
  rw [digs_append] at h7
  have hql : (q'.take nq').length = nq' := by simp; omega
  have hbl : (b2.take nb2).length = nb2 := by simp; omega
  rw [hb2l] at d2
  have hmul := mulBigIntoWithWork_exact_all (dbg := dbg) L (mulFuel (nq' + nb2))
    (x := q'.take nq') (y := b2.take nb2) (product := wq) (work := wm) (max nq' nb2) (h5.take _)
    (hdv.1.1.take _) h7.1 h7.2 (by rw [hql, hbl]; unfold mulFuel; omega) (by rw [hql, hbl])
    (Or.inr (Or.inr (by rw [hql, hbl]; omega)))
    (by
      rw [hql, hbl]
      have : (wq ++ wm).length = work.length := h6
      exact workOk_mul h8 d2 (by simp at this; omega))
  have lx := size_canon (by omega) (h5.take _) h12
  have ly := size_canon (by omega) (hdv.1.1.take _) d4
  rw [hql, val_take_zeros h9] at lx
  rw [hbl, val_take_zeros d3] at ly
  rw [hql, hbl, val_take_zeros h9, val_take_zeros d3] at hmul
  have hok : mulPanics B (max nq' nb2) nq' (val B q') nb2 (val B b2)
      = productPanics B (val B q') (val B b2) := by
    unfold productPanics; rw [lx, ly]
  rw [hok] at hmul
  refine Sp.bind (hmul.weaken (fun p hp => ⟨Or.inr hp.1, fun z => ?_⟩)) ?_
  · have h := hZ z
    unfold productOk at h
    rw [hp.2] at h
    exact absurd h (by decide)
  rintro ⟨pq, pw, np⟩ ⟨hnp, hm⟩
  have hm1 := hm.rep
  have hm2 := hm.le
  have hm3 := hm.len
  have hm4 := hm.lt_len
  have hm5 := hm.wlen
  have hm6 := hm.wdigs
  have hm7 := hm.digs hB0 h7.1
  simp only at hm1 hm2 hm3 hm4 hm5 hm6 hm7 ⊢
  rw [hdebug (by simp; omega), ok_bind, slice_ok (Nat.zero_le _) hm4, ok_bind]
  simp only [List.drop_zero]
  have hnl : (n3 ++ a').length = 3 * n := by simp; omega
  have hvnum : val B (n3 ++ a') = val B n3 + B ^ n * val B a' := by rw [val_append, hn3l]
  have hYlt : val B ((b2 ++ v1) ++ [f]) < B ^ (2 * n) := by
    have := val_lt (b := B) (ds := (b2 ++ v1) ++ [f]) (by simp [hdv])
    rwa [hden] at this
  have hP2 : B ^ (2 * n) = B ^ n * B ^ n := by rw [← pow_add]; congr 1; omega
  have hqb : val B q' * val B b2 < B ^ n * B ^ n := Nat.mul_lt_mul'' hvq hvb2
  have hP3 : 2 * B ^ (2 * n) ≤ B ^ (3 * n) := by
    have h12 : B ^ (3 * n) = B ^ (2 * n) * B ^ n := by rw [← pow_add]; congr 1; omega
    rw [h12, Nat.mul_comm]
    apply Nat.mul_le_mul_left
    calc 2 ≤ B ^ 1 := by rw [pow_one]; omega
      _ ≤ B ^ n := Nat.pow_le_pow_right hB0 hn
  obtain ⟨num', quot', nq2, j, e1, e2, e3, e4, e5, e6, e7, e8, e9, e10, e11⟩ :=
    bzCorrect_spec L (den := (b2 ++ v1) ++ [f]) (qden := pq.take np) (by simp [hdv]) hm1.digs
      hm1.canon 2 (n3 ++ a') q' nq' (by simp [hdn.1, h3]) h5 (by omega) h9 (by rw [hden, hnl]; omega)
      (by rw [hm1.val_eq, hnl]; omega) (by rw [hm1.val_eq, hvnum, hYeq]; exact r2)
      (by rw [hm1.val_eq, hvnum, hYeq]; exact r3)
  rw [e1, ok_bind]
  simp only []
  obtain ⟨rr, res, s1, s2⟩ := subAssignBig_spec L num' (pq.take np) e3 hm1.digs
    (by rw [e2, hnl]; simp; omega)
  rw [s1, ok_bind]
  simp only []
  rcases s2.cases with ⟨s3, -⟩ | ⟨-, nd, s3, -, s4, -⟩
  · omega
  rw [s3]
  simp only [unwrapR, ok_bind]
  rw [hm1.val_eq] at e10 e11 s4
  rw [hvnum] at e8
  rw [hYeq] at e8 e11
  have hjq : val B quot' = val B q' - j := by omega
  have hkey : val B (n3 ++ a12) = val B quot' * val B ((b2 ++ v1) ++ [f]) + val B rr := by
    rw [hAeq, hYeq]
    zify at r1 e8 e9 s4 ⊢
    linear_combination -r1 - e8 - s4 - ((val B b2 : ℤ) + (B : ℤ) ^ n * (val B (v1 ++ [f]) : ℤ)) * e9
  have hrlt : val B rr < val B ((b2 ++ v1) ++ [f]) := by
    rw [hYeq]
    rcases e11 with h | h
    · subst h
      rw [Nat.zero_mul, Nat.add_zero] at e8
      have := r4 (by omega)
      omega
    · omega
  obtain ⟨hdiv, hmod⟩ := div_mod_of_lt hkey hrlt
  refine Sp.pure ⟨⟨?_, s2.digs, hmod.symm, ?_, e5, hdiv.symm, ?_, ?_, ?_, e7⟩, h14, by
    unfold productOk; simpa using hnp⟩
  · simp only []; rw [s2.len, e2, hnl, hnum]
  · simp only []; rw [e4, h4]; simp
  · simp only [List.length_append, hm3, hm5] at h6 ⊢; exact h6
  · simp [hm6, hm7]
  · simp only [List.length_replicate]; omega

/-! ## The recursion -/

theorem getLast_snoc_eq {v : List Nat} {f d : Nat} (h : (v ++ [f]).getLast? = some d) : d = f := by
  simpa using h.symm

theorem shift_zero {f s : Nat} (hB : B ≤ 2 * f) (h : f * 2 ^ s < B) : s = 0 := by
  by_contra h0
  have h1 : 2 ^ 1 ≤ 2 ^ s := Nat.pow_le_pow_right (by omega) (by omega)
  have h2 : f * 2 ^ 1 ≤ f * 2 ^ s := Nat.mul_le_mul_left _ h1
  omega

set_option maxHeartbeats 1000000 in
/-- The leaf of the recursion: schoolbook division. -/
theorem divBigLeaf_spec (L : Lawful D B) {Z : Prop} {n : Nat} (hn1 : 10 ≤ n) (hn2 : n < 20)
    {num v work : List Nat} {f : Nat} (hnum : num.length ≤ 2 * n) (cn : Canon num)
    (hv : v.length + 1 = n) (hdn : Digs B num) (hdv : Digs B (v ++ [f])) (hB : B ≤ 2 * f)
    (hlt : val B num < val B (v ++ [f]) * B ^ n) (hw : 20 ≤ work.length) (hdw : Digs B work)
    (T : TieLaw D B ∨ LongTieFree B n (val B num) (val B (v ++ [f])))
    (hZ : Z → val B num / B ^ (2 * n - 1) < val B (v ++ [f]) / B ^ (n - 1)) :
    Sp (fun p => bzFail p ∧ ¬ Z) (divBigLeaf D dbg num (v ++ [f]) (List.replicate n 0) work)
      (fun r => ∃ nq nr, r.2.2.2 = .ok (nq, nr) ∧
        BzPost B num (v ++ [f]) (List.replicate n 0) work (r.1, r.2.1, r.2.2.1, nq, nr) ∧
        Canon (r.2.1.take nq) ∧
        val B num / B ^ (2 * n - 1) < val B (v ++ [f]) / B ^ (n - 1)) := by
  have hB0 := L.pos
  have hBb := L.base
  have hden : (v ++ [f]).length = n := by simpa using hv
  have cd : Canon (v ++ [f]) := canon_snoc.mpr (by omega)
  have hY := cd.pos hB0 (by simp)
  have hlead : val B (v ++ [f]) / B ^ (n - 1) = f := by
    have h2 := val_lt (b := B) (ds := v) (fun x hx => hdv x (by simp [hx]))
    have hvl : v.length = n - 1 := by omega
    rw [hvl] at h2
    rw [val_snoc, hvl, Nat.add_mul_div_left _ _ (pow_pos hB0 _), Nat.div_eq_of_lt h2, Nat.zero_add]
  have hshort : val B num < B ^ (2 * n - 1) →
      val B num / B ^ (2 * n - 1) < val B (v ++ [f]) / B ^ (n - 1) := by
    intro h
    rw [Nat.div_eq_of_lt h, hlead]; omega
  unfold divBigLeaf divBigWithWorkGen
  simp only [hden]
  rw [if_neg (by simp), ltBig_dec (ltBig_canon hB0 hdn hdv cn cd)]
  by_cases hc : val B num < val B (v ++ [f])
  · rw [if_pos (by simpa using hc)]
    refine Sp.pure ⟨0, num.length, rfl, ⟨rfl, hdn, (Nat.mod_eq_of_lt hc).symm, rfl,
      digs_replicate hB0, ?_, rfl, hdw, Nat.zero_le _, ?_⟩, canon_nil, hshort ?_⟩
    rotate_right
    · have h1 := val_lt hdv
      have h2 : B ^ n ≤ B ^ (2 * n - 1) := Nat.pow_le_pow_right hB0 (by omega)
      rw [hden] at h1
      omega
    · simp only [val_replicate_zero]; rw [Nat.div_eq_of_lt hc]
    · simp [ZeroFrom]
  · rw [if_neg (by simpa using hc)]
    push Not at hc
    have hlen : n ≤ num.length := by
      rw [← hden]; exact cd.length_le hB0 hdn hc
    have hq : num.length - n < n ∨ (num.length - n ≤ n ∧
        ltBig (num.drop (num.length - n)) (v ++ [f]) = true) := by
      by_cases h : num.length < 2 * n
      · left; omega
      · right
        refine ⟨by omega, ?_⟩
        rw [ltBig_same_length (B := B) (hdn.drop _) hdv (by simp; omega)]
        have h1 : num.length - n = n := by omega
        rw [h1]
        have h2 := val_append B (num.take n) (num.drop n)
        rw [List.take_append_drop, List.length_take, Nat.min_eq_left hlen] at h2
        rw [h2, Nat.mul_comm (val B (v ++ [f]))] at hlt
        have : B ^ n * val B (num.drop n) < B ^ n * val B (v ++ [f]) := by omega
        exact Nat.lt_of_mul_lt_mul_left this
    have hcond : (do
        if (List.replicate n 0).length < num.length - n + 1 then
          if (List.replicate n 0).length < num.length - n then return true
          else return !ltBig (← slice num (num.length - n) num.length) (v ++ [f])
        else return false : R Bool) = .ok false := by
      simp only [List.length_replicate]
      by_cases h : n < num.length - n + 1
      · rw [if_pos h]
        rcases hq with h1 | ⟨h1, h2⟩
        · omega
        · rw [if_neg (by omega), slice_ok (by omega) (le_refl _), ok_bind, List.take_length, h2]
          rfl
      · rw [if_neg h]; rfl
    rw [hcond, ok_bind]
    simp only [Bool.false_eq_true, if_false]
    rw [if_neg (by omega), if_neg (by omega), if_pos (by unfold bzCutoff; omega)]
    have hdebug : ∀ {c : Bool}, c = true → debugAssertR dbg c = .ok () := by
      intro c h; simp [debugAssertR, h]
    have hda : debugAssertR dbg (decide (divLongWorkSize n ≤ work.length)) = .ok () :=
      hdebug (decide_eq_true (by unfold divLongWorkSize; omega))
    rw [hda, ok_bind]
    by_cases hld : val B num / B ^ (2 * n - 1) < val B (v ++ [f]) / B ^ (n - 1)
    swap
    · have h1 : num.length = 2 * n := by
        by_contra h
        exact hld (hshort (lt_of_lt_of_le (val_lt hdn) (Nat.pow_le_pow_right hB0 (by omega))))
      have h2 := hld
      rw [hlead, Nat.div_lt_iff_lt_mul (pow_pos hB0 _)] at h2
      rw [divBigLong_full (dbg := dbg) L hdn hdv (by omega) (by omega) hB (by omega)
        (by rw [List.length_replicate]; omega)
        (by
          rcases hq with h | ⟨-, h⟩
          · omega
          · rw [hv]; exact h) (by omega)
        (by rw [h1, Nat.mul_comm]; omega), error_bind]
      exact ⟨Or.inl rfl, fun z => hld (hZ z)⟩
    have hH : DivHyp D B (val B num) num.length (v ++ [f]) := by
      refine ⟨?_, T.imp_right ?_⟩
      · intro s d h1 h2 h3
        have := getLast_snoc_eq h1
        subst this
        rw [shift_zero hB h2, pow_zero, Nat.mul_one]
        exact val_lt hdv
      · intro T s d h1 h2 h3 i hi
        have := getLast_snoc_eq h1
        subst this
        rw [shift_zero hB h2, pow_zero, Nat.mul_one, Nat.mul_one, hden]
        rw [hden] at hi
        rcases Nat.lt_or_ge (i + 1) n with h | h
        · exact T i h
        · refine lt_of_le_of_lt (Nat.div_le_div_right (Nat.mod_le _ _)) ?_
          rwa [Nat.div_div_eq_div_mul, ← pow_add, show i + 1 + (n - 1) = 2 * n - 1 by omega]
    have := divBigLong_spec (dbg := dbg) L (num := num) (den := v ++ [f])
      (quot := List.replicate n 0) (work := work) hdn hdv cd (by omega)
      (by omega) (by rw [hden, List.length_replicate]; exact hq) (by omega) hH
    refine Sp.bind (this.weaken ?_) ?_
    · rintro p ⟨p1, p2, p3⟩
      refine ⟨Or.inl p1, fun z => ?_⟩
      have p4 := p3 f (by simp) hB
      rw [List.length_replicate, hden] at p2
      have h1 := hZ z
      rw [hlead, Nat.div_lt_iff_lt_mul (pow_pos hB0 _)] at h1
      have e1 : num.length - 1 = 2 * n - 1 := by omega
      rw [e1] at p4
      rw [Nat.mul_comm] at h1
      omega
    rintro ⟨num', quot', work', nq, nr⟩ ⟨hO, hwl, hwd, hroom⟩
    simp only at hO hwl hwd hroom ⊢
    obtain ⟨j, j1, j2, j3, j4⟩ := hO.quot_eq
    have hz : ZeroFrom quot' nq := by
      unfold ZeroFrom
      conv_lhs => rw [j4]
      rw [List.append_assoc]
      congr 1
      rw [List.drop_replicate, List.replicate_append_replicate, hO.qlen]
      congr 1
      simp at j3 ⊢
      omega
    refine Sp.pure ⟨nq, nr, rfl, ⟨hO.nlen, hO.ndigs, hO.rval, hO.qlen, ?_, ?_, hwl, hwd hdw,
      hO.nquot_le, hz⟩, hO.qcanon, ?_⟩
    rotate_right
    · by_cases h : num.length = 2 * n
      · have h1 := hroom (by rw [List.length_replicate, hden]; omega) f (by simp) hB
        rw [hlead, Nat.div_lt_iff_lt_mul (pow_pos hB0 _), Nat.mul_comm, ← h]
        exact h1
      · apply hshort
        refine lt_of_lt_of_le (val_lt hdn) (Nat.pow_le_pow_right hB0 (by omega))
    · simp only []
      rw [hz, digs_append]
      exact ⟨hO.qdigs, digs_replicate hB0⟩
    · simp only []
      rw [← val_take_zeros hz]; exact hO.qval

/-- Sizes that can be halved until they are below the cutoff. -/
def BzSize (n : Nat) : Prop := ∃ j e, 10 ≤ j ∧ j < 20 ∧ n = j * 2 ^ e

theorem BzSize.small {n : Nat} (h : BzSize n) : 10 ≤ n := by
  obtain ⟨j, e, h1, -, rfl⟩ := h
  calc 10 ≤ j * 1 := by omega
    _ ≤ j * 2 ^ e := Nat.mul_le_mul_left _ Nat.one_le_two_pow

theorem BzSize.half {n : Nat} (h : BzSize n) (h2 : 20 ≤ n) : n = 2 * (n / 2) ∧ BzSize (n / 2) := by
  obtain ⟨j, e, h1, h3, rfl⟩ := h
  cases e with
  | zero => simp at h2; omega
  | succ e =>
    have h4 : j * 2 ^ (e + 1) = 2 * (j * 2 ^ e) := by ring
    rw [h4]
    have h5 : 2 * (j * 2 ^ e) / 2 = j * 2 ^ e := by omega
    rw [h5]
    exact ⟨rfl, j, e, h1, h3, rfl⟩

/-- Division of `lo + P * W` in two steps. -/
theorem div_combine {lo P W Y : Nat} (hY : 0 < Y) (hlo : lo < P) :
    (lo + P * (W % Y)) / Y + P * (W / Y) = (lo + P * W) / Y ∧
    (lo + P * (W % Y)) % Y = (lo + P * W) % Y ∧ lo + P * (W % Y) < Y * P := by
  have h : lo + P * W = lo + P * (W % Y) + Y * (P * (W / Y)) := by
    conv_lhs => rw [← Nat.mod_add_div W Y]
    ring
  refine ⟨?_, ?_, ?_⟩
  · rw [h, Nat.add_mul_div_left _ _ hY]
  · rw [h, Nat.add_mul_mod_self_left]
  · have h1 : W % Y + 1 ≤ Y := Nat.mod_lt _ hY
    have h2 : P * (W % Y + 1) ≤ P * Y := Nat.mul_le_mul_left _ h1
    have h3 : P * (W % Y + 1) = P * (W % Y) + P := by ring
    rw [Nat.mul_comm Y]; omega

/-- Digits above the value are zero. -/
theorem drop_val_zero {l : List Nat} {k : Nat} (hk : k ≤ l.length)
    (hv : val B l < B ^ k) : val B (l.drop k) = 0 ∧ val B (l.take k) = val B l := by
  have h := val_append B (l.take k) (l.drop k)
  rw [List.take_append_drop, List.length_take, Nat.min_eq_left hk] at h
  have h1 : val B (l.drop k) = 0 := by
    by_contra h0
    have : B ^ k * 1 ≤ B ^ k * val B (l.drop k) := Nat.mul_le_mul_left _ (by omega)
    omega
  rw [h1, Nat.mul_zero] at h
  exact ⟨h1, h.symm⟩

set_option maxHeartbeats 1000000 in
theorem divBz2n1n_spec (L : Lawful D B) {Z : Prop} (fuel : Nat) :
    ∀ n, n < fuel → BzSize n → Bz2 B n Z (fun a y => (TieLaw D B ∨ BzTieFree B fuel n a y) ∧
      (Z → bzSafe (productOk B) B fuel n a y = true))
      (fun a y => bzSafe (productOk B) B fuel n a y = true)
      (divBz2n1n D dbg (divBigLeaf D dbg) fuel) := by
  have hB0 := L.pos
  have hBb := L.base
  have hdebug : ∀ {c : Bool}, c = true → debugAssertR dbg c = .ok () := by
    intro c h; simp [debugAssertR, h]
  induction fuel with
  | zero => intro n h; omega
  | succ fuel ih =>
    rintro n hfuel hs num v work f hnum hv hdn hdv hB hlt hw hdw ⟨T, hZ⟩
    have hn10 := hs.small
    have hden : (v ++ [f]).length = n := by simpa using hv
    have hf : f < B := hdv f (by simp)
    have cd : Canon (v ++ [f]) := canon_snoc.mpr (by omega)
    have hY := cd.pos hB0 (by simp)
    unfold divBz2n1n
    simp only [hden]
    have hg : getR (v ++ [f]) (n - 1) = .ok f := by
      rw [getR_ok (by rw [hden]; omega)]
      congr 1
      have : n - 1 = v.length := by omega
      simp only [this]
      simp
    obtain ⟨s, hs1, hs2, hs3⟩ := L.maxShift f (by omega) hf
    rw [hdebug (by
        simp only [decide_eq_true_eq]
        unfold bzCutoff
        by_cases h : n < 20
        · exact Or.inl h
        · have := (hs.half (by omega)).1
          right; omega), ok_bind, hdebug (by simpa using hnum), ok_bind, hdebug (by simp), ok_bind,
      hg, ok_bind, hs1, ok_bind, shift_zero hB hs2, hdebug (by simp), ok_bind]
    by_cases hsmall : n < 20
    · rw [if_pos (by unfold bzCutoff; exact hsmall)]
      obtain ⟨nd, d1, d2, d3, d4⟩ := dropLeadingZeros_spec num num.length (le_refl _)
      rw [List.take_length] at d3
      rw [d1, ok_bind, slice_ok (Nat.zero_le _) d2, ok_bind, List.drop_zero]
      have hvt := val_take_zeros (B := B) d3
      have := divBigLeaf_spec (dbg := dbg) (Z := Z) L hn10 hsmall (num := num.take nd) (work := work)
        (by simp; omega) d4 hv (hdn.take _) hdv hB (by rw [hvt]; exact hlt) hw.2 hdw
        (by
          rw [hvt]
          refine T.imp_right fun T => ?_
          rw [BzTieFree, if_pos hsmall] at T
          exact T)
        (fun z => by
          have h := hZ z
          rw [bzSafe, if_pos hsmall, decide_eq_true_eq] at h
          rw [hvt]; exact h)
      refine Sp.bind this ?_
      rintro ⟨num', quot', work', res⟩ ⟨nq, nr, hres, hP, hcan, hlead⟩
      simp only at hres hP ⊢
      rw [hres]
      simp only [unwrapR, ok_bind]
      have h1 := hP.nlen
      have h2 := hP.ndigs
      have h3 := hP.nval
      simp only at h1 h2 h3
      have hz : val B (num.drop nd) = 0 := by
        have h := val_append B (num.take nd) (num.drop nd)
        rw [List.take_append_drop, hvt, List.length_take, Nat.min_eq_left d2] at h
        have h0 : B ^ nd * val B (num.drop nd) = 0 := by omega
        rcases Nat.mul_eq_zero.mp h0 with h | h
        · have := Nat.pow_pos (n := nd) hB0; omega
        · exact h
      refine Sp.pure ⟨⟨?_, ?_, ?_, hP.qlen, hP.qdigs, ?_, hP.wlen, hP.wdigs, hP.nq, hP.qzero⟩, hcan, ?_⟩
      rotate_right
      · rw [bzSafe, if_pos hsmall, decide_eq_true_eq, ← hvt]; exact hlead
      · simp [h1]; omega
      · simp only [digs_append]; exact ⟨h2, hdn.drop _⟩
      · simp only []
        rw [val_append, hz, Nat.mul_zero, Nat.add_zero, h3, hvt]
      · have := hP.qval
        rw [hvt] at this
        exact this
    · rw [if_neg (by unfold bzCutoff; exact hsmall)]
      obtain ⟨hn2, hsh⟩ := hs.half (by omega)
      have T' := T.imp_right fun T => by
        rw [BzTieFree, if_neg hsmall] at T
        exact T
      simp only [] at T'
      have hZ' := fun z => by
        have h := hZ z
        rw [bzSafe, if_neg hsmall] at h
        exact h
      simp only [Bool.and_eq_true] at hZ'
      obtain ⟨h, hh⟩ : ∃ h, n / 2 = h := ⟨_, rfl⟩
      rw [hh] at hn2 hsh T' hZ' ⊢
      subst hn2
      have hh5 : 5 ≤ h := by omega
      have hb2 := ih h (by omega) hsh
      obtain ⟨hw1, hw2⟩ := hw
      rw [hh] at hw1
      -- the upper part
      obtain ⟨lo, hi, hlol, hsplit⟩ : ∃ lo hi, lo.length = h ∧ num = lo ++ hi :=
        ⟨num.take h, num.drop h, by simp; omega, (List.take_append_drop h num).symm⟩
      subst hsplit
      have hhil : hi.length = 3 * h := by simp at hnum; omega
      rw [digs_append] at hdn
      have hvlo := val_lt hdn.1
      rw [hlol] at hvlo
      have hsl : slice (lo ++ hi) h (lo ++ hi).length = .ok hi := by
        have := slice_append (p := lo) (s := hi) (q := []) (a := h) (b := (lo ++ hi).length) hlol
          (by simp; omega)
        simpa using this
      have hsq : slice (List.replicate (2 * h) 0) h (List.replicate (2 * h) 0).length
          = .ok (List.replicate h 0) := by
        rw [slice_ok (by simp; omega) (le_refl _), List.take_length, List.drop_replicate]
        congr 2; omega
      rw [hsl, ok_bind, hsq, ok_bind]
      have hP2 : B ^ (2 * h) = B ^ h * B ^ h := by rw [← pow_add]; congr 1; omega
      have hAeq : val B (lo ++ hi) = val B lo + B ^ h * val B hi := by rw [val_append, hlol]
      have hlt1 : val B hi < val B (v ++ [f]) * B ^ h := by
        rw [hAeq, hP2] at hlt
        have : B ^ h * val B hi < B ^ h * (val B (v ++ [f]) * B ^ h) := by
          have e : B ^ h * (val B (v ++ [f]) * B ^ h) = val B (v ++ [f]) * (B ^ h * B ^ h) := by ring
          omega
        exact Nat.lt_of_mul_lt_mul_left this
      have hdivA : val B (lo ++ hi) / B ^ h = val B hi := by
        rw [hAeq, Nat.add_mul_div_left _ _ (pow_pos hB0 _), Nat.div_eq_of_lt hvlo, Nat.zero_add]
      refine Sp.bind (divBz3n2n_spec L hb2 (by omega) hhil hv hdn.2 hdv hB hlt1 hw1 hw2 hdw
        (fun hlt' => ⟨T'.imp_right fun T => by
          rw [hdivA] at T
          exact T.1 hlt', fun z => by
            have h := (hZ' z).1
            rw [hdivA, if_pos hlt', Bool.and_eq_true] at h
            exact h.1⟩)
        (fun z => by
          have h := (hZ' z).1
          rw [hdivA] at h
          split_ifs at h ⊢ with hc
          · rw [Bool.and_eq_true] at h; exact h.2
          · exact h)) ?_
      rintro ⟨hi', qh, work1, nq1, nr1⟩ ⟨P1, S1, M1⟩
      have p1 := P1.nlen
      have p2 := P1.ndigs
      have p3 := P1.nval
      have p4 := P1.qlen
      have p5 := P1.qdigs
      have p6 := P1.qval
      have p7 := P1.wlen
      have p8 := P1.wdigs
      simp only [List.length_replicate] at p1 p2 p3 p4 p5 p6 p7 p8 ⊢
      rw [List.take_left' hlol]
      -- the lower part
      have hYlt : val B (v ++ [f]) < B ^ (2 * h) := by
        have := val_lt hdv
        rwa [hden] at this
      have hhi : val B hi' < B ^ (2 * h) := by
        rw [p3]; exact lt_trans (Nat.mod_lt _ hY) hYlt
      obtain ⟨z1, z2⟩ := drop_val_zero (l := hi') (k := 2 * h) (by omega) hhi
      have hsl2 : slice (lo ++ hi') 0 (3 * h) = .ok (lo ++ hi'.take (2 * h)) := by
        rw [slice_ok (Nat.zero_le _) (by simp; omega), List.drop_zero, List.take_append, hlol]
        congr 2
        · rw [List.take_of_length_le (by omega)]
        · congr 1; omega
      have htk : (List.replicate (2 * h) 0).take h = List.replicate h 0 := by
        rw [List.take_replicate]; congr 1; omega
      have hsq2 : slice ((List.replicate (2 * h) 0).take h ++ qh) 0 h = .ok (List.replicate h 0) := by
        rw [htk]
        exact slice_append (p := []) (s := List.replicate h 0) (q := qh) rfl (by simp)
      rw [hsl2, ok_bind, hsq2, ok_bind]
      obtain ⟨c1, c2, c3⟩ := div_combine (W := val B hi) hY hvlo
      have hv2 : val B (lo ++ hi'.take (2 * h)) = val B lo + B ^ h * (val B hi % val B (v ++ [f])) := by
        rw [val_append, z2, p3, hlol]
      have e : val B (lo ++ hi) % (B ^ h * val B (v ++ [f])) = val B (lo ++ hi'.take (2 * h)) := by
        rw [hv2, Nat.mod_mul, hdivA, hAeq, Nat.add_mul_mod_self_left, Nat.mod_eq_of_lt hvlo]
      refine Sp.bind (divBz3n2n_spec L hb2 (by omega) (num := lo ++ hi'.take (2 * h)) (work := work1)
        (by simp; omega) hv (by rw [digs_append]; exact ⟨hdn.1, p2.take _⟩) hdv hB
        (by rw [hv2]; exact c3) (by omega) (by omega) p8
        (fun hlt' => ⟨T'.imp_right fun T => by
          rw [e] at T
          exact T.2 hlt', fun z => by
            have h := (hZ' z).2
            rw [e, if_pos hlt', Bool.and_eq_true] at h
            exact h.1⟩)
        (fun z => by
          have h := (hZ' z).2
          rw [e] at h
          split_ifs at h ⊢ with hc
          · rw [Bool.and_eq_true] at h; exact h.2
          · exact h)) ?_
      rintro ⟨nl, ql, work2, nq2, nr2⟩ ⟨P2, S2, M2⟩
      have r1 := P2.nlen
      have r2 := P2.ndigs
      have r3 := P2.nval
      have r4 := P2.qlen
      have r5 := P2.qdigs
      have r6 := P2.qval
      have r7 := P2.wlen
      have r8 := P2.wdigs
      rw [hv2] at r3 r6
      simp only [List.length_replicate, List.length_append, List.length_take] at r1 r2 r3 r4 r5 r6 r7 r8 ⊢
      have hd1 : (lo ++ hi').drop (3 * h) = hi'.drop (2 * h) := by
        rw [List.drop_append, hlol, List.drop_of_length_le (by omega), List.nil_append]
        congr 1; omega
      have hd2 : ((List.replicate (2 * h) 0).take h ++ qh).drop h = qh := by
        rw [htk]; exact List.drop_left' (by simp)
      rw [hd1, hd2]
      have hql : (ql ++ qh).length = 2 * h := by simp; omega
      obtain ⟨m1, e1, e2, e3, e4⟩ := dropLeadingZeros_spec (ql ++ qh) (2 * h) (by omega)
      obtain ⟨m2, g1, -⟩ := dropLeadingZeros_spec (nl ++ hi'.drop (2 * h)) (2 * h)
        (by simp; omega)
      rw [e1, ok_bind, g1, ok_bind]
      refine Sp.pure ⟨⟨?_, ?_, ?_, ?_, ?_, ?_, ?_, r8, ?_, ?_⟩, e4, ?_⟩
      rotate_right
      · rw [bzSafe, if_neg hsmall, hh]
        simp only [Bool.and_eq_true]
        rw [hdivA, e]
        constructor
        · split
          next h =>
            rw [if_pos h] at M1
            rw [Bool.and_eq_true]; exact ⟨S1 h, M1⟩
          next h => rw [if_neg h] at M1; exact M1
        · split
          next h =>
            rw [if_pos h] at M2
            rw [Bool.and_eq_true]; exact ⟨S2 h, M2⟩
          next h => rw [if_neg h] at M2; exact M2
      · simp; omega
      · simp only [digs_append]; exact ⟨r2, p2.drop _⟩
      · simp only []
        rw [val_append, z1, Nat.mul_zero, Nat.add_zero, r3, hAeq, c2]
      · simp; omega
      · simp only [digs_append]; exact ⟨r5, p5⟩
      · simp only []
        rw [val_append, r6, p6, r4, hAeq, c1]
      · simp only []; omega
      · simpa using e2
      · unfold ZeroFrom
        simp only []
        rw [hql, ← e3, ← hql, List.take_length]

/-- The loop over the blocks. -/
theorem bzBlocks_spec (L : Lawful D B) {n : Nat} (hn : 1 ≤ n) {Z : Prop} {G P : Nat → Nat → Prop}
    {div2n : DivFn} (h2 : Bz2 B n Z G P div2n)
    {v : List Nat} {f : Nat} (hv : v.length + 1 = n) (hdv : Digs B (v ++ [f])) (hB : B ≤ 2 * f)
    (k : Nat) :
    ∀ (A rest qrest work : List Nat), A.length = (k + 1) * n → Digs B A →
      val B A < val B (v ++ [f]) * B ^ (k * n) → BzWork n work.length → Digs B work →
      (∀ i, i < k → G (val B A / B ^ (i * n) % (val B (v ++ [f]) * B ^ n)) (val B (v ++ [f]))) →
    Sp (fun p => bzFail p ∧ ¬ Z) (bzBlocks div2n (v ++ [f]) n k (A ++ rest) (List.replicate (k * n) 0 ++ qrest) work)
      (fun r => ∃ A' Q', r.1 = A' ++ rest ∧ r.2.1 = Q' ++ qrest ∧ A'.length = A.length ∧
        Digs B A' ∧ val B A' = val B A % val B (v ++ [f]) ∧ Q'.length = k * n ∧ Digs B Q' ∧
        val B Q' = val B A / val B (v ++ [f]) ∧ r.2.2.length = work.length ∧ Digs B r.2.2 ∧
        ∀ i, i < k → P (val B A / B ^ (i * n) % (val B (v ++ [f]) * B ^ n)) (val B (v ++ [f]))) := by
  have hB0 := L.pos
  have hBb := L.base
  have hden : (v ++ [f]).length = n := by simpa using hv
  have cd : Canon (v ++ [f]) := canon_snoc.mpr (by omega)
  have hY := cd.pos hB0 (by simp)
  have hYlt := val_lt hdv
  rw [hden] at hYlt
  induction k with
  | zero =>
    intro A rest qrest work h1 h3 h4 h5 h6 hG
    rw [Nat.zero_mul, pow_zero, Nat.mul_one] at h4
    refine Sp.ok ⟨A, [], rfl, by simp, rfl, h3, (Nat.mod_eq_of_lt h4).symm, by simp, digs_nil _, ?_, rfl,
      h6, fun _ h => absurd h (Nat.not_lt_zero _)⟩
    rw [Nat.div_eq_of_lt h4]; rfl
  | succ i ih =>
    intro A rest qrest work h1 h3 h4 h5 h6 hG
    have en1 : (i + 1 + 1) * n = i * n + 2 * n := by ring
    have en2 : (i + 1) * n = i * n + n := by ring
    have en3 : (i + 2) * n = i * n + 2 * n := by ring
    rw [en1] at h1
    obtain ⟨lo, W, hlo, hsplit⟩ : ∃ lo W, lo.length = i * n ∧ A = lo ++ W :=
      ⟨A.take (i * n), A.drop (i * n), by simp; omega, (List.take_append_drop _ A).symm⟩
    subst hsplit
    have hW : W.length = 2 * n := by simp at h1; omega
    rw [digs_append] at h3
    have hvlo := val_lt h3.1
    rw [hlo] at hvlo
    have hAeq : val B (lo ++ W) = val B lo + B ^ (i * n) * val B W := by rw [val_append, hlo]
    unfold bzBlocks
    rw [en2, en3, slice_append (p := lo) (s := W) (q := rest) hlo (by omega), ok_bind]
    have hq : List.replicate (i * n + n) 0 ++ qrest
        = List.replicate (i * n) 0 ++ List.replicate n 0 ++ qrest := by
      rw [List.replicate_append_replicate]
    rw [hq, slice_append (p := List.replicate (i * n) 0) (s := List.replicate n 0) (q := qrest)
      (by simp) (by simp), ok_bind]
    have hlt1 : val B W < val B (v ++ [f]) * B ^ n := by
      rw [hAeq, en2, pow_add] at h4
      have : B ^ (i * n) * val B W < B ^ (i * n) * (val B (v ++ [f]) * B ^ n) := by
        have e : B ^ (i * n) * (val B (v ++ [f]) * B ^ n)
          = val B (v ++ [f]) * (B ^ (i * n) * B ^ n) := by ring
        omega
      exact Nat.lt_of_mul_lt_mul_left this
    have hGW := hG i (by omega)
    have hWe : val B (lo ++ W) / B ^ (i * n) % (val B (v ++ [f]) * B ^ n) = val B W := by
      rw [hAeq, Nat.add_mul_div_left _ _ (pow_pos hB0 _), Nat.div_eq_of_lt hvlo, Nat.zero_add,
        Nat.mod_eq_of_lt hlt1]
    rw [hWe] at hGW
    refine Sp.bind (h2 W v work f hW hv h3.2 hdv hB hlt1 h5 h6 hGW) ?_
    rintro ⟨W', qs, work1, nq1, nr1⟩ ⟨P1, -, S1⟩
    have p1 := P1.nlen
    have p2 := P1.ndigs
    have p3 := P1.nval
    have p4 := P1.qlen
    have p5 := P1.qdigs
    have p6 := P1.qval
    have p7 := P1.wlen
    have p8 := P1.wdigs
    simp only [List.length_replicate] at p1 p2 p3 p4 p5 p6 p7 p8 ⊢
    have hW'v : val B W' < B ^ n := by rw [p3]; exact lt_trans (Nat.mod_lt _ hY) hYlt
    obtain ⟨z1, z2⟩ := drop_val_zero (l := W') (k := n) (by omega) hW'v
    have t1 : (lo ++ W ++ rest).take (i * n) = lo := by
      rw [List.append_assoc, List.take_left' hlo]
    have t2 : (lo ++ W ++ rest).drop (i * n + 2 * n) = rest := List.drop_left' (by simp; omega)
    have t3 : (List.replicate (i * n) 0 ++ List.replicate n 0 ++ qrest).take (i * n)
        = List.replicate (i * n) 0 := by
      rw [List.append_assoc, List.take_left' (by simp)]
    have t4 : (List.replicate (i * n) 0 ++ List.replicate n 0 ++ qrest).drop (i * n + n) = qrest :=
      List.drop_left' (by simp)
    rw [t1, t2, t3, t4]
    have t5 : lo ++ W' ++ rest = (lo ++ W'.take n) ++ (W'.drop n ++ rest) := by
      rw [List.append_assoc, List.append_assoc, ← List.append_assoc (W'.take n),
        List.take_append_drop]
    rw [t5, List.append_assoc (List.replicate (i * n) 0)]
    obtain ⟨c1, c2, c3⟩ := div_combine (W := val B W) hY hvlo
    have hv2 : val B (lo ++ W'.take n) = val B lo + B ^ (i * n) * (val B W % val B (v ++ [f])) := by
      rw [val_append, z2, p3, hlo]
    have hlow : ∀ j, j < i → val B (lo ++ W) / B ^ (j * n) % (val B (v ++ [f]) * B ^ n)
        = val B (lo ++ W'.take n) / B ^ (j * n) % (val B (v ++ [f]) * B ^ n) := by
      intro j hj
      have e : val B (lo ++ W)
          = val B (lo ++ W'.take n) + B ^ (i * n) * (val B (v ++ [f]) * (val B W / val B (v ++ [f]))) := by
        rw [hAeq, hv2]
        conv_lhs => rw [← Nat.mod_add_div (val B W) (val B (v ++ [f]))]
        ring
      obtain ⟨k, rfl⟩ : ∃ k, i = j + 1 + k := ⟨i - (j + 1), by omega⟩
      have e2 : B ^ ((j + 1 + k) * n) * (val B (v ++ [f]) * (val B W / val B (v ++ [f])))
          = B ^ (j * n) * (val B (v ++ [f]) * B ^ n * (B ^ (k * n) * (val B W / val B (v ++ [f])))) := by
        have : (j + 1 + k) * n = j * n + n + k * n := by ring
        rw [this, pow_add, pow_add]; ring
      rw [e, e2, Nat.add_mul_div_left _ _ (pow_pos hB0 _), Nat.add_mul_mod_self_left]
    refine Sp.mono (ih (lo ++ W'.take n) (W'.drop n ++ rest) (qs ++ qrest) work1
      (by simp; omega) (by rw [digs_append]; exact ⟨h3.1, p2.take _⟩) (by rw [hv2]; exact c3)
      (by rw [p7]; exact h5) p8 ?_) ?_
    · intro j hj
      rw [← hlow j hj]
      exact hG j (by omega)
    rintro ⟨r1, r2, r3⟩ ⟨A', Q', a1, a2, a3, a4, a5, a6, a7, a8, a9, a10, a11⟩
    simp only at a1 a2 a9 a10 ⊢
    rw [hv2] at a5 a8
    refine ⟨A' ++ W'.drop n, Q' ++ qs, by rw [a1]; simp, by rw [a2]; simp, ?_, ?_, ?_, ?_, ?_, ?_,
      by omega, a10, fun j hj => ?_⟩
    rotate_right
    · rcases Nat.lt_or_ge j i with h | h
      · rw [hlow j h]; exact a11 j h
      · have : j = i := by omega
        subst this
        rw [hWe]; exact S1
    · simp at a3 ⊢; omega
    · rw [digs_append]; exact ⟨a4, p2.drop _⟩
    · rw [val_append, z1, Nat.mul_zero, Nat.add_zero, a5, hAeq, c2]
    · simp; omega
    · rw [digs_append]; exact ⟨a7, p5⟩
    · rw [val_append, a8, a6, p6, hAeq, c1]

theorem blockSize_spec {nden : Nat} (h : 20 ≤ nden) :
    BzSize (blockSize nden) ∧ nden ≤ blockSize nden := by
  unfold blockSize bzCutoff
  by_cases hk : (nden - 1) / 20 = 0
  · have : nden = 20 := by omega
    subst this
    exact ⟨⟨10, 1, by omega, by omega, by decide⟩, by decide⟩
  · simp only [hk, if_false]
    obtain ⟨k, hkk⟩ : ∃ k, (nden - 1) / 20 = k := ⟨_, rfl⟩
    rw [hkk] at hk ⊢
    have h1 : 2 ^ Nat.log2 k ≤ k := Nat.log2_self_le hk
    have h2 : k < 2 ^ (Nat.log2 k + 1) := Nat.lt_log2_self
    obtain ⟨e, he⟩ : ∃ e, Nat.log2 k = e := ⟨_, rfl⟩
    rw [he] at h1 h2 ⊢
    have h3 : 2 ^ (e + 1) = 2 * 2 ^ e := by ring
    obtain ⟨m, hm⟩ : ∃ m, 2 ^ (e + 1) = m := ⟨_, rfl⟩
    have hmp : 0 < m := by rw [← hm]; positivity
    have h4 : 10 * m < nden := by omega
    have h5 : nden ≤ 20 * m := by omega
    rw [hm]
    have j1 : 10 ≤ (nden + m - 1) / m := by rw [Nat.le_div_iff_mul_le hmp]; omega
    have j2 : (nden + m - 1) / m < 21 := by rw [Nat.div_lt_iff_lt_mul hmp]; omega
    have j3 : nden ≤ (nden + m - 1) / m * m := by
      have := Nat.div_add_mod (nden + m - 1) m
      have h6 := Nat.mod_lt (nden + m - 1) hmp
      rw [Nat.mul_comm]
      omega
    refine ⟨?_, j3⟩
    by_cases h20 : (nden + m - 1) / m = 20
    · refine ⟨10, e + 2, by omega, by omega, ?_⟩
      rw [h20, ← hm]; ring
    · exact ⟨(nden + m - 1) / m, e + 1, j1, by omega, by rw [hm]⟩

end Babs
