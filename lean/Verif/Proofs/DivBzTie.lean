import Verif.Proofs.DivTie
import Verif.Proofs.DivLengths
import Verif.Proofs.DivBig

/-!
# Helper lemmas: a tie in the Burnikel-Ziegler division

If the divisor is zero below its leading part, a tie in the division of the leading parts is not made
good on the way up: the quotient is too small.
-/

namespace Babs

variable {D : DigitOps} {B : Nat} {dbg : Bool}

/-- A tie in the leaf of the recursion. -/
theorem divBigLeaf_tie (L : Lawful D B) (W : WrapLaw D B) {n : Nat} (hn1 : 10 ≤ n) (hn2 : n < 20)
    {num v work : List Nat} {f : Nat} (hnum : num.length < 2 * n) (cn : Canon num)
    (hv : v.length + 1 = n) (hdn : Digs B num) (hdv : Digs B (v ++ [f])) (hB : B ≤ 2 * f)
    (hge : val B (v ++ [f]) ≤ val B num) (hw : 20 ≤ work.length)
    (ht : ∃ i, i < num.length - n ∧ f * B ^ (n - 1) ≤ val B num / B ^ (i + 1) % val B (v ++ [f])) :
    Sp (fun _ => True) (divBigLeaf D dbg num (v ++ [f]) (List.replicate n 0) work)
      (fun r => ∃ nq nr, r.2.2.2 = .ok (nq, nr) ∧
        val B r.2.1 < val B num / val B (v ++ [f])) := by
  have hB0 := L.pos
  have hden : (v ++ [f]).length = n := by simpa using hv
  have hf : f < B := hdv f (by simp)
  have cd : Canon (v ++ [f]) := canon_snoc.mpr (by omega)
  have hlen : n ≤ num.length := by rw [← hden]; exact cd.length_le hB0 hdn hge
  unfold divBigLeaf divBigWithWorkGen
  simp only [hden]
  rw [if_neg (by simp), ltBig_dec (ltBig_canon hB0 hdn hdv cn cd), if_neg (by simpa using hge)]
  simp only [List.length_replicate]
  rw [if_neg (by omega)]
  simp only [pure_bind, Bool.false_eq_true, if_false]
  rw [if_neg (by omega), if_neg (by omega), if_pos (by unfold bzCutoff; omega)]
  refine Sp.bind sp_true fun _ _ => ?_
  refine Sp.bind (P := fun r => val B r.2.1 < val B num / val B (v ++ [f])) ?_ ?_
  · unfold divBigLong
    simp only [hden]
    refine Sp.bind sp_true fun _ _ => ?_
    refine Sp.bind sp_true fun _ _ => ?_
    refine Sp.bind sp_true fun _ _ => ?_
    refine Sp.bind sp_true fun _ _ => ?_
    refine Sp.bind sp_true fun _ _ => ?_
    have hg : getR (v ++ [f]) (n - 1) = .ok f := by
      rw [getR_ok (by rw [hden]; omega)]
      congr 1
      have : n - 1 = v.length := by omega
      simp only [this]
      simp
    obtain ⟨s, hs1, hs2, hs3⟩ := L.maxShift f (by omega) hf
    rw [hg, ok_bind, hs1, ok_bind, shift_zero hB hs2, if_pos rfl]
    obtain ⟨i, hi, ht⟩ := ht
    have hvl : v.length = n - 1 := by omega
    refine (divBigLongScaled_tie_lt (dbg := dbg) L W (num := num) (v := v)
      (quot := List.replicate n 0) (work := work) (c := 0) (f := f) hdn hdv (by omega) hB (by omega)
      (by simp; omega) (by omega) ⟨i, by omega, by simpa [hvl] using ht⟩).mono ?_
    rintro r ⟨qd, j, h1, -, h2⟩
    rw [h1, List.drop_replicate, val_append]
    simpa using h2
  · rintro ⟨a, b, c, nq, nr⟩ h
    exact Sp.pure ⟨nq, nr, rfl, h⟩

/-- A tie in the recursive call of `div_big_bz_3n_2n`. -/
theorem divBz3n2n_tie (L : Lawful D B) {n q : Nat} {div2n : DivFn} (hn : 1 ≤ n)
    {n3 a12 b2 b1 quot work : List Nat} (hn3 : n3.length = n) (ha : a12.length = 2 * n)
    (hb2 : b2.length = n) (hb1 : b1.length = n) (hda : Digs B a12) (hdb1 : Digs B b1)
    (hz : val B b2 = 0) (hlt : val B a12 < val B b1 * B ^ n)
    (h2 : Sp (fun _ => True) (div2n a12 b1 quot work) (fun r => val B r.2.1 < q)) :
    Sp (fun _ => True) (divBz3n2n D dbg div2n (n3 ++ a12) (b2 ++ b1) quot work)
      (fun r => val B r.2.1 < q) := by
  have hB0 := L.pos
  have hden : (b2 ++ b1).length = 2 * n := by simp; omega
  unfold divBz3n2n
  simp only [hden, show 2 * n / 2 = n by omega]
  refine Sp.bind sp_true fun _ _ => ?_
  refine Sp.bind sp_true fun _ _ => ?_
  refine Sp.bind sp_true fun _ _ => ?_
  refine Sp.bind sp_true fun _ _ => ?_
  refine Sp.bind sp_true fun _ _ => ?_
  refine Sp.bind sp_true fun _ _ => ?_
  refine Sp.bind sp_true fun _ _ => ?_
  rw [splitAtR_append hb2, ok_bind]
  simp only []
  rw [splitAtR_append hn3, ok_bind]
  simp only []
  have hsl : slice a12 n a12.length = .ok (a12.drop n) := by
    rw [slice_ok (by omega) (le_refl _), List.take_length]
  have hl : ltBig (a12.drop n) b1 = true := by
    rw [ltBig_same_length (B := B) (hda.drop _) hdb1 (by simp; omega)]
    have h := val_append B (a12.take n) (a12.drop n)
    rw [List.take_append_drop, List.length_take, Nat.min_eq_left (by omega)] at h
    rw [h, Nat.mul_comm (val B b1)] at hlt
    have : B ^ n * val B (a12.drop n) < B ^ n * val B b1 := by omega
    exact Nat.lt_of_mul_lt_mul_left this
  rw [hsl, ok_bind, hl]
  simp only [if_true, bind_assoc]
  refine Sp.bind h2 ?_
  rintro ⟨a12', quot', work', nq, nr⟩ hq
  simp only [pure_bind] at hq ⊢
  obtain ⟨nd, d1, d2, d3, d4⟩ := dropLeadingZeros_spec b2 b2.length (le_refl _)
  rw [List.take_length] at d3
  have hnil : b2.take nd = [] := by
    by_contra h
    have := d4.pos (b := B) hB0 h
    rw [val_take_zeros d3] at this
    omega
  rw [d1, ok_bind]
  refine Sp.bind sp_true ?_
  rintro ⟨qden, mulWork⟩ -
  simp only []
  refine Sp.bind sp_true fun sl _ => ?_
  rw [slice_ok (Nat.zero_le _) d2, ok_bind, List.drop_zero, hnil]
  simp only [mulFuel, mulBigIntoWithWork, or_true, if_true, pure_bind]
  refine Sp.bind sp_true fun _ _ => ?_
  rw [slice_ok (Nat.zero_le _) (Nat.zero_le _), ok_bind]
  simp only [List.take_zero, List.drop_nil]
  refine Sp.bind (P := fun r => r.2.1 = quot') ?_ ?_
  · unfold bzCorrect
    refine Sp.bind sp_true fun _ _ => ?_
    refine Sp.bind sp_true fun s _ => ?_
    have : ltBig s [] = false := by
      cases s <;> rfl
    rw [this]
    exact Sp.pure rfl
  · rintro ⟨a, b, c⟩ h
    simp only at h
    subst h
    refine Sp.bind sp_true fun _ _ => ?_
    refine Sp.bind sp_true fun _ _ => ?_
    exact Sp.pure hq

/-- A tie in the division of the leading parts makes the quotient too small. -/
theorem divBz2n1n_tie (L : Lawful D B) (W : WrapLaw D B) {n0 a0 y0 : Nat} (h10 : 10 ≤ n0)
    (h20 : n0 < 20) (ha : a0 < B ^ (2 * n0 - 1)) (hya : y0 ≤ a0)
    (ht : ∃ i, B ^ (i + n0) ≤ a0 ∧ y0 / B ^ (n0 - 1) * B ^ (n0 - 1) ≤ a0 / B ^ (i + 1) % y0) (e : Nat) :
    ∀ (fuel : Nat) (num v work : List Nat) (f : Nat), n0 * 2 ^ e < fuel →
      num.length = 2 * (n0 * 2 ^ e) → v.length + 1 = n0 * 2 ^ e → Digs B num → Digs B (v ++ [f]) →
      B ≤ 2 * f → BzWork (n0 * 2 ^ e) work.length → Digs B work →
      val B (v ++ [f]) = y0 * B ^ (n0 * 2 ^ e - n0) → val B num = a0 * B ^ (n0 * 2 ^ e - n0) →
    Sp (fun _ => True) (divBz2n1n D dbg (divBigLeaf D dbg) fuel num (v ++ [f])
        (List.replicate (n0 * 2 ^ e) 0) work)
      (fun r => val B r.2.1 < a0 / y0) := by
  have hB0 := L.pos
  have hBb := L.base
  induction e with
  | zero =>
    intro fuel num v work f hfuel hnum hv hdn hdv hB hw hdw hvd hvn
    simp only [pow_zero, Nat.mul_one, Nat.sub_self] at *
    obtain ⟨fuel, rfl⟩ : ∃ k, fuel = k + 1 := ⟨fuel - 1, by omega⟩
    have hden : (v ++ [f]).length = n0 := by simpa using hv
    unfold divBz2n1n
    simp only [hden]
    refine Sp.bind sp_true fun _ _ => ?_
    refine Sp.bind sp_true fun _ _ => ?_
    refine Sp.bind sp_true fun _ _ => ?_
    refine Sp.bind sp_true fun _ _ => ?_
    refine Sp.bind sp_true fun _ _ => ?_
    refine Sp.bind sp_true fun _ _ => ?_
    rw [if_pos (by unfold bzCutoff; exact h20)]
    obtain ⟨nd, d1, d2, d3, d4⟩ := dropLeadingZeros_spec num num.length (le_refl _)
    rw [List.take_length] at d3
    rw [d1, ok_bind, slice_ok (Nat.zero_le _) d2, ok_bind, List.drop_zero]
    have hvt := val_take_zeros (B := B) d3
    have hndl : (num.take nd).length = nd := by simp; omega
    have hnd : nd < 2 * n0 := by
      by_contra h
      have h1 := d4.ge (b := B) hB0 (by intro h'; rw [h'] at hndl; simp at hndl; omega)
      rw [hndl, hvt, hvn] at h1
      have : B ^ (2 * n0 - 1) ≤ B ^ (nd - 1) := Nat.pow_le_pow_right hB0 (by omega)
      omega
    have hlead : y0 / B ^ (n0 - 1) = f := by
      have h2 := val_lt (b := B) (ds := v) (fun x hx => hdv x (by simp [hx]))
      have hvl : v.length = n0 - 1 := by omega
      rw [hvl] at h2
      rw [← hvd, val_snoc, hvl, Nat.add_mul_div_left _ _ (pow_pos hB0 _), Nat.div_eq_of_lt h2,
        Nat.zero_add]
    have := divBigLeaf_tie (dbg := dbg) L W h10 h20 (num := num.take nd) (work := work) (v := v) (f := f)
      (by omega) d4 hv (hdn.take _) hdv hB (by rw [hvt, hvd, hvn]; exact hya) hw.2
      (by
        obtain ⟨i, h1, h2⟩ := ht
        refine ⟨i, ?_, by rw [hvt, hvn, hvd, ← hlead]; exact h2⟩
        rw [hndl]
        have h3 := val_lt (hdn.take nd)
        rw [hndl, hvt, hvn] at h3
        have h4 := (Nat.pow_lt_pow_iff_right (by omega : 1 < B)).mp (lt_of_le_of_lt h1 h3)
        omega)
    rw [hvt, hvd, hvn] at this
    refine Sp.bind this ?_
    rintro ⟨num', quot', work', r⟩ ⟨nq, nr, h1, h2⟩
    simp only at h1 h2 ⊢
    rw [h1]
    simp only [unwrapR, ok_bind]
    exact Sp.pure h2
  | succ e ih =>
    intro fuel num v work f hfuel hnum hv hdn hdv hB hw hdw hvd hvn
    obtain ⟨h, hh⟩ : ∃ h, n0 * 2 ^ e = h := ⟨_, rfl⟩
    have he : n0 * 2 ^ (e + 1) = 2 * h := by rw [pow_succ, ← hh]; ring
    have hp : 1 ≤ 2 ^ e := Nat.one_le_two_pow
    have hnh : n0 ≤ h := by rw [← hh]; exact Nat.le_mul_of_pos_right _ hp
    rw [he] at hfuel hnum hv hw hvd hvn ⊢
    rw [hh] at ih
    have hsz : BzSize h := ⟨n0, e, h10, h20, hh.symm⟩
    obtain ⟨fuel, rfl⟩ : ∃ k, fuel = k + 1 := ⟨fuel - 1, by omega⟩
    have hden : (v ++ [f]).length = 2 * h := by simpa using hv
    have cd : Canon (v ++ [f]) := canon_snoc.mpr (by omega)
    have hY := cd.pos hB0 (by simp)
    have hYge := cd.ge (b := B) hB0 (by simp)
    rw [hden] at hYge
    have hy0 : 0 < y0 := Nat.pos_of_ne_zero fun h0 => by rw [hvd, h0] at hY; simp at hY
    -- the size of the leading part of the divisor
    have hy0ge : B ^ (n0 - 1) ≤ y0 := by
      rw [hvd, show 2 * h - 1 = (n0 - 1) + (2 * h - n0) by omega, pow_add] at hYge
      exact Nat.le_of_mul_le_mul_right hYge (pow_pos hB0 _)
    have hay : a0 < y0 * B ^ n0 := by
      calc a0 < B ^ (2 * n0 - 1) := ha
        _ = B ^ (n0 - 1) * B ^ n0 := by rw [← pow_add]; congr 1; omega
        _ ≤ y0 * B ^ n0 := Nat.mul_le_mul_right _ hy0ge
    obtain ⟨b2, v1, hb2l, hvsplit⟩ : ∃ b2 v1, b2.length = h ∧ v = b2 ++ v1 :=
      ⟨v.take h, v.drop h, by simp; omega, (List.take_append_drop h v).symm⟩
    subst hvsplit
    have hv1 : v1.length + 1 = h := by simp at hv; omega
    have hden2 : (b2 ++ v1) ++ [f] = b2 ++ (v1 ++ [f]) := by simp
    have hdb : Digs B b2 ∧ Digs B (v1 ++ [f]) := by rw [hden2, digs_append] at hdv; exact hdv
    have hYeq : val B ((b2 ++ v1) ++ [f]) = val B b2 + B ^ h * val B (v1 ++ [f]) := by
      rw [hden2, val_append, hb2l]
    have hb2lt := val_lt hdb.1
    rw [hb2l] at hb2lt
    have hY2 : val B ((b2 ++ v1) ++ [f]) = B ^ h * (y0 * B ^ (h - n0)) := by
      rw [hvd, show 2 * h - n0 = h + (h - n0) by omega, pow_add]; ring
    have hb20 : val B b2 = 0 := by
      have h1 := congrArg (· % B ^ h) (hYeq.symm.trans hY2)
      simp only [Nat.add_mul_mod_self_left, Nat.mul_mod_right] at h1
      rwa [Nat.mod_eq_of_lt hb2lt] at h1
    have hb1v : val B (v1 ++ [f]) = y0 * B ^ (h - n0) := by
      have h1 := hYeq.symm.trans hY2
      rw [hb20, Nat.zero_add] at h1
      exact Nat.eq_of_mul_eq_mul_left (pow_pos hB0 _) h1
    unfold divBz2n1n
    simp only [hden]
    refine Sp.bind sp_true fun _ _ => ?_
    refine Sp.bind sp_true fun _ _ => ?_
    refine Sp.bind sp_true fun _ _ => ?_
    refine Sp.bind sp_true fun _ _ => ?_
    refine Sp.bind sp_true fun _ _ => ?_
    refine Sp.bind sp_true fun _ _ => ?_
    rw [if_neg (by unfold bzCutoff; omega)]
    simp only [show 2 * h / 2 = h by omega]
    obtain ⟨hw1, hw2⟩ := hw
    rw [show 2 * h / 2 = h by omega] at hw1
    -- the upper part
    obtain ⟨lo, hi, hlol, hsplit⟩ : ∃ lo hi, lo.length = h ∧ num = lo ++ hi :=
      ⟨num.take h, num.drop h, by simp; omega, (List.take_append_drop h num).symm⟩
    subst hsplit
    have hhil : hi.length = 3 * h := by simp at hnum; omega
    rw [digs_append] at hdn
    have hvlo := val_lt hdn.1
    rw [hlol] at hvlo
    have hA : val B lo + B ^ h * val B hi = B ^ h * (a0 * B ^ (h - n0)) := by
      rw [← hlol, ← val_append, hlol, hvn, show 2 * h - n0 = h + (h - n0) by omega, pow_add]; ring
    have hlo0 : val B lo = 0 := by
      have h1 := congrArg (· % B ^ h) hA
      simp only [Nat.add_mul_mod_self_left, Nat.mul_mod_right] at h1
      rwa [Nat.mod_eq_of_lt hvlo] at h1
    have hhiv : val B hi = a0 * B ^ (h - n0) := by
      rw [hlo0, Nat.zero_add] at hA
      exact Nat.eq_of_mul_eq_mul_left (pow_pos hB0 _) hA
    have hhilt : val B hi < y0 * B ^ (h - n0) * B ^ h := by
      rw [hhiv]
      calc a0 * B ^ (h - n0) < y0 * B ^ n0 * B ^ (h - n0) :=
            Nat.mul_lt_mul_of_pos_right hay (pow_pos hB0 _)
        _ = y0 * B ^ (h - n0) * B ^ n0 := by ring
        _ ≤ y0 * B ^ (h - n0) * B ^ h := Nat.mul_le_mul_left _ (Nat.pow_le_pow_right hB0 hnh)
    have hhiY : val B hi < val B ((b2 ++ v1) ++ [f]) := by
      rw [hY2, Nat.mul_comm]; exact hhilt
    have hsl : slice (lo ++ hi) h (lo ++ hi).length = .ok hi := by
      have := slice_append (p := lo) (s := hi) (q := []) (a := h) (b := (lo ++ hi).length) hlol
        (by simp; omega)
      simpa using this
    have hsq : slice (List.replicate (2 * h) 0) h (List.replicate (2 * h) 0).length
        = .ok (List.replicate h 0) := by
      rw [slice_ok (by simp; omega) (le_refl _), List.take_length, List.drop_replicate]
      congr 2; omega
    rw [hsl, ok_bind, hsq, ok_bind]
    have hb2 := divBz2n1n_spec (dbg := dbg) (Z := False) L fuel h (by omega) hsz
    have hfree : BzTieFree B fuel h (val B hi / B ^ h) (val B ((b2 ++ v1) ++ [f]) / B ^ h) := by
      rw [← hh]
      refine bzTieFree_of_short (by omega) h10 e _ _ _ ?_ h20
      rw [hh, hhiv, hY2, Nat.mul_div_cancel_left _ (pow_pos hB0 _), Nat.div_div_eq_div_mul, ← pow_add,
        Nat.div_eq_of_lt]
      · apply Nat.div_pos _ (pow_pos hB0 _)
        calc B ^ (h - 1) = B ^ (n0 - 1) * B ^ (h - n0) := by rw [← pow_add]; congr 1; omega
          _ ≤ y0 * B ^ (h - n0) := Nat.mul_le_mul_right _ hy0ge
      · calc a0 * B ^ (h - n0) < B ^ (2 * n0 - 1) * B ^ (h - n0) :=
              Nat.mul_lt_mul_of_pos_right ha (pow_pos hB0 _)
          _ = B ^ (2 * n0 - 1 + (h - n0)) := (pow_add _ _ _).symm
          _ ≤ B ^ (h + h) := Nat.pow_le_pow_right hB0 (by omega)
    refine Sp.bind ((divBz3n2n_spec L hb2 (by omega) hhil hv hdn.2 hdv hB
      (lt_of_lt_of_le hhiY (Nat.le_mul_of_pos_right _ (pow_pos hB0 _))) hw1 hw2 hdw
      (fun _ => ⟨Or.inr hfree, False.elim⟩) False.elim).weaken fun _ _ => trivial) ?_
    rintro ⟨hi', qh, work1, nq1, nr1⟩ ⟨P1, -⟩
    have p1 := P1.nlen
    have p2 := P1.ndigs
    have p3 := P1.nval
    have p6 := P1.qval
    have p7 := P1.wlen
    have p8 := P1.wdigs
    simp only at p1 p2 p3 p6 p7 p8 ⊢
    rw [Nat.mod_eq_of_lt hhiY] at p3
    rw [Nat.div_eq_of_lt hhiY] at p6
    rw [List.take_left' hlol]
    -- the lower part
    have hYlt : val B ((b2 ++ v1) ++ [f]) < B ^ (2 * h) := by
      have := val_lt hdv
      rwa [hden] at this
    obtain ⟨z1, z2⟩ := drop_val_zero (l := hi') (k := 2 * h) (by omega) (by rw [p3]; omega)
    have hsl2 : slice (lo ++ hi') 0 (3 * h) = .ok (lo ++ hi'.take (2 * h)) := by
      rw [slice_ok (Nat.zero_le _) (by simp; omega), List.drop_zero, List.take_append, hlol]
      congr 2
      · rw [List.take_of_length_le (by omega)]
      · congr 1; omega
    have htk : (List.replicate (2 * h) 0).take h = List.replicate h 0 := by
      rw [List.take_replicate]; congr 1; omega
    have hsq2 : slice ((List.replicate (2 * h) 0).take h ++ qh) 0 h = .ok (List.replicate h 0) := by
      rw [htk]
      exact slice_append (p := []) (s := List.replicate h 0) (q := qh) rfl (by simp)
    rw [hsl2, ok_bind, hsq2, ok_bind]
    have hwh : BzWork h work1.length := by
      refine ⟨?_, by omega⟩
      have := mulWorkSize_mono (m := h / 2) (n := h) (by omega)
      omega
    have hrec := ih fuel (hi'.take (2 * h)) v1 work1 f (by omega) (by simp; omega) hv1 (p2.take _) hdb.2 hB
      hwh p8 hb1v (by rw [z2, p3, hhiv])
    have h3 := divBz3n2n_tie (dbg := dbg) L (by omega) hlol (by simp; omega) hb2l (by simpa using hv1)
      (p2.take (2 * h)) hdb.2 hb20 (by rw [z2, p3, hb1v]; exact hhilt) hrec
    rw [← hden2] at h3
    refine Sp.bind h3 ?_
    rintro ⟨nl, ql, work2, nq2, nr2⟩ hq
    simp only at hq ⊢
    have hd2 : ((List.replicate (2 * h) 0).take h ++ qh).drop h = qh := by
      rw [htk]; exact List.drop_left' (by simp)
    rw [hd2]
    refine Sp.bind sp_true fun _ _ => ?_
    refine Sp.bind sp_true fun _ _ => ?_
    refine Sp.pure ?_
    simp only []
    rw [val_append, p6]
    simpa using hq

set_option maxHeartbeats 1000000 in
/-- A tie in the division by a number that is zero below its leading part. -/
theorem divBigBz_tie (L : Lawful D B) (W : WrapLaw D B) {num den quot work : List Nat} {d n0 e a0 y0 : Nat}
    (hdn : Digs B num) (hdd : Digs B den) (h20 : 20 ≤ den.length) (hlen : den.length ≤ num.length)
    (hd : den.getLast? = some d) (hB : B ≤ 2 * d) (hdw : Digs B work)
    (hw : divBzWorkSize den.length ≤ work.length)
    (he : blockSize den.length = n0 * 2 ^ e) (hshort : num.length - den.length < blockSize den.length)
    (h10 : 10 ≤ n0) (hn20 : n0 < 20) (hn0 : n0 ≤ den.length) (ha : a0 < B ^ (2 * n0 - 1)) (hya : y0 ≤ a0)
    (ht : ∃ i, B ^ (i + n0) ≤ a0 ∧ y0 / B ^ (n0 - 1) * B ^ (n0 - 1) ≤ a0 / B ^ (i + 1) % y0)
    (hvd : val B den = y0 * B ^ (den.length - n0)) (hvn : val B num = a0 * B ^ (den.length - n0)) :
    Sp (fun _ => True) (divBigBz D dbg (divBigLeaf D dbg) num den quot work)
      (fun r => val B (r.2.1.take r.2.2.2.1) < a0 / y0) := by
  have hB0 := L.pos
  have hBb := L.base
  obtain ⟨v, rfl⟩ : ∃ v, den = v ++ [d] := by
    obtain ⟨v, d', rfl⟩ : ∃ v d, den = v ++ [d] :=
      ⟨den.dropLast, den.getLast (by intro h; simp [h] at h20), (List.dropLast_concat_getLast _).symm⟩
    exact ⟨v, by rw [getLast_snoc_eq hd]⟩
  have hdB : d < B := hdd d (by simp)
  obtain ⟨s, hs1, hs2, hs3⟩ := L.maxShift d (by omega) hdB
  obtain rfl := shift_zero hB hs2
  obtain ⟨bz1, bz2⟩ := blockSize_spec h20
  have hlv : (v ++ [d]).length = v.length + 1 := by simp
  unfold divBigBz
  simp only []
  refine Sp.bind sp_true fun _ _ => ?_
  refine Sp.bind sp_true fun _ _ => ?_
  refine Sp.bind sp_true fun _ _ => ?_
  refine Sp.bind sp_true fun _ _ => ?_
  unfold divBzWorkSize at hw
  obtain ⟨n, hn⟩ : ∃ n, blockSize (v ++ [d]).length = n := ⟨_, rfl⟩
  rw [hn] at bz1 bz2 hw he hshort ⊢
  simp only at hw
  obtain ⟨p, hp⟩ : ∃ p, n - (v ++ [d]).length = p := ⟨_, rfl⟩
  rw [hp]
  have hnp : n = p + (v ++ [d]).length := by omega
  have hcp : copyInto (List.replicate n 0) p n (v ++ [d]) = .ok (List.replicate p 0 ++ (v ++ [d])) := by
    have := copyInto_append (p := List.replicate p 0) (s := List.replicate (v ++ [d]).length 0) (q := [])
      (src := v ++ [d]) (a := p) (b := n) (by simp) (by simp; omega) (by simp)
    rw [List.append_nil, List.append_nil, List.replicate_append_replicate, ← hnp] at this
    exact this
  rw [hcp, ok_bind]
  have hg : getR (List.replicate p 0 ++ (v ++ [d])) (n - 1) = .ok d := by
    have : n - 1 = (List.replicate p 0 ++ v).length := by simp; omega
    rw [← List.append_assoc, getR_ok (by simp; omega)]
    simp only [this]
    simp
  have hsh : ∀ l : List Nat, shlWithin D l 0 0 = .ok (l, 0) := by
    intro l; simp [shlWithin]
  rw [hg, ok_bind, hs1, ok_bind, hsh, ok_bind]
  have hdiv0 : (num.length - (v ++ [d]).length) / n = 0 := Nat.div_eq_of_lt hshort
  rw [hdiv0]
  simp only [Nat.add_zero, show 2 - 1 = 1 from rfl, Nat.one_mul]
  obtain ⟨g, hgap⟩ : ∃ g, 2 * n = p + (num.length + 1) + g :=
    ⟨2 * n - (p + (num.length + 1)), by omega⟩
  have hcn : copyInto (List.replicate (2 * n) 0) p (p + num.length) num
      = .ok (List.replicate p 0 ++ (num ++ [0]) ++ List.replicate g 0) := by
    have := copyInto_append (p := List.replicate p 0) (s := List.replicate num.length 0)
      (q := List.replicate (1 + g) 0)
      (src := num) (a := p) (b := p + num.length) (by simp) (by simp) (by simp)
    rw [List.replicate_append_replicate, List.replicate_append_replicate,
      show p + num.length + (1 + g) = 2 * n by omega] at this
    rw [this, ← List.replicate_append_replicate]
    simp
  rw [hcn, ok_bind]
  have hos := onSlice_append (p := List.replicate p 0) (s := num ++ [0]) (q := List.replicate g 0)
    (a := p) (b := p + num.length + 1) (f := fun l => shlWithin D l 0 0) (by simp) (by simp; omega)
  rw [hos, hsh]
  simp only [ok_bind, pure_eq_ok]
  have hAl : (List.replicate p 0 ++ (num ++ [0]) ++ List.replicate g 0).length = 2 * n := by
    simp; omega
  have hAv : val B (List.replicate p 0 ++ (num ++ [0]) ++ List.replicate g 0) = a0 * B ^ (n - n0) := by
    rw [List.append_assoc, val_zeros_append, val_append, val_snoc, hvn,
      show n - n0 = p + ((v ++ [d]).length - n0) by omega, pow_add]
    simp; ring
  have hYv : val B ((List.replicate p 0 ++ v) ++ [d]) = y0 * B ^ (n - n0) := by
    rw [List.append_assoc, val_zeros_append, hvd,
      show n - n0 = p + ((v ++ [d]).length - n0) by omega, pow_add]
    ring
  have hdig : Digs B ((List.replicate p 0 ++ v) ++ [d]) := by
    rw [List.append_assoc, digs_append]; exact ⟨digs_replicate hB0, hdd⟩
  have hdigA : Digs B (List.replicate p 0 ++ (num ++ [0]) ++ List.replicate g 0) := by
    simp [digs_replicate hB0, hdn, hB0]
  generalize hA : List.replicate p 0 ++ (num ++ [0]) ++ List.replicate g 0 = A at *
  have key := divBz2n1n_tie (dbg := dbg) L W h10 hn20 ha hya ht e (n + 1) A (List.replicate p 0 ++ v) work d
    (by omega) (by omega) (by simp; omega) hdigA hdig hB ⟨by rw [← he]; omega, by omega⟩ hdw
    (by rw [← he]; exact hYv) (by rw [← he]; exact hAv)
  rw [← he, List.append_assoc] at key
  refine Sp.bind (P := fun r => val B r.2.1 < a0 / y0) ?_ ?_
  · unfold bzBlocks
    simp only [Nat.zero_mul, Nat.zero_add, Nat.one_mul]
    rw [slice_ok (Nat.zero_le _) (by omega), ok_bind, slice_ok (Nat.zero_le _) (by simp), ok_bind,
      List.drop_zero, List.drop_zero, ← hAl, List.take_length, List.take_of_length_le (by simp)]
    refine Sp.bind key ?_
    rintro ⟨a, b, c, x, y⟩ h
    simp only at h ⊢
    unfold bzBlocks
    refine Sp.ok ?_
    simp only [List.take_zero, List.nil_append]
    rw [List.drop_of_length_le (by simp), List.append_nil]
    exact h
  · rintro ⟨snum, q, wk⟩ h
    simp only at h ⊢
    refine Sp.bind sp_true ?_
    rintro ⟨sn, nr, x⟩ -
    simp only []
    obtain ⟨nd, d1, d2, d3, d4⟩ := dropLeadingZeros_spec q q.length (le_refl _)
    rw [List.take_length] at d3
    rw [d1, ok_bind, slice_ok (Nat.zero_le _) d2, ok_bind, List.drop_zero]
    refine Sp.bind (copyInto_any (by simp; omega)) ?_
    intro qq hqq
    refine Sp.bind sp_true fun _ _ => ?_
    refine Sp.bind sp_true fun _ _ => ?_
    refine Sp.pure ?_
    simp only []
    rw [hqq, val_take_zeros d3]
    exact h

/-- `x / y` with such a tie: the result is too small. -/
theorem divOp_bz_tie (L : Lawful D B) (W : WrapLaw D B) {x y : List Nat} {d n0 a0 y0 : Nat}
    (hx : Rep B x (a0 * B ^ (y.length - n0))) (hy : Rep B y (y0 * B ^ (y.length - n0)))
    (h20 : 20 ≤ y.length) (hd : y.getLast? = some d) (hB : B ≤ 2 * d) (hn0 : n0 = leafDigits y.length)
    (hshort : x.length < y.length + n0) (ha : a0 < B ^ (2 * n0 - 1)) (hya : y0 < a0)
    (ht : ∃ i, B ^ (i + n0) ≤ a0 ∧ y0 / B ^ (n0 - 1) * B ^ (n0 - 1) ≤ a0 / B ^ (i + 1) % y0) :
    Sp (fun _ => True) (divOp D dbg x y) (fun r => val B r < a0 / y0) := by
  have hB0 := L.pos
  have h10 := le_leafDigits h20
  have hn20 := leafDigits_lt y.length
  have hbl := blockSize_isBlockLen (len := y.length) (by omega)
  obtain ⟨e, he⟩ := hbl.leaf
  have hle : leafDigits y.length ≤ blockSize y.length := by
    rw [he]; exact Nat.le_mul_of_pos_right _ (Nat.pow_pos (by omega))
  have hne : y ≠ [] := by rintro rfl; simp at h20
  have hlt : y0 * B ^ (y.length - n0) < a0 * B ^ (y.length - n0) :=
    Nat.mul_lt_mul_of_pos_right hya (pow_pos hB0 _)
  have hlen : y.length ≤ x.length := hy.canon.length_le hB0 hx.digs (by rw [hx.val_eq, hy.val_eq]; omega)
  unfold divOp divAssignBig
  simp only []
  rw [if_neg (by omega), bind_assoc]
  unfold divBig divBigWithWork divBigWithWorkGen
  simp only []
  rw [if_neg hne, ltBig_dec (ltBig_canon hB0 hx.digs hy.digs hx.canon hy.canon), hx.val_eq, hy.val_eq,
    if_neg (by simp; omega)]
  simp only [List.length_replicate]
  rw [if_neg (by omega)]
  simp only [pure_bind, Bool.false_eq_true, if_false]
  rw [if_neg (by omega), if_neg (by omega), if_neg (by unfold bzCutoff; omega)]
  simp only [bind_assoc]
  refine Sp.bind sp_true fun _ _ => ?_
  have hwk : (if (decide (y.length ≤ 2) || decide (a0 * B ^ (y.length - n0) < y0 * B ^ (y.length - n0)))
        = true then []
      else if y.length < bzCutoff then List.replicate bzCutoff 0
      else List.replicate (divBzWorkSize y.length) 0) = List.replicate (divBzWorkSize y.length) 0 := by
    rw [if_neg (by simp; omega), if_neg (by unfold bzCutoff; omega)]
  rw [hwk]
  refine Sp.bind (divBigBz_tie (dbg := dbg) L W hx.digs hy.digs h20 hlen hd hB (digs_replicate hB0)
    (by simp) (n0 := n0) (e := e)
    (hn0 ▸ he) (by omega) (by omega) (by omega) (by have := hbl; omega) ha (by omega) ht hy.val_eq
    hx.val_eq) ?_
  rintro ⟨num', quot', work', nq, nr⟩ h
  simp only [pure_bind, bind_assoc] at h ⊢
  exact Sp.bind sp_true fun _ _ => Sp.pure h

end Babs
