import Verif.Proofs.DivBz
import Verif.Proofs.Shift

/-!
# Helper lemmas: division of big numbers (`src/ubig/div.rs`, `src/ubig/div/bz.rs`)
-/

namespace Babs

variable {D : DigitOps} {B : Nat} {dbg : Bool}

/-- What a division does with its buffers. -/
structure DivRes (B X Y : Nat) (num quot num' quot' : List Nat) (nquot nrem : Nat) : Prop where
  nlen : num'.length = num.length
  nrem_le : nrem ≤ num.length
  rrep : Rep B (num'.take nrem) (X % Y)
  qlen : quot'.length = quot.length
  nquot_le : nquot ≤ quot.length
  qrep : Rep B (quot'.take nquot) (X / Y)

theorem DivOut.res {X Y k : Nat} {num quot num' quot' : List Nat} {nquot nrem : Nat}
    (h : DivOut B X Y k num quot num' quot' nquot nrem) :
    DivRes B X Y num quot num' quot' nquot nrem where
  nlen := h.nlen
  nrem_le := h.nrem_le
  rrep := ⟨h.ndigs.take _, h.rcanon, by rw [val_take_zeros h.num_eq]; exact h.rval⟩
  qlen := h.qlen
  nquot_le := h.nquot_le
  qrep := ⟨h.qdigs, h.qcanon, h.qval⟩

/-- Copying to the front. -/
theorem copyInto_front {l src : List Nat} (h : src.length ≤ l.length) :
    copyInto l 0 src.length src = .ok (src ++ l.drop src.length) := by
  have := copyInto_append (p := []) (s := l.take src.length) (q := l.drop src.length) (src := src)
    (a := 0) (b := src.length) rfl (by simp; omega) (by simp; omega)
  simpa using this

/-- A multiple of `B ^ k` has `k` low zeros. -/
theorem low_zero (hB : 0 < B) {l : List Nat} {k Z : Nat} (hl : Digs B l) (hk : k ≤ l.length)
    (h : val B l = B ^ k * Z) : val B (l.take k) = 0 ∧ val B (l.drop k) = Z := by
  have h1 := val_append B (l.take k) (l.drop k)
  have hlen : (l.take k).length = k := by simp; omega
  rw [List.take_append_drop, hlen, h] at h1
  have h2 := val_lt (hl.take k)
  rw [hlen] at h2
  have hP : 0 < B ^ k := Nat.pow_pos hB
  have h3 : (B ^ k * Z) % B ^ k = (val B (l.take k) + B ^ k * val B (l.drop k)) % B ^ k := by
    rw [h1]
  rw [Nat.mul_mod_right, Nat.add_mul_mod_self_left, Nat.mod_eq_of_lt h2] at h3
  refine ⟨h3.symm, ?_⟩
  rw [← h3, Nat.zero_add] at h1
  exact (Nat.eq_of_mul_eq_mul_left hP h1).symm

/-- The block size of the code is the one of the specification. -/
theorem blockSize_isBlockLen {len : Nat} (h : 1 ≤ len) : IsBlockLen len (blockSize len) := by
  have hceil : ∀ m, 0 < m → len ≤ (len + m - 1) / m * m ∧ (len + m - 1) / m * m < len + m := by
    intro m hm
    have h1 := Nat.div_add_mod (len + m - 1) m
    have h2 := Nat.mod_lt (len + m - 1) hm
    have h3 : (len + m - 1) / m * m = m * ((len + m - 1) / m) := Nat.mul_comm _ _
    omega
  unfold blockSize bzCutoff
  simp only []
  by_cases hk : (len - 1) / 20 = 0
  · obtain ⟨h1, h2⟩ := hceil (2 ^ 0) (by simp)
    rw [if_pos hk]
    exact ⟨0, by omega, fun e' he => by omega, h1, h2, dvd_mul_left _ _⟩
  · rw [if_neg hk]
    obtain ⟨k, hkk⟩ : ∃ k, (len - 1) / 20 = k := ⟨_, rfl⟩
    rw [hkk] at hk ⊢
    have h1 : 2 ^ Nat.log2 k ≤ k := Nat.log2_self_le hk
    have h2 : k < 2 ^ (Nat.log2 k + 1) := Nat.lt_log2_self
    obtain ⟨h3, h4⟩ := hceil (2 ^ (Nat.log2 k + 1)) (by positivity)
    refine ⟨Nat.log2 k + 1, by omega, fun e' he => ?_, h3, h4, dvd_mul_left _ _⟩
    have : 2 ^ e' ≤ 2 ^ Nat.log2 k := Nat.pow_le_pow_right (by omega) (by omega)
    omega

/-- There is only one such size. -/
theorem IsBlockLen.unique {len n n' : Nat} (h : IsBlockLen len n) (h' : IsBlockLen len n') :
    n = n' := by
  obtain ⟨e, h1, h2, h3, h4, a, rfl⟩ := h
  obtain ⟨e', h1', h2', h3', h4', b, rfl⟩ := h'
  have he : e = e' := by
    rcases Nat.lt_trichotomy e e' with h | h | h
    · have := h2' e h; omega
    · exact h
    · have := h2 e' h; omega
  subst he
  generalize hm : 2 ^ e = m at *
  rcases Nat.lt_trichotomy a b with h | h | h
  · have : m * (a + 1) ≤ m * b := Nat.mul_le_mul_left _ h
    have e1 : m * (a + 1) = m * a + m := by ring
    omega
  · rw [h]
  · have : m * (b + 1) ≤ m * a := Nat.mul_le_mul_left _ h
    have e1 : m * (b + 1) = m * b + m := by ring
    omega

/-- The division of `X`, of `nnum` digits, by `den` does not panic. -/
def SafeDiv (B X nnum : Nat) (den : List Nat) : Prop :=
  ∀ s d, den.getLast? = some d → d * 2 ^ s < B → B ≤ d * 2 ^ (s + 1) →
    BlocksSafe (productOk B) B X nnum (val B den) den.length s

set_option maxHeartbeats 1000000 in
theorem divBigBz_spec (L : Lawful D B) {num den quot work : List Nat}
    (hdn : Digs B num) (hdd : Digs B den) (cn : Canon num) (cd : Canon den)
    (h20 : 20 ≤ den.length) (hge : val B den ≤ val B num)
    (hq : num.length - den.length + 1 ≤ quot.length) (hdw : Digs B work)
    (hw : divBzWorkSize den.length ≤ work.length)
    (fit : ∀ s d, den.getLast? = some d → d * 2 ^ s < B → B ≤ d * 2 ^ (s + 1) →
      val B den * 2 ^ s < B ^ den.length)
    (T : TieLaw D B ∨ ∀ s d, den.getLast? = some d → d * 2 ^ s < B → B ≤ d * 2 ^ (s + 1) →
      BlocksTieFree B (val B num) num.length (val B den) den.length s) :
    Sp (fun p => bzFail p ∧ ¬ SafeDiv B (val B num) num.length den)
      (divBigBz D dbg (divBigLeaf D dbg) num den quot work)
      (fun r => DivRes B (val B num) (val B den) num quot r.1 r.2.1 r.2.2.2.1 r.2.2.2.2 ∧
        SafeDiv B (val B num) num.length den) := by
  have hB0 := L.pos
  have hBb := L.base
  have hdebug : ∀ {c : Bool}, c = true → debugAssertR dbg c = .ok () := by
    intro c h; simp [debugAssertR, h]
  have hlen : den.length ≤ num.length := cd.length_le hB0 hdn hge
  have hnb : ltBig num den = false := by
    rw [ltBig_dec (ltBig_canon hB0 hdn hdd cn cd)]; simpa using hge
  obtain ⟨v, d, hvd⟩ : ∃ v d, den = v ++ [d] :=
    ⟨den.dropLast, den.getLast (by intro h; simp [h] at h20), (List.dropLast_concat_getLast _).symm⟩
  have hdB : d < B := hdd d (by rw [hvd]; simp)
  have hd0 : 0 < d := by
    have : Canon (v ++ [d]) := hvd ▸ cd
    rw [canon_snoc] at this; omega
  obtain ⟨s, hs1, hs2, hs3⟩ := L.maxShift d (by omega) hdB
  have hfit := fit s d (by rw [hvd]; simp) hs2 hs3
  obtain ⟨bz1, bz2⟩ := blockSize_spec h20
  unfold divBigBz
  simp only []
  rw [hdebug (decide_eq_true (by omega)), ok_bind, hdebug (by rw [hnb]; rfl), ok_bind,
    hdebug (decide_eq_true (by omega)), ok_bind, hdebug (decide_eq_true (by omega)), ok_bind]
  unfold divBzWorkSize at hw
  obtain ⟨n, hn⟩ : ∃ n, blockSize den.length = n := ⟨_, rfl⟩
  rw [hn] at bz1 bz2 hw ⊢
  simp only at hw
  obtain ⟨p, hp⟩ : ∃ p, n - den.length = p := ⟨_, rfl⟩
  rw [hp]
  have hnp : n = p + den.length := by omega
  -- the divisor
  have hcp : copyInto (List.replicate n 0) p n den = .ok (List.replicate p 0 ++ den) := by
    have := copyInto_append (p := List.replicate p 0) (s := List.replicate den.length 0) (q := [])
      (src := den) (a := p) (b := n) (by simp) (by simp; omega) (by simp)
    rw [List.append_nil, List.append_nil, List.replicate_append_replicate, ← hnp] at this
    exact this
  rw [hcp, ok_bind]
  have hg : getR (List.replicate p 0 ++ den) (n - 1) = .ok d := by
    rw [getR_ok (by simp; omega)]
    congr 1
    rw [List.getElem_append_right (by simp; omega)]
    simp only [hvd]
    rw [List.getElem_append_right (by simp [hvd] at hnp ⊢; omega)]
    simp
  rw [hg, ok_bind, hs1, ok_bind]
  have h2s : 2 ^ s < B := by
    calc 2 ^ s = 1 * 2 ^ s := by ring
      _ ≤ d * 2 ^ s := Nat.mul_le_mul_right _ hd0
      _ < B := hs2
  have h2p : 0 < 2 ^ s := by positivity
  obtain ⟨sden, cs, a1, a2, a3, a4, a5⟩ := shlWithin_spec L (List.replicate p 0 ++ den) s 0
    (by simp [hdd, digs_replicate hB0]) h2s h2p
  rw [val_zeros_append, Nat.add_zero] at a5
  have hsl : (List.replicate p 0 ++ den).length = n := by simp; omega
  rw [hsl] at a2 a5
  have hpn : B ^ n = B ^ p * B ^ den.length := by rw [hnp, pow_add]
  have hcs : cs = 0 := by
    by_contra h0
    have h1 : B ^ n * 1 ≤ B ^ n * cs := Nat.mul_le_mul_left _ (by omega)
    have h2 : B ^ p * (val B den * 2 ^ s) < B ^ p * B ^ den.length :=
      Nat.mul_lt_mul_of_pos_left hfit (Nat.pow_pos hB0)
    have h3 : B ^ p * (val B den * 2 ^ s) = B ^ p * val B den * 2 ^ s := by ring
    omega
  subst hcs
  rw [Nat.mul_zero, Nat.add_zero] at a5
  rw [a1, ok_bind]
  simp only []
  -- the dividend
  obtain ⟨t, ht⟩ : ∃ t, (num.length - den.length) / n = t := ⟨_, rfl⟩
  have hn0 : 0 < n := by omega
  have htn1 : t * n ≤ num.length - den.length := by rw [← ht]; exact Nat.div_mul_le_self _ _
  have htn2 : num.length - den.length < t * n + n := by
    have h1 := Nat.div_add_mod (num.length - den.length) n
    have h2 := Nat.mod_lt (num.length - den.length) hn0
    rw [ht, Nat.mul_comm] at h1
    omega
  rw [ht]
  have e1 : (2 + t) * n = t * n + 2 * n := by ring
  have e2 : (2 + t - 1) * n = t * n + n := by
    rw [show 2 + t - 1 = t + 1 by omega]; ring
  rw [e1, e2]
  obtain ⟨g, hgap⟩ : ∃ g, t * n + 2 * n = p + (num.length + 1) + g :=
    ⟨t * n + 2 * n - (p + (num.length + 1)), by omega⟩
  have hcn : copyInto (List.replicate (t * n + 2 * n) 0) p (p + num.length) num
      = .ok (List.replicate p 0 ++ (num ++ [0]) ++ List.replicate g 0) := by
    have := copyInto_append (p := List.replicate p 0) (s := List.replicate num.length 0)
      (q := List.replicate (1 + g) 0)
      (src := num) (a := p) (b := p + num.length) (by simp) (by simp) (by simp)
    rw [List.replicate_append_replicate, List.replicate_append_replicate,
      show p + num.length + (1 + g) = t * n + 2 * n by omega] at this
    rw [this, ← List.replicate_append_replicate]
    simp
  rw [hcn, ok_bind]
  obtain ⟨sn, cn', b1, b2, b3, b4, b5⟩ := shlWithin_spec L (num ++ [0]) s 0
    (by simp [hdn, hB0]) h2s h2p
  have hvn0 : val B (num ++ [0]) = val B num := by rw [val_snoc]; simp
  rw [hvn0, Nat.add_zero] at b5
  have hnl : (num ++ [0]).length = num.length + 1 := by simp
  rw [hnl] at b2 b5
  have hvn := val_lt hdn
  have hcn0 : cn' = 0 := by
    by_contra h0
    have h1 : B ^ (num.length + 1) * 1 ≤ B ^ (num.length + 1) * cn' :=
      Nat.mul_le_mul_left _ (by omega)
    have h2 : val B num * 2 ^ s < B ^ num.length * B := Nat.mul_lt_mul'' hvn h2s
    rw [pow_succ] at h1 b5
    omega
  subst hcn0
  rw [Nat.mul_zero, Nat.add_zero] at b5
  have hos := onSlice_append (p := List.replicate p 0) (s := num ++ [0]) (q := List.replicate g 0)
    (a := p) (b := p + num.length + 1) (f := fun l => shlWithin D l s 0) (by simp) (by simp; omega)
  rw [hos, b1]
  simp only [ok_bind, pure_eq_ok]
  -- the loop
  obtain ⟨v', f, hvf⟩ : ∃ v' f, sden = v' ++ [f] :=
    ⟨sden.dropLast, sden.getLast (by intro h; simp [h] at a2; omega),
      (List.dropLast_concat_getLast _).symm⟩
  subst hvf
  have hv'l : v'.length + 1 = n := by simpa using a2
  have hYe : val B (v' ++ [f]) = B ^ p * (val B den * 2 ^ s) := by rw [a5]; ring
  have hpl : p + v.length = v'.length := by
    have : den.length = v.length + 1 := by rw [hvd]; simp
    omega
  have hfB : B ≤ 2 * f := by
    have h1 : B ^ v'.length * (d * 2 ^ s) ≤ val B (v' ++ [f]) := by
      rw [hYe, hvd, val_snoc, ← hpl, pow_add, Nat.mul_assoc]
      apply Nat.mul_le_mul_left
      rw [← Nat.mul_assoc]
      exact Nat.mul_le_mul_right _ (by omega)
    have h2 := val_lt (b := B) (ds := v') (fun x hx => a3 x (by simp [hx]))
    rw [val_snoc] at h1
    have h3 : B ^ v'.length * (d * 2 ^ s) < B ^ v'.length * (f + 1) := by
      have : B ^ v'.length * (f + 1) = B ^ v'.length * f + B ^ v'.length := by ring
      omega
    have h4 := Nat.lt_of_mul_lt_mul_left h3
    have h5 : d * 2 ^ (s + 1) = 2 * (d * 2 ^ s) := by rw [pow_succ]; ring
    omega
  have hAl : (List.replicate p 0 ++ sn ++ List.replicate g 0).length = (t + 1 + 1) * n := by
    have : (t + 1 + 1) * n = t * n + 2 * n := by ring
    simp; omega
  have hAv : val B (List.replicate p 0 ++ sn ++ List.replicate g 0)
      = B ^ p * (val B num * 2 ^ s) := by
    rw [List.append_assoc, val_zeros_append, val_append, b5]; simp
  have hYpos : 0 < val B den := cd.pos hB0 (by rw [hvd]; simp)
  have hAlt : val B (List.replicate p 0 ++ sn ++ List.replicate g 0)
      < val B (v' ++ [f]) * B ^ ((t + 1) * n) := by
    rw [hAv, hYe, Nat.mul_assoc]
    apply Nat.mul_lt_mul_of_pos_left _ (Nat.pow_pos hB0)
    have h1 := cd.ge hB0 (by rw [hvd]; simp)
    have h3 : B ^ num.length ≤ B ^ (den.length - 1) * B ^ ((t + 1) * n) := by
      rw [← pow_add]
      apply Nat.pow_le_pow_right hB0
      have : (t + 1) * n = t * n + n := by ring
      omega
    have h4 : B ^ (den.length - 1) * B ^ ((t + 1) * n) ≤ val B den * B ^ ((t + 1) * n) :=
      Nat.mul_le_mul_right _ h1
    have h5 : val B num * 2 ^ s < (val B den * B ^ ((t + 1) * n)) * 2 ^ s :=
      Nat.mul_lt_mul_of_pos_right (by omega) h2p
    calc val B num * 2 ^ s < (val B den * B ^ ((t + 1) * n)) * 2 ^ s := h5
      _ = val B den * 2 ^ s * B ^ ((t + 1) * n) := by ring
  have hk : SafeDiv B (val B num) num.length den →
      BlocksSafe (productOk B) B (val B num) num.length (val B den) den.length s :=
    fun h => h s d (by rw [hvd]; simp) hs2 hs3
  have hb2 := divBz2n1n_spec (dbg := dbg) (Z := SafeDiv B (val B num) num.length den) L
    (n + 1) n (by omega) bz1
  have hbl := blockSize_isBlockLen (len := den.length) (by omega)
  rw [hn] at hbl
  have e1 : B ^ p * (val B num * 2 ^ s) = val B num * 2 ^ s * B ^ p := by ring
  have e2 : B ^ p * (val B den * 2 ^ s) = val B den * 2 ^ s * B ^ p := by ring
  have hblk := bzBlocks_spec L (by omega) hb2 hv'l a3 hfB (t + 1)
    (List.replicate p 0 ++ sn ++ List.replicate g 0) [] [] work hAl
    (by simp [digs_replicate hB0, b3]) hAlt ⟨by omega, by omega⟩ hdw
    (fun i hi => ⟨T.imp_right fun T => by
      have := T s d (by rw [hvd]; simp) hs2 hs3 n hbl i (by omega)
      rw [hp] at this
      rw [hAv, hYe, e1, e2]
      exact this, fun z => by
      have := hk z n hbl i (by omega)
      rw [hp] at this
      rw [hAv, hYe, e1, e2]
      exact this⟩)
  rw [List.append_nil, List.append_nil] at hblk
  have e3 : (t + 1) * n = t * n + n := by ring
  rw [show 2 + t - 1 = t + 1 by omega]
  rw [e3] at hblk
  refine Sp.bind hblk ?_
  rintro ⟨r1, r2, r3⟩ ⟨A, Q, c1, c2, c3, c4, c5, c6, c7, c8, c9, c10, c11⟩
  simp only [List.append_nil] at c1 c2 c9 c10 ⊢
  have hsafe : SafeDiv B (val B num) num.length den := by
    intro s' d' h1 h2 h3 n' hn' i hi
    have hdd' : d' = d := by rw [hvd] at h1; exact getLast_snoc_eq h1
    subst hdd'
    have hss : s' = s := by
      rcases Nat.lt_trichotomy s' s with h | h | h
      · have h4 := Nat.mul_le_mul_left d'
          (Nat.pow_le_pow_right (by omega : 0 < 2) (show s' + 1 ≤ s by omega))
        omega
      · exact h
      · have h4 := Nat.mul_le_mul_left d'
          (Nat.pow_le_pow_right (by omega : 0 < 2) (show s + 1 ≤ s' by omega))
        omega
    subst hss
    rw [hn'.unique hbl] at hi ⊢
    have := c11 i (by omega)
    rw [hAv, hYe, e1, e2] at this
    rw [hp]; exact this
  rw [c1, c2]
  rw [hAv, hYe] at c5 c8
  have hPp : 0 < B ^ p := Nat.pow_pos hB0
  rw [Nat.mul_mod_mul_left, Nat.mul_mod_mul_right] at c5
  rw [Nat.mul_div_mul_left _ _ hPp, Nat.mul_div_mul_right _ _ h2p] at c8
  rw [hAl] at c3
  have e4 : (t + 1 + 1) * n = t * n + 2 * n := by ring
  rw [e4] at c3
  -- the remainder
  obtain ⟨z1, z2⟩ := low_zero hB0 (l := A) (k := p) c4 (by omega) c5
  have hRlt : val B num % val B den < val B den := Nat.mod_lt _ hYpos
  have hmid : val B (A.drop p) < B ^ den.length := by
    rw [z2]
    calc val B num % val B den * 2 ^ s ≤ val B den * 2 ^ s := Nat.mul_le_mul_right _ hRlt.le
      _ < _ := hfit
  obtain ⟨z3, z4⟩ := drop_val_zero (l := A.drop p) (k := den.length) (by simp; omega) hmid
  have hAsplit : A = A.take p ++ (A.drop p).take den.length ++ (A.drop p).drop den.length := by
    rw [List.append_assoc, List.take_append_drop, List.take_append_drop]
  obtain ⟨mid, hmidd⟩ : ∃ mid, (A.drop p).take den.length = mid := ⟨_, rfl⟩
  have hmidl : mid.length = den.length := by rw [← hmidd]; simp; omega
  have hmidg : Digs B mid := by rw [← hmidd]; exact (c4.drop _).take _
  rw [hmidd] at hAsplit z4
  obtain ⟨rr, nr, cr, s1, s2, s3, s4, s5, s6, s7, s8⟩ := shrWithin_spec L mid s 0 hmidg h2s h2p
  rw [z4, z2, Nat.zero_mul, Nat.zero_add] at s5
  have hrr : val B rr = val B num % val B den := by
    have h1 : (val B rr * 2 ^ s + cr) / 2 ^ s = val B rr := by
      rw [Nat.mul_comm, Nat.mul_add_div h2p, Nat.div_eq_of_lt s4, Nat.add_zero]
    rw [s5, Nat.mul_div_cancel _ h2p] at h1
    exact h1.symm
  have hos2 := onSlice_append (p := A.take p) (s := mid) (q := (A.drop p).drop den.length)
    (a := p) (b := n) (f := fun l => shrWithin D l s 0) (by simp; omega) (by omega)
  rw [← hAsplit] at hos2
  rw [hos2, s1]
  simp only [ok_bind, pure_eq_ok]
  obtain ⟨nq, u1, u2, u3, u4⟩ := dropLeadingZeros_spec Q Q.length (le_refl _)
  rw [List.take_length] at u3
  have hQrep : Rep B (Q.take nq) (val B num / val B den) :=
    ⟨c7.take _, u4, by rw [val_take_zeros u3]; exact c8⟩
  have hnq : nq ≤ num.length - den.length + 1 := by
    have h1 : (Q.take nq).length = nq := by simp; omega
    rw [← h1]
    apply hQrep.length_le (by omega)
    have h2 := cd.ge hB0 (by rw [hvd]; simp)
    rw [Nat.div_lt_iff_lt_mul hYpos]
    have h3 : B ^ num.length = B ^ (num.length - den.length + 1) * B ^ (den.length - 1) := by
      rw [← pow_add]; congr 1; omega
    calc val B num < B ^ num.length := hvn
      _ = B ^ (num.length - den.length + 1) * B ^ (den.length - 1) := h3
      _ ≤ _ := Nat.mul_le_mul_left _ h2
  have hql : (Q.take nq).length = nq := by simp; omega
  have hcq : copyInto quot 0 nq (Q.take nq) = .ok (Q.take nq ++ quot.drop nq) := by
    have := copyInto_front (l := quot) (src := Q.take nq) (by omega)
    rwa [hql] at this
  rw [u1, ok_bind, slice_take u2, ok_bind, hcq, ok_bind]
  have hrl : (rr.take nr).length = nr := by simp; omega
  have hsr : slice (A.take p ++ rr ++ (A.drop p).drop den.length) p (p + nr) = .ok (rr.take nr) := by
    have := slice_append (p := A.take p) (s := rr.take nr)
      (q := rr.drop nr ++ (A.drop p).drop den.length) (a := p) (b := p + nr) (by simp; omega)
      (by omega)
    rw [List.append_assoc (A.take p), ← List.append_assoc (rr.take nr), List.take_append_drop,
      ← List.append_assoc] at this
    exact this
  have hcr : copyInto num 0 nr (rr.take nr) = .ok (rr.take nr ++ num.drop nr) := by
    have := copyInto_front (l := num) (src := rr.take nr) (by omega)
    rwa [hrl] at this
  rw [hsr, ok_bind, hcr, ok_bind]
  refine Sp.ok ⟨⟨?_, ?_, ?_, ?_, ?_, ?_⟩, hsafe⟩
  · simp; omega
  · simp only []; omega
  · simp only []
    rw [List.take_left' hrl]
    exact ⟨s3.take _, s8, by rw [val_take_zeros s7]; exact hrr⟩
  · simp; omega
  · simp only []; omega
  · simp only []
    rw [List.take_left' hql]
    exact hQrep

/-! ## Dispatch -/

/-- The quotient has at most `nnum - nden + 1` digits. -/
theorem quot_length (hB : 2 ≤ B) {num den q : List Nat} (hdn : Digs B num) (cd : Canon den)
    (hne : den ≠ []) (hlen : den.length ≤ num.length) (hq : Rep B q (val B num / val B den)) :
    q.length ≤ num.length - den.length + 1 := by
  apply hq.length_le hB
  have h2 := cd.ge (b := B) (by omega) hne
  have hpos : 0 < den.length := List.length_pos_iff.mpr hne
  rw [Nat.div_lt_iff_lt_mul (cd.pos (by omega) hne)]
  have h3 : B ^ num.length = B ^ (num.length - den.length + 1) * B ^ (den.length - 1) := by
    rw [← pow_add]; congr 1; omega
  calc val B num < B ^ num.length := val_lt hdn
    _ = B ^ (num.length - den.length + 1) * B ^ (den.length - 1) := h3
    _ ≤ _ := Nat.mul_le_mul_left _ h2

theorem rep_singleton {r : Nat} (h : r < B) (h0 : r ≠ 0) : Rep B [r] r :=
  ⟨by simp [h], by simpa [canon_singleton] using h0, by simp⟩

theorem rep_nil : Rep B [] 0 := ⟨by simp, canon_nil, rfl⟩

theorem rep_pair {a c : Nat} (ha : a < B) (hc : c < B) (h0 : c ≠ 0) : Rep B [a, c] (a + B * c) :=
  ⟨by simp [ha, hc], by simpa [canon_cons_cons, canon_singleton] using h0, by simp⟩

/-- The conditions under which a division is right: no overflow when the divisor is scaled, and no
tie for digits that cannot handle one. -/
structure DivGood (D : DigitOps) (B X nnum : Nat) (den : List Nat) : Prop where
  fit : 2 ≤ den.length → ∀ s d, den.getLast? = some d → d * 2 ^ s < B → B ≤ d * 2 ^ (s + 1) →
    val B den * 2 ^ s < B ^ den.length
  short : 2 ≤ den.length → den.length < 20 → TieLaw D B ∨
    ∀ s d, den.getLast? = some d → d * 2 ^ s < B → B ≤ d * 2 ^ (s + 1) →
    ∀ i, i < nnum - den.length → (X * 2 ^ s / B ^ (i + 1)) % (val B den * 2 ^ s) / B ^ (den.length - 1)
      < val B den * 2 ^ s / B ^ (den.length - 1)
  long : 20 ≤ den.length → TieLaw D B ∨
    ∀ s d, den.getLast? = some d → d * 2 ^ s < B → B ≤ d * 2 ^ (s + 1) →
      BlocksTieFree B X nnum (val B den) den.length s

set_option maxHeartbeats 1000000 in
theorem divBig_spec (L : Lawful D B) {num den : List Nat}
    (hdn : Digs B num) (hdd : Digs B den) (cn : Canon num) (cd : Canon den) (hne : den ≠ [])
    (hlen : den.length ≤ num.length) (H : DivGood D B (val B num) num.length den) :
    Sp (fun p => bzFail p ∧ 20 ≤ den.length ∧ ¬ SafeDiv B (val B num) num.length den)
      (divBig D dbg num den (List.replicate (num.length - den.length + 1) 0))
      (fun r => ∃ nq nr, r.2.2 = .ok (nq, nr) ∧ DivRes B (val B num) (val B den) num
        (List.replicate (num.length - den.length + 1) 0) r.1 r.2.1 nq nr ∧
        (20 ≤ den.length → val B den ≤ val B num → SafeDiv B (val B num) num.length den)) := by
  have hB0 := L.pos
  have hBb := L.base
  have hpos : 0 < den.length := List.length_pos_iff.mpr hne
  have hY := cd.pos hB0 hne
  unfold divBig divBigWithWork divBigWithWorkGen
  simp only []
  obtain ⟨quot, hquot⟩ : ∃ q, List.replicate (num.length - den.length + 1) 0 = q := ⟨_, rfl⟩
  have hql : quot.length = num.length - den.length + 1 := by rw [← hquot]; simp
  rw [hquot, if_neg hne, ltBig_dec (ltBig_canon hB0 hdn hdd cn cd)]
  by_cases hc : val B num < val B den
  · rw [if_pos (by simpa using hc)]
    refine Sp.bind_eq (a := (num, quot, _, .ok (0, num.length))) rfl (Sp.pure ?_)
    refine ⟨0, num.length, rfl, ⟨rfl, le_refl _, ?_, rfl, Nat.zero_le _, ?_⟩, fun _ h => by omega⟩
    · rw [List.take_length, Nat.mod_eq_of_lt hc]; exact ⟨hdn, cn, rfl⟩
    · rw [Nat.div_eq_of_lt hc]; simpa using rep_nil
  have hge : val B den ≤ val B num := by omega
  rw [if_neg (by simpa using hc), if_neg (by omega)]
  simp only [pure_bind, Bool.false_eq_true, if_false]
  have hqlen : ∀ q, Rep B q (val B num / val B den) → q.length ≤ quot.length := by
    intro q hq
    rw [hql]; exact quot_length (by omega) hdn cd hne hlen hq
  have hfill : ∃ m, num.length = m + 1 ∧ fillWith 0 num = List.replicate (m + 1) 0 := by
    refine ⟨num.length - 1, by omega, ?_⟩
    unfold fillWith
    rw [show num.length - 1 + 1 = num.length by omega]
  obtain ⟨m, hm1, hm2⟩ := hfill
  have hdebug : ∀ {c : Bool}, c = true → debugAssertR dbg c = .ok () := by
    intro c h; simp [debugAssertR, h]
  by_cases h1 : den.length = 1
  · -- one digit
    rw [if_pos h1]
    obtain ⟨d, rfl⟩ : ∃ d, den = [d] := List.length_eq_one_iff.mp h1
    have hd0 : d ≠ 0 := canon_singleton.mp cd
    have hdB : d < B := hdd d (by simp)
    obtain ⟨r, nd, rem, a1, a2, a3, a4, a5, a6, a7, a8⟩ :=
      divAssignDigit_spec L num d hdn (by omega) hdB
    have hv : val B [d] = d := by simp
    rw [hv] at hqlen ⊢
    have hmod : val B num % d = rem := by
      rw [← a5, Nat.mul_comm, Nat.mul_add_mod, Nat.mod_eq_of_lt a4]
    have hdiv : val B num / d = val B r := by
      rw [← a5, Nat.mul_comm, Nat.mul_add_div (by omega), Nat.div_eq_of_lt a4]; simp
    have hrep : Rep B (r.take nd) (val B num / d) :=
      ⟨a3.take _, a8, by rw [val_take_zeros a7, hdiv]⟩
    have htl : (r.take nd).length = nd := by simp; omega
    have hnq := hqlen _ hrep
    rw [htl] at hnq
    have hcq : copyInto quot 0 nd (r.take nd) = .ok (r.take nd ++ quot.drop nd) := by
      have := copyInto_front (l := quot) (src := r.take nd) (by omega)
      rwa [htl] at this
    have hq' : (r.take nd ++ quot.drop nd).length = quot.length := by simp; omega
    have hqr : Rep B ((r.take nd ++ quot.drop nd).take nd) (val B num / d) := by
      rw [List.take_left' htl]; exact hrep
    have hfr : fillWith 0 r = List.replicate (m + 1) 0 := by
      unfold fillWith; rw [a2, hm1]
    have hg : getR [d] 0 = .ok d := rfl
    rw [hg, ok_bind, a1, ok_bind]
    simp only []
    rw [if_neg (by omega), slice_take (by omega), ok_bind, hcq, ok_bind, hfr]
    by_cases hr : rem = 0
    · rw [if_pos hr]
      refine Sp.bind_eq (a := (List.replicate (m + 1) 0, r.take nd ++ quot.drop nd, _,
        .ok (nd, 0))) rfl (Sp.pure ?_)
      refine ⟨nd, 0, rfl, ⟨by simp; omega, Nat.zero_le _, ?_, hq', hnq, hqr⟩, fun h => by simp at h⟩
      rw [hmod, hr]; simpa using rep_nil
    · rw [if_neg hr, setR_ok (by simp), ok_bind]
      refine Sp.bind_eq (a := ((List.replicate (m + 1) 0).set 0 rem, r.take nd ++ quot.drop nd, _,
        .ok (nd, 1))) rfl (Sp.pure ?_)
      refine ⟨nd, 1, rfl, ⟨by simp; omega, by omega, ?_, hq', hnq, hqr⟩, fun h => by simp at h⟩
      rw [hmod, List.replicate_succ]
      simpa using rep_singleton (lt_trans a4 hdB) hr
  rw [if_neg h1]
  by_cases h2 : den.length = 2
  · -- two digits
    rw [if_pos h2]
    obtain ⟨yl, yh, rfl⟩ : ∃ yl yh, den = [yl, yh] := by
      match den, h2 with
      | [a, b], _ => exact ⟨a, b, rfl⟩
    have hy0 : yh ≠ 0 := by simpa [canon_cons_cons, canon_singleton] using cd
    simp only [digs_cons, digs_nil, and_true] at hdd
    obtain ⟨r, nd, a, c, a1, a2, a3, b1, b2, b3, b4, a6, a7, a8⟩ :=
      divAssignDigitPair_spec L num hdn (by omega) hdd.1 hdd.2 (by omega) ⟨H.fit (by omega), H.short (by omega) (by simp)⟩
    have hv : val B [yl, yh] = yl + B * yh := by simp
    rw [hv] at hqlen ⊢
    have hrep : Rep B (r.take nd) (val B num / (yl + B * yh)) :=
      ⟨a3.take _, a8, by rw [val_take_zeros a7, b3]⟩
    have htl : (r.take nd).length = nd := by simp; omega
    have hnq := hqlen _ hrep
    rw [htl] at hnq
    have hcq : copyInto quot 0 nd (r.take nd) = .ok (r.take nd ++ quot.drop nd) := by
      have := copyInto_front (l := quot) (src := r.take nd) (by omega)
      rwa [htl] at this
    have hq' : (r.take nd ++ quot.drop nd).length = quot.length := by simp; omega
    have hqr : Rep B ((r.take nd ++ quot.drop nd).take nd) (val B num / (yl + B * yh)) := by
      rw [List.take_left' htl]; exact hrep
    obtain ⟨m', rfl⟩ : ∃ m', m = m' + 1 := ⟨m - 1, by simp at hlen; omega⟩
    have hfr : fillWith 0 r = List.replicate (m' + 1 + 1) 0 := by
      unfold fillWith; rw [a2, hm1]
    have hg0 : getR [yl, yh] 0 = .ok yl := rfl
    have hg1 : getR [yl, yh] 1 = .ok yh := rfl
    rw [hg0, ok_bind, hg1, ok_bind, a1, ok_bind]
    simp only []
    rw [if_neg (by omega), slice_take (by omega), ok_bind, hcq, ok_bind, hfr]
    by_cases hc0 : c = 0
    · rw [if_pos hc0]
      subst hc0
      rw [Nat.mul_zero, Nat.add_zero] at b4
      by_cases ha0 : a = 0
      · rw [if_pos ha0]
        refine Sp.bind_eq (a := (List.replicate (m' + 1 + 1) 0, r.take nd ++ quot.drop nd, _,
          .ok (nd, 0))) rfl (Sp.pure ?_)
        refine ⟨nd, 0, rfl, ⟨by simp; omega, Nat.zero_le _, ?_, hq', hnq, hqr⟩, fun h => by simp at h⟩
        rw [← b4, ha0]; simpa using rep_nil
      · rw [if_neg ha0, setR_ok (by simp), ok_bind]
        refine Sp.bind_eq (a := ((List.replicate (m' + 1 + 1) 0).set 0 a,
          r.take nd ++ quot.drop nd, _, .ok (nd, 1))) rfl (Sp.pure ?_)
        refine ⟨nd, 1, rfl, ⟨by simp; omega, by omega, ?_, hq', hnq, hqr⟩, fun h => by simp at h⟩
        rw [← b4, List.replicate_succ]
        simpa using rep_singleton b1 ha0
    · rw [if_neg hc0, setR_ok (by simp), ok_bind, setR_ok (by simp), ok_bind]
      refine Sp.bind_eq (a := (((List.replicate (m' + 1 + 1) 0).set 0 a).set 1 c,
        r.take nd ++ quot.drop nd, _, .ok (nd, 2))) rfl (Sp.pure ?_)
      refine ⟨nd, 2, rfl, ⟨by simp; omega, by omega, ?_, hq', hnq, hqr⟩, fun h => by simp at h⟩
      rw [← b4, List.replicate_succ, List.replicate_succ]
      simpa using rep_pair b1 b2 hc0
  rw [if_neg h2]
  have hfit := H.fit (by omega)
  simp only [show ¬ den.length ≤ 2 by omega, decide_false, Bool.false_or, hc, Bool.false_eq_true,
    if_false]
  by_cases h20 : den.length < 20
  · -- schoolbook
    have h20' : den.length < bzCutoff := h20
    rw [if_pos h20', if_pos h20', hdebug (decide_eq_true (by
      unfold divLongWorkSize; rw [List.length_replicate]; exact h20)), ok_bind]
    have := divBigLong_spec (dbg := dbg) L (num := num) (den := den) (quot := quot)
      (work := List.replicate bzCutoff 0) hdn hdd cd (by omega) hlen (Or.inl (by omega))
      (by rw [List.length_replicate]; exact h20) ⟨hfit, H.short (by omega) h20⟩
    rw [bind_assoc]
    refine Sp.bind (this.weaken (fun p hp => by omega)) ?_
    rintro ⟨num', quot', work', nq, nr⟩ ⟨hO, -, -⟩
    refine Sp.bind_eq (a := (num', quot', work', .ok (nq, nr))) rfl (Sp.pure ?_)
    exact ⟨nq, nr, rfl, hO.res, fun h => by omega⟩
  · -- Burnikel-Ziegler
    have h20' : ¬ den.length < bzCutoff := h20
    rw [if_neg h20', if_neg h20', hdebug (decide_eq_true (by simp)), ok_bind]
    have := divBigBz_spec (dbg := dbg) L (num := num) (den := den) (quot := quot)
      (work := List.replicate (divBzWorkSize den.length) 0) hdn hdd cn cd (by omega) hge (by omega)
      (digs_replicate hB0) (by simp) hfit (H.long (by omega))
    rw [bind_assoc]
    refine Sp.bind (this.weaken (fun p hp => ⟨hp.1, by omega, hp.2⟩)) ?_
    rintro ⟨num', quot', work', nq, nr⟩ ⟨hO, hI⟩
    refine Sp.bind_eq (a := (num', quot', work', .ok (nq, nr))) rfl (Sp.pure ?_)
    exact ⟨nq, nr, rfl, hO, fun _ _ => hI⟩

theorem ubigNew_rep {x : List Nat} {m : Nat} (h : Rep B x m) : ubigNew x = .ok x := by
  obtain ⟨z, h1, h2, -⟩ := normalise_rep h.digs
  rw [h.val_eq] at h2
  unfold ubigNew
  rw [h1, h2.unique h]

/-- `div_assign_big`. -/
theorem divAssignBig_spec (L : Lawful D B) {x y : List Nat} {m n : Nat} (hx : Rep B x m)
    (hy : Rep B y n) (hn : n ≠ 0) (H : y.length ≤ x.length → DivGood D B m x.length y) :
    Sp (fun p => bzFail p ∧ 20 ≤ y.length ∧ ¬ SafeDiv B m x.length y)
      (divAssignBig D dbg x y)
      (fun r => (Rep B r.1 (m / n) ∧ ∃ rem, r.2 = .ok rem ∧ Rep B rem (m % n)) ∧
        (20 ≤ y.length → n ≤ m → SafeDiv B m x.length y)) := by
  have hB0 := L.pos
  have hne : y ≠ [] := by rintro rfl; have := hy.val_eq; simp at this; omega
  unfold divAssignBig
  simp only []
  by_cases hl : x.length < y.length
  · rw [if_pos hl, ubigNew_rep hx, ok_bind]
    have hlt : m < n := by
      rw [← hx.val_eq, ← hy.val_eq]
      have h1 := val_lt hx.digs
      have h2 := hy.canon.ge hB0 hne
      have h3 : B ^ x.length ≤ B ^ (y.length - 1) := Nat.pow_le_pow_right hB0 (by omega)
      omega
    refine Sp.pure ⟨⟨?_, x, rfl, ?_⟩, fun _ h => by omega⟩
    · rw [Nat.div_eq_of_lt hlt]; exact rep_nil
    · rw [Nat.mod_eq_of_lt hlt]; exact hx
  · rw [if_neg hl]
    have := divBig_spec (dbg := dbg) L hx.digs hy.digs hx.canon hy.canon hne (by omega)
      (by rw [hx.val_eq]; exact H (by omega))
    rw [hx.val_eq, hy.val_eq] at this
    refine Sp.bind this ?_
    rintro ⟨num', quot', res⟩ ⟨nq, nr, h1, h2, h3⟩
    simp only at h1 h2 ⊢
    subst h1
    simp only []
    rw [ubigNew_rep h2.rrep, ok_bind]
    exact Sp.pure ⟨⟨h2.qrep, _, rfl, h2.rrep⟩, h3⟩

/-- `rem_assign_big`. -/
theorem remAssignBig_spec (L : Lawful D B) {x y : List Nat} {m n : Nat} (hx : Rep B x m)
    (hy : Rep B y n) (hn : n ≠ 0) (H : y.length ≤ x.length → DivGood D B m x.length y) :
    Sp (fun p => bzFail p ∧ 20 ≤ y.length ∧ ¬ SafeDiv B m x.length y)
      (remAssignBig D dbg x y)
      (fun r => (Rep B r.1 (m % n) ∧ r.2 = .ok ()) ∧
        (20 ≤ y.length → n ≤ m → SafeDiv B m x.length y)) := by
  have hB0 := L.pos
  have hne : y ≠ [] := by rintro rfl; have := hy.val_eq; simp at this; omega
  unfold remAssignBig
  simp only []
  by_cases hl : x.length < y.length
  · rw [if_neg (by omega)]
    have hlt : m < n := by
      rw [← hx.val_eq, ← hy.val_eq]
      have h1 := val_lt hx.digs
      have h2 := hy.canon.ge hB0 hne
      have h3 : B ^ x.length ≤ B ^ (y.length - 1) := Nat.pow_le_pow_right hB0 (by omega)
      omega
    refine Sp.pure ⟨⟨?_, rfl⟩, fun _ h => by omega⟩
    rw [Nat.mod_eq_of_lt hlt]; exact hx
  · rw [if_pos (by omega)]
    have := divBig_spec (dbg := dbg) L hx.digs hy.digs hx.canon hy.canon hne (by omega)
      (by rw [hx.val_eq]; exact H (by omega))
    rw [hx.val_eq, hy.val_eq] at this
    refine Sp.bind this ?_
    rintro ⟨num', quot', res⟩ ⟨nq, nr, h1, h2, h3⟩
    simp only at h1 h2 ⊢
    subst h1
    exact Sp.pure ⟨⟨h2.rrep, rfl⟩, h3⟩

theorem divOp_spec (L : Lawful D B) {x y : List Nat} {m n : Nat} (hx : Rep B x m)
    (hy : Rep B y n) (hn : n ≠ 0) (H : y.length ≤ x.length → DivGood D B m x.length y) :
    Sp (fun p => bzFail p ∧ 20 ≤ y.length ∧ ¬ SafeDiv B m x.length y)
      (divOp D dbg x y) (fun r => Rep B r (m / n) ∧
        (20 ≤ y.length → n ≤ m → SafeDiv B m x.length y)) := by
  unfold divOp
  refine Sp.bind (divAssignBig_spec L hx hy hn H) ?_
  rintro ⟨q, res⟩ ⟨⟨h1, rem, h2, -⟩, h3⟩
  simp only at h1 h2
  subst h2
  exact Sp.pure ⟨h1, h3⟩

theorem remOp_spec (L : Lawful D B) {x y : List Nat} {m n : Nat} (hx : Rep B x m)
    (hy : Rep B y n) (hn : n ≠ 0) (H : y.length ≤ x.length → DivGood D B m x.length y) :
    Sp (fun p => bzFail p ∧ 20 ≤ y.length ∧ ¬ SafeDiv B m x.length y)
      (remOp D dbg x y) (fun r => Rep B r (m % n) ∧
        (20 ≤ y.length → n ≤ m → SafeDiv B m x.length y)) := by
  unfold remOp
  refine Sp.bind (remAssignBig_spec L hx hy hn H) ?_
  rintro ⟨q, res⟩ ⟨⟨h1, h2⟩, h3⟩
  simp only at h1 h2
  subst h2
  exact Sp.pure ⟨h1, h3⟩

end Babs
