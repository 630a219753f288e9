import Verif.Proofs.Buf
import Verif.Proofs.WorkSize

/-!
# Helper lemmas: Karatsuba multiplication and squaring
-/

namespace Babs

variable {D : DigitOps} {B : Nat}

/-! ## The middle coefficient -/

/-- A number that is small enough to be added at an offset has few enough digits. -/
theorem length_bound {z : List Nat} {s M k : Nat} (hB : 2 ≤ B) (hc : Canon z)
    (hz : val B z ≤ M) (hM : B ^ s * M < B ^ k) (hs : s ≤ k) : s + z.length ≤ k := by
  by_cases hne : z = []
  · subst hne; simpa using hs
  · have h1 := hc.ge (b := B) (by omega) hne
    have h2 : B ^ (s + (z.length - 1)) < B ^ k := by
      rw [pow_add]
      exact lt_of_le_of_lt (Nat.mul_le_mul_left _ (le_trans h1 hz)) hM
    have h3 := (Nat.pow_lt_pow_iff_right (by omega : 1 < B)).mp h2
    have := List.length_pos_iff.mpr hne
    omega

theorem incIf_spec (L : Lawful D B) {c : Bool} {u t : List Nat} {off : Nat} (hu : Digs B u)
    (ht : Digs B t) (hoff : off ≤ u.length) (hv : val B u + B ^ off * c.toNat < B ^ u.length) :
    ∃ u', incIf D c (u ++ t) off = .ok (u' ++ t) ∧ u'.length = u.length ∧ Digs B u' ∧
      val B u' = val B u + B ^ off * c.toNat := by
  unfold incIf
  cases c with
  | false => exact ⟨u, rfl, rfl, hu, by simp⟩
  | true =>
    obtain ⟨u', e1, e2, e3, e4⟩ := inc_front L hu ht hoff (by simpa using hv)
    exact ⟨u', by rw [if_pos rfl, e1]; rfl, e2, e3, by simpa using e4⟩

/-- After the computation of the middle coefficient `M`: the number in `z1` together with the
carries added to the result is `M`, and it can be added to the result. -/
structure MidPost (B s M : Nat) (u t z1 : List Nat) (res : List Nat × List Nat × Nat) : Prop where
  ex : ∃ u', res.1 = u' ++ t ∧ u'.length = u.length ∧ Digs B u' ∧
    val B u' + B ^ s * val B (res.2.1.take res.2.2) = val B u + B ^ s * M
  len : res.2.1.length = z1.length
  digs : Digs B res.2.1
  le : res.2.2 ≤ res.2.1.length
  fits : s + res.2.2 ≤ u.length

theorem karatsubaAdd_spec (L : Lawful D B) {s nz1 Z0 Z1 Z2 : Nat} {z0 z1 z2 u t : List Nat}
    (h0 : Rep B z0 Z0) (h2 : Rep B z2 Z2) (h1 : Buf B z1 nz1 Z1) (hc1 : Canon (z1.take nz1))
    (l0 : z0.length ≤ z1.length) (l2 : z2.length ≤ z1.length) (hu : Digs B u) (ht : Digs B t)
    (hs : s ≤ u.length) (hv : val B u + B ^ s * (Z1 + Z0 + Z2) < B ^ u.length) :
    Tot (karatsubaAdd D s z0 z2 z1 nz1 (u ++ t)) (MidPost B s (Z1 + Z0 + Z2) u t z1) := by
  have hB : 2 ≤ B := by have := L.base; omega
  have hM : B ^ s * (Z1 + Z0 + Z2) < B ^ u.length := by omega
  have b0 := length_bound hB h0.canon (by rw [h0.val_eq]; omega) hM hs
  have b2 := length_bound hB h2.canon (by rw [h2.val_eq]; omega) hM hs
  have b1 := length_bound hB hc1 (by rw [h1.take_val]; omega) hM hs
  rw [h1.take_len] at b1
  have hle := h1.le
  unfold karatsubaAdd
  simp only []
  generalize hnz : max (max nz1 z0.length) z2.length = nz
  obtain ⟨za, c0, v1, e1, e2, e3, e4⟩ := h1.add L h0.digs (k := nz) (by omega) (by omega) (by omega)
  obtain ⟨zb, c2, v2, f1, f2, f3, f4⟩ := e3.add L h2.digs (k := nz) (le_refl _) (by omega)
    (by omega)
  rw [h0.val_eq] at e4
  rw [h2.val_eq] at f4
  have hmul : B ^ s * v2 + B ^ (s + nz) * c0.toNat + B ^ (s + nz) * c2.toNat
      = B ^ s * (Z1 + Z0 + Z2) := by
    have : Z1 + Z0 + Z2 = v2 + B ^ nz * c2.toNat + B ^ nz * c0.toNat := by omega
    rw [this, pow_add]; ring
  obtain ⟨u1, g1, g2, g3, g4⟩ := incIf_spec L (c := c0) hu ht (off := s + nz) (by omega)
    (by omega)
  obtain ⟨u2, k1, k2, k3, k4⟩ := incIf_spec L (c := c2) g3 ht (off := s + nz) (by omega)
    (by rw [g2]; omega)
  rw [e1, ok_bind]
  simp only []
  rw [f1, ok_bind]
  simp only []
  rw [g1, ok_bind, k1, ok_bind]
  refine ⟨⟨u2, rfl, by omega, k3, ?_⟩, by simp only; omega, f3.digs, f3.le, by simp only; omega⟩
  simp only [f3.take_val]
  omega

theorem karatsubaSub_spec {dbg : Bool} (L : Lawful D B) {s nz1 Z0 Z1 Z2 : Nat}
    {z0 z1 z2 u t : List Nat}
    (h0 : Rep B z0 Z0) (h2 : Rep B z2 Z2) (h1 : Buf B z1 nz1 Z1) (hc1 : Canon (z1.take nz1))
    (l0 : z0.length ≤ z1.length) (l2 : z2.length ≤ z1.length) (hu : Digs B u) (ht : Digs B t)
    (hs : s ≤ u.length) (hv : val B u + B ^ s * (Z0 + Z2 - Z1) < B ^ u.length)
    (hz : Z1 ≤ Z0 ∨ Z1 ≤ Z2) :
    Tot (karatsubaSub D dbg s z0 z2 z1 nz1 (u ++ t)) (MidPost B s (Z0 + Z2 - Z1) u t z1) := by
  have hB : 2 ≤ B := by have := L.base; omega
  have hM : B ^ s * (Z0 + Z2 - Z1) < B ^ u.length := by omega
  have hle := h1.le
  have hlt := ltBig_canon L.pos h1.take_digs h0.digs hc1 h0.canon
  rw [h1.take_val, h0.val_eq] at hlt
  unfold karatsubaSub
  rw [slice_take hle, ok_bind]
  by_cases h : Z1 < Z0
  · rw [if_pos (hlt.mpr h)]
    have b1 : nz1 ≤ z0.length := by
      have := hc1.length_le L.pos h0.digs (by rw [h1.take_val, h0.val_eq]; omega)
      rwa [h1.take_len] at this
    obtain ⟨za, res, e1, e2, e3⟩ := h1.rsub L h0.digs (k := z0.length) b1 l0 rfl
    rw [h0.val_eq] at e3
    rcases e3 with ⟨a1, -⟩ | ⟨a1, nd, rfl, a3, a4, a5⟩
    · omega
    have b2 := length_bound hB h2.canon (by rw [h2.val_eq]; omega) hM hs
    have b3 := length_bound hB a5 (by rw [a4.take_val]; omega) hM hs
    rw [a4.take_len] at b3
    rw [e1, ok_bind]
    simp only [unwrapR, ok_bind]
    generalize hnz : max nd z2.length = nz
    obtain ⟨zb, c2, v2, f1, f2, f3, f4⟩ := a4.add L h2.digs (k := nz) (by omega) (by omega)
      (by omega)
    rw [h2.val_eq] at f4
    have hmul : B ^ s * v2 + B ^ (s + nz) * c2.toNat = B ^ s * (Z0 + Z2 - Z1) := by
      have : Z0 + Z2 - Z1 = v2 + B ^ nz * c2.toNat := by omega
      rw [this, pow_add]; ring
    obtain ⟨u2, k1, k2, k3, k4⟩ := incIf_spec L (c := c2) hu ht (off := s + nz) (by omega)
      (by omega)
    rw [f1, ok_bind]
    simp only []
    rw [k1, ok_bind]
    refine ⟨⟨u2, rfl, by omega, k3, ?_⟩, by simp only; omega, f3.digs, f3.le, by simp only; omega⟩
    simp only [f3.take_val]
    omega
  · rw [if_neg (mt hlt.mp h)]
    have b1 : z0.length ≤ nz1 := by
      have := h0.canon.length_le L.pos h1.take_digs (by rw [h1.take_val, h0.val_eq]; omega)
      rwa [h1.take_len] at this
    obtain ⟨za, res, e1, e2, e3⟩ := h1.sub L h0.digs (k := nz1) (le_refl _) hle b1
    rw [h0.val_eq] at e3
    rcases e3 with ⟨a1, -⟩ | ⟨a1, nd, rfl, a3, a4, a5⟩
    · omega
    have b2 : nd ≤ z2.length := by
      rcases hz with hz | hz
      · have : Z1 = Z0 := by omega
        have hlen : nz1 = z0.length := by
          have h4 : z1.take nz1 = z0 := by
            refine Rep.unique (n := Z0) ⟨h1.take_digs, hc1, ?_⟩ h0
            rw [h1.take_val, this]
          rw [← h4, h1.take_len]
        have h5 := (a5 (Or.inl hlen)).val_eq_zero (b := B) L.pos
        rw [a4.take_val] at h5
        have h6 := h5.mp (by omega)
        have h7 := a4.take_len
        rw [h6] at h7
        simp at h7; omega
      · have := hc1.length_le L.pos h2.digs (by rw [h1.take_val, h2.val_eq]; omega)
        rw [h1.take_len] at this
        omega
    rw [e1, ok_bind]
    simp only [unwrapR, ok_bind]
    rw [slice_take a4.le, ok_bind]
    have hd : debugAssertR dbg (!ltBig z2 (za.take nd)) = .ok () := by
      have : ltBig z2 (za.take nd) = false := by
        rcases Nat.lt_or_ge nd z2.length with h3 | h3
        · exact ltBig_longer (by rw [a4.take_len]; exact h3)
        · rw [← Bool.not_eq_true,
            ltBig_same_length h2.digs a4.take_digs (by rw [a4.take_len]; omega), a4.take_val,
            h2.val_eq]
          omega
      simp [debugAssertR, this]
    rw [hd, ok_bind]
    obtain ⟨zb, res, f1, f2, f3⟩ := a4.rsub L h2.digs (k := z2.length) b2 (by omega) rfl
    rw [h2.val_eq] at f3
    rcases f3 with ⟨c1, -⟩ | ⟨c1, nd2, rfl, c3, c4, c5⟩
    · omega
    rw [f1, ok_bind]
    simp only []
    have b3 := length_bound hB c5 (by rw [c4.take_val]; omega) hM hs
    rw [c4.take_len] at b3
    refine ⟨⟨u, rfl, rfl, hu, ?_⟩, by simp only; omega, c4.digs, c4.le, by simp only; omega⟩
    simp only [c4.take_val]
    congr 2; omega

theorem karatsubaFinish_spec (L : Lawful D B) {s : Nat} {u t z : List Nat} (hu : Digs B u)
    (ht : Digs B t) (hz : Digs B z) (hs : s + z.length ≤ u.length)
    (hv : val B u + B ^ s * val B z < B ^ u.length) :
    ∃ u' n, karatsubaFinish D s u.length (u ++ t) z = .ok (u' ++ t, n) ∧ u'.length = u.length ∧
      Digs B u' ∧ val B u' = val B u + B ^ s * val B z ∧ n ≤ u.length ∧
      u' = u'.take n ++ List.replicate (u.length - n) 0 ∧ Canon (u'.take n) := by
  obtain ⟨u', e1, e2, e3, e4⟩ := add_front L hu ht hz hs hv
  obtain ⟨n, f1, f2, f3, f4⟩ := dropLeadingZeros_spec (u' ++ t) u.length (by simp; omega)
  rw [List.take_left' e2, List.take_append_of_le_length (by omega)] at f3
  rw [List.take_append_of_le_length (by omega)] at f4
  refine ⟨u', n, ?_, e2, e3, e4, f2, f3, f4⟩
  unfold karatsubaFinish
  rw [e1, ok_bind]
  simp [assertR, f1]

/-! ## The contract of multiplication with scratch space -/

/-- What `mul_big_into_with_work` does: `v` is the product, `nd` the number of digits of both
operands together. -/
structure MulPost (B nd v : Nat) (product work : List Nat) (res : List Nat × List Nat × Nat) :
    Prop where
  rep : Rep B (res.1.take res.2.2) v
  le : res.2.2 ≤ nd
  len : res.1.length = product.length
  lt_len : res.2.2 ≤ res.1.length
  tail : Tail (product.drop res.2.2) (res.1.drop res.2.2)
  wlen : res.2.1.length = work.length
  wdigs : Digs B res.2.1

theorem MulPost.digs {nd v : Nat} {product work : List Nat} {res : List Nat × List Nat × Nat}
    (hB : 0 < B) (h : MulPost B nd v product work res) (hp : Digs B product) : Digs B res.1 := by
  rw [← List.take_append_drop res.2.2 res.1, digs_append]
  exact ⟨h.rep.digs, h.tail.digs hB (hp.drop _)⟩

/-- A zero product has no digits. -/
theorem MulPost.zero {nd v : Nat} {product work : List Nat} {res : List Nat × List Nat × Nat}
    (hB : 0 < B) (h : MulPost B nd v product work res) (hv : v = 0) : res.2.2 = 0 := by
  have h1 := (h.rep.canon.val_eq_zero (b := B) hB).mp (by rw [h.rep.val_eq, hv])
  have h2 := congrArg List.length h1
  have := h.lt_len
  simp at h2
  rcases h2 with h2 | h2
  · exact h2
  · rw [h2] at this; simpa using this

theorem MulPost.buf {nd v k : Nat} {work : List Nat} {res : List Nat × List Nat × Nat}
    (hB : 0 < B) (h : MulPost B nd v (List.replicate k 0) work res) : Buf B res.1 res.2.2 v := by
  have hd := h.digs hB (digs_replicate hB)
  have ht := h.tail
  rw [List.drop_replicate] at ht
  refine Buf.of_take (k := k - res.2.2) hd h.lt_len h.rep.val_eq ?_
  conv_lhs => rw [← List.take_append_drop res.2.2 res.1, ht.of_zeros]

/-- A product in a buffer that starts with zeros. -/
theorem MulPost.front {nd v k : Nat} {t work : List Nat} {res : List Nat × List Nat × Nat}
    (hB : 0 < B) (h : MulPost B nd v (List.replicate k 0 ++ t) work res) (hk : res.2.2 ≤ k) :
    ∃ u t', res.1 = u ++ t' ∧ u.length = k ∧ Tail t t' ∧ Buf B u res.2.2 v ∧
      res.1.take res.2.2 = u.take res.2.2 := by
  have ht := h.tail
  have hl := h.len
  simp only [List.length_append, List.length_replicate] at hl
  rw [List.drop_append_of_le_length (by simpa using hk), List.drop_replicate] at ht
  have h1 := ht.take (k - res.2.2)
  rw [List.take_left' (by simp)] at h1
  have h2 := ht.drop (k - res.2.2)
  rw [List.drop_left' (by simp), List.drop_drop,
    show res.2.2 + (k - res.2.2) = k by omega] at h2
  have htk : (res.1.take k).take res.2.2 = res.1.take res.2.2 := by
    rw [List.take_take, Nat.min_eq_left hk]
  have hz : res.1.take k = (res.1.take k).take res.2.2 ++ List.replicate (k - res.2.2) 0 := by
    rw [htk, ← h1.of_zeros]
    conv_lhs => rw [show k = res.2.2 + (k - res.2.2) by omega, List.take_add]
  have hd : Digs B (res.1.take k) := by
    rw [hz, htk, digs_append]; exact ⟨h.rep.digs, digs_replicate hB⟩
  refine ⟨res.1.take k, res.1.drop k, (List.take_append_drop _ _).symm, by simp; omega, h2,
    Buf.of_take (k := k - res.2.2) hd (by simp; omega) ?_ hz, htk.symm⟩
  rw [htk, h.rep.val_eq]

/-! ## Karatsuba multiplication -/

/-- Split an operand at `s` digits and drop the leading zeros of the low part. -/
theorem kara_split {x : List Nat} (hx : Digs B x) (s : Nat) :
    ∃ nl l h, splitAtR x (min s x.length) = .ok (x.take (min s x.length), h) ∧
      dropLeadingZeros (x.take (min s x.length)) (x.take (min s x.length)).length = .ok nl ∧
      slice (x.take (min s x.length)) 0 nl = .ok l ∧ l.length = nl ∧
      Digs B l ∧ Digs B h ∧ Canon l ∧ val B x = val B l + B ^ s * val B h ∧
      l.length ≤ min s x.length ∧ h.length = x.length - min s x.length ∧ (Canon x → Canon h) := by
  obtain ⟨nl, e1, e2, e3, e4⟩ := dropLeadingZeros_spec (x.take (min s x.length))
    (x.take (min s x.length)).length (le_refl _)
  rw [List.take_length] at e3
  have hl : (x.take (min s x.length)).length = min s x.length := by simp
  refine ⟨nl, _, _, splitAtR_ok (by omega), e1, slice_take e2, by simp; omega, (hx.take _).take _,
    hx.drop _, e4, ?_, by rw [List.length_take]; omega, by simp, ?_⟩
  · have h1 := val_take_add_drop B x (min s x.length) (by omega)
    rw [← h1, val_take_zeros e3]
    by_cases h : s ≤ x.length
    · rw [Nat.min_eq_left h]
    · rw [Nat.min_eq_right (by omega)]; simp
  · intro hc
    by_cases hne : x.drop (min s x.length) = []
    · rw [hne]; exact canon_nil
    · rw [← List.take_append_drop (min s x.length) x, canon_append_of hne] at hc
      exact hc

/-- The middle coefficient from the product of the differences. -/
theorem mid_value {x0 x1 y0 y1 d0 d1 : ℤ} {s0 s1 : Bool}
    (h0 : d0 = if s0 then x1 - x0 else x0 - x1) (h1 : d1 = if s1 then y1 - y0 else y0 - y1) :
    x0 * y1 + x1 * y0 = if s0 ^^ s1 then d0 * d1 + x0 * y0 + x1 * y1
      else x0 * y0 + x1 * y1 - d0 * d1 := by
  subst h0 h1
  cases s0 <;> cases s1 <;> simp <;> ring

theorem karatsubaMid_spec {dbg : Bool} (L : Lawful D B) {s nz1 x0 x1 y0 y1 d0 d1 : Nat}
    {s0 s1 : Bool} {z0 z1 z2 u t : List Nat}
    (hd0 : (d0 : ℤ) = if s0 then (x1 : ℤ) - x0 else (x0 : ℤ) - x1)
    (hd1 : (d1 : ℤ) = if s1 then (y1 : ℤ) - y0 else (y0 : ℤ) - y1)
    (h0 : Rep B z0 (x0 * y0)) (h2 : Rep B z2 (x1 * y1)) (h1 : Buf B z1 nz1 (d0 * d1))
    (hc1 : Canon (z1.take nz1))
    (l0 : z0.length ≤ z1.length) (l2 : z2.length ≤ z1.length) (hu : Digs B u) (ht : Digs B t)
    (hs : s ≤ u.length) (hv : val B u + B ^ s * (x0 * y1 + x1 * y0) < B ^ u.length) :
    Tot (karatsubaMid D dbg (s0 ^^ s1) s z0 z2 z1 nz1 (u ++ t))
      (MidPost B s (x0 * y1 + x1 * y0) u t z1) := by
  have hm := mid_value hd0 hd1
  unfold karatsubaMid
  by_cases hx : (s0 ^^ s1) = true
  · rw [if_pos hx] at hm ⊢
    have hm' : x0 * y1 + x1 * y0 = d0 * d1 + x0 * y0 + x1 * y1 := by exact_mod_cast hm
    rw [hm'] at hv ⊢
    exact karatsubaAdd_spec L h0 h2 h1 hc1 l0 l2 hu ht hs hv
  · rw [if_neg hx] at hm ⊢
    have hm' : d0 * d1 + (x0 * y1 + x1 * y0) = x0 * y0 + x1 * y1 := by
      have : (d0 : ℤ) * d1 + (x0 * y1 + x1 * y0) = x0 * y0 + x1 * y1 := by rw [hm]; ring
      exact_mod_cast this
    have hm2 : x0 * y1 + x1 * y0 = x0 * y0 + x1 * y1 - d0 * d1 := by omega
    rw [hm2] at hv ⊢
    refine karatsubaSub_spec L h0 h2 h1 hc1 l0 l2 hu ht hs hv ?_
    cases s0 <;> cases s1 <;> simp at hx hd0 hd1
    · left; exact Nat.mul_le_mul (by omega) (by omega)
    · right; exact Nat.mul_le_mul (by omega) (by omega)

/-- The calls that Karatsuba multiplication makes: the operands have at most `s` digits, and one of
them at most `m`.  `T` says that the caller relies on there being no panic. -/
def MulOk (B : Nat) (T : Prop) (s m w : Nat) (mul : MulFn) : Prop :=
  ∀ a b product work : List Nat, Digs B a → Digs B b → Digs B product → Digs B work →
    a.length ≤ s → b.length ≤ s → min a.length b.length ≤ m → (a = [] ∨ b = [] ∨ a.length + b.length ≤ product.length) →
    w ≤ work.length →
    (T → MulP B a b) →
    Sp (fun p => p = .unwrap ∧ ¬ T) (mul a b product work)
      (MulPost B (a.length + b.length) (val B a * val B b) product work)

/-- The last steps of both Karatsuba functions, from the middle coefficient on. -/
theorem kara_end {E : Panic → Prop} (L : Lawful D B) {s M N v : Nat} {u t rest z1 w result work : List Nat}
    {mid : R (List Nat × List Nat × Nat)} (ht : Tail rest t) (hrestd : Digs B rest)
    (hrest : result.drop N = rest) (hN : N ≤ result.length)
    (hul : u.length = N) (hmid : Tot mid (MidPost B s M u t z1))
    (hwd : Digs B w) (hv : v = val B u + B ^ s * M) (hbound : v < B ^ N)
    (hwl : z1.length + w.length = work.length) :
    Sp E (do
      let (result, z1, nz1) ← mid
      let (result, n) ← karatsubaFinish D s N result (← slice z1 0 nz1)
      return (result, z1 ++ w, n)) (MulPost B N v result work) := by
  have htd : Digs B t := ht.digs L.pos hrestd
  subst hrest
  refine Sp.bind hmid.sp ?_
  rintro ⟨res, z1', nz1'⟩ hp
  obtain ⟨u', r1, r2, r3, r4⟩ := hp.ex
  have r5 := hp.len
  have r6 := hp.digs
  have r7 := hp.le
  have r8 := hp.fits
  simp only [] at r1 r4 r5 r6 r7 r8 ⊢
  rw [r1, slice_take r7, ok_bind]
  obtain ⟨uf, n, v1, v2, v3, v4, v5, v6, v7⟩ := karatsubaFinish_spec L r3 htd (r6.take nz1')
    (s := s) (by simp; omega) (by rw [r4, r2, hul]; omega)
  rw [r2, hul] at v1 v5 v6
  rw [v1, ok_bind]
  have huf : uf.length = N := by omega
  have htl := ht.length
  simp only [List.length_drop] at htl
  refine ⟨⟨?_, ?_, ?_⟩, by simp only []; omega, ?_, ?_, ?_, ?_, ?_⟩
  · simp only []
    rw [List.take_append_of_le_length (by omega)]
    exact v3.take _
  · simp only []
    rw [List.take_append_of_le_length (by omega)]
    exact v7
  · simp only []
    rw [List.take_append_of_le_length (by omega), val_take_zeros v6, v4, r4, hv]
  · simp only [List.length_append]; omega
  · simp only [List.length_append]; omega
  · simp only []
    rw [List.drop_append_of_le_length (by omega)]
    have hd : uf.drop n = List.replicate (N - n) 0 := by
      conv_lhs => rw [v6, List.drop_left' (by simp; omega)]
    rw [hd]
    exact ht.front v5 hN
  · simp only [List.length_append]; omega
  · simp [r6, hwd]

/-- One call: with enough space in the buffers, `f` computes the product `v`. -/
def CallOk (B : Nat) (T : Prop) (len wk nd v : Nat)
    (f : List Nat → List Nat → R (List Nat × List Nat × Nat)) : Prop :=
  ∀ product work : List Nat, Digs B product → Digs B work → len ≤ product.length →
    wk ≤ work.length → Sp (fun p => p = .unwrap ∧ ¬ T) (f product work)
      (MulPost B nd v product work)

/-- The products of the low and of the high parts (calls `f0` and `f2`), and what follows. -/
theorem kara_products {dbg : Bool} (L : Lawful D B) {T : Prop}
    {f0 f2 : List Nat → List Nat → R (List Nat × List Nat × Nat)} {s k nz1 wk X Y x0 x1 y0 y1 : Nat}
    {nd0 nd2 d0 d1 : Nat} {s0 s1 : Bool} {rest z1 w1 result work : List Nat}
    (p8 : X = x0 + B ^ s * x1) (q8 : Y = y0 + B ^ s * y1)
    (_hnd0 : nd0 ≤ 2 * s) (hnd2 : nd2 ≤ 2 * s) (hh : x1 * y1 = 0 ∨ nd2 ≤ k)
    (a5 : (d0 : ℤ) = if s0 then (x1 : ℤ) - x0 else (x0 : ℤ) - x1)
    (b5 : (d1 : ℤ) = if s1 then (y1 : ℤ) - y0 else (y0 : ℤ) - y1)
    (m1b : Buf B z1 nz1 (d0 * d1)) (m1c : Canon (z1.take nz1)) (m1l : z1.length = 2 * s)
    (w1d : Digs B w1) (w1l : wk ≤ w1.length) (hwl : z1.length + w1.length = work.length)
    (hrestd : Digs B rest) (hrest : result.drop (2 * s + k) = rest)
    (hN : 2 * s + k ≤ result.length) (hbound : X * Y < B ^ (2 * s + k))
    (hf0 : CallOk B T (2 * s) wk nd0 (x0 * y0) f0) (hf2 : CallOk B T k wk nd2 (x1 * y1) f2) :
    Sp (fun p => p = .unwrap ∧ ¬ T) (do
      let (z0, z2) ← splitAtR (List.replicate (2 * s + k) 0 ++ rest) (2 * s)
      let (z0, newWork, nz0) ← f0 z0 w1
      let (z2, newWork, nz2) ← f2 z2 newWork
      let (result, z1, nz1) ← karatsubaMid D dbg (s0 ^^ s1) s (← slice z0 0 nz0)
        (← slice z2 0 nz2) z1 nz1 (z0 ++ z2)
      let (result, n) ← karatsubaFinish D s (2 * s + k) result (← slice z1 0 nz1)
      return (result, z1 ++ newWork, n)) (MulPost B (2 * s + k) (X * Y) result work) := by
  have hB := L.pos
  rw [← List.replicate_append_replicate, List.append_assoc, splitAtR_append (by simp), ok_bind]
  simp only []
  refine Sp.bind (hf0 _ _ (digs_replicate hB) w1d (by simp) w1l) ?_
  rintro ⟨z0, w2, nz0⟩ m2
  have m2b := m2.buf hB
  have m2l := m2.len
  have m2w := m2.wlen
  simp only [List.length_replicate] at m2b m2l m2w ⊢
  refine Sp.bind (hf2 (List.replicate k 0 ++ rest) w2
    (by simp [digs_replicate hB, hrestd]) m2.wdigs (by simp) (by omega)) ?_
  rintro ⟨z2, w3, nz2⟩ m3
  have m3w := m3.wlen
  have hnz2 : nz2 ≤ k := by
    rcases hh with h | h
    · have := m3.zero hB h
      simp only [] at this; omega
    · have := m3.le
      simp only [] at this; omega
  obtain ⟨u2, t', g1, g2, g3, g4, g5⟩ := m3.front hB hnz2
  have m3le := m3.le
  have m3r := m3.rep
  simp only [] at g1 g4 g5 m3w m3le m3r ⊢
  rw [slice_take m2b.le, ok_bind, slice_take (by rw [g1, List.length_append]; omega), ok_bind, g5,
    g1, ← List.append_assoc]
  have hul : (z0 ++ u2).length = 2 * s + k := by rw [List.length_append]; omega
  have hud : Digs B (z0 ++ u2) := by simp [m2b.digs, g4.digs]
  have htd : Digs B t' := g3.digs hB hrestd
  have huv : val B (z0 ++ u2) = x0 * y0 + B ^ (2 * s) * (x1 * y1) := by
    rw [val_append, m2b.val_eq, m2l, g4.val_eq]
  have hprod : X * Y = val B (z0 ++ u2) + B ^ s * (x0 * y1 + x1 * y0) := by
    rw [huv, p8, q8, two_mul, pow_add]; ring
  have m2le := m2.le
  simp only [] at m2le
  have hz2r : Rep B (u2.take nz2) (x1 * y1) := by rw [← g5]; exact m3r
  have hmid := karatsubaMid_spec (dbg := dbg) L (s := s) (z0 := z0.take nz0) (z2 := u2.take nz2)
    (u := z0 ++ u2) (t := t') a5 b5 m2.rep hz2r m1b m1c (by rw [List.length_take]; omega)
    (by rw [List.length_take]; omega) hud htd (by omega) (by rw [hul]; omega)
  exact kara_end L g3 hrestd hrest hN hul hmid m3.wdigs hprod hbound (by omega)

theorem eq_dist {d m n : Nat} {s : Bool}
    (h : (d : ℤ) = if s then (n : ℤ) - m else (m : ℤ) - n) : d = Nat.dist m n := by
  unfold Nat.dist
  cases s <;> simp at h <;> omega

theorem mulKaratsubaInto_spec {dbg : Bool} (L : Lawful D B) {T : Prop} {mul : MulFn}
    {x y result work : List Nat} (hx : Digs B x) (hy : Digs B y) (hr : Digs B result)
    (hw : Digs B work) (hx20 : 20 ≤ x.length) (hy20 : 20 ≤ y.length)
    (hlen : x.length + y.length ≤ result.length)
    (hwork : karatsubaWorkSize (max x.length y.length) ≤ work.length)
    (hmin : min x.length y.length < 128) (hT : T → MulP B x y)
    (hmul : MulOk B T ((max x.length y.length + 1) / 2) (min x.length y.length)
      (karatsubaWorkSize ((max x.length y.length + 1) / 2)) mul) :
    Sp (fun p => p = .unwrap ∧ ¬ T) (mulKaratsubaInto D dbg mul x y result work)
      (MulPost B (x.length + y.length) (val B x * val B y) result work) := by
  have hB := L.pos
  have hkws := karatsubaWorkSize_eq (max x.length y.length)
  rw [if_pos (by omega)] at hkws
  unfold mulKaratsubaInto
  simp only []
  refine Sp.bind_eq (a := ()) (by simp [assertR]; omega) ?_
  refine Sp.bind_eq (a := ()) (by simp [assertR, hwork]) ?_
  generalize hs : (max x.length y.length + 1) / 2 = s at *
  have hx2 : x.length ≤ 2 * s := by omega
  have hy2 : y.length ≤ 2 * s := by omega
  have hs2 : 2 * s ≤ x.length + y.length := by omega
  rw [hkws] at hwork
  clear hkws
  generalize hws : karatsubaWorkSize s = ws at *
  clear hws
  obtain ⟨nl0, low0, high0, p1, p2, p3, p4, p5, p6, p7, p8, p9, p10, p11⟩ := kara_split hx s
  obtain ⟨nl1, low1, high1, q1, q2, q3, q4, q5, q6, q7, q8, q9, q10, q11⟩ := kara_split hy s
  have hl0 : low0.length ≤ s := by omega
  have hl1 : low1.length ≤ s := by omega
  have hT' := fun t => (hT t).kara (by have := L.base; omega) hx hy hx20 hy20 hmin hs p8 q8
    (lt_of_lt_of_le (val_lt p5) (Nat.pow_le_pow_right hB hl0))
    (lt_of_lt_of_le (val_lt q5) (Nat.pow_le_pow_right hB hl1))
  clear hT hs
  have hh0 : high0.length ≤ s := by omega
  have hh1 : high1.length ≤ s := by omega
  have hm0 : max low0.length high0.length ≤ s := by omega
  have hm1 : max low1.length high1.length ≤ s := by omega
  have hm1' : max low1.length high1.length ≤ y.length := by omega
  have hm0' : max low0.length high0.length ≤ x.length := by omega
  have hml : min low0.length low1.length ≤ min x.length y.length := by omega
  have hmh : min high0.length high1.length ≤ min x.length y.length := by omega
  have hsx : s ≤ result.length := by omega
  have hm1'' : s + max low1.length high1.length ≤ x.length + y.length := by omega
  have hh : high0 = [] ∨ high1 = [] ∨ high0.length + high1.length = x.length + y.length - 2 * s := by
    rcases Nat.lt_or_ge s x.length with h | h
    · rcases Nat.lt_or_ge s y.length with h' | h'
      · right; right; omega
      · right; left; exact List.eq_nil_of_length_eq_zero (by omega)
    · left; exact List.eq_nil_of_length_eq_zero (by omega)
  clear p9 p10 q9 q10 p4 q4
  rw [p1, ok_bind]
  simp only []
  rw [p2, ok_bind, q1, ok_bind]
  simp only []
  rw [q2, ok_bind, splitAtR_ok hsx, ok_bind]
  simp only []
  rw [p3, ok_bind]
  have hb0 : max low0.length high0.length ≤ (result.take s).length := by
    rw [List.length_take]; omega
  have hb1 : max low1.length high1.length ≤ (result.drop s).length := by
    rw [List.length_drop]; omega
  refine Sp.bind ((subBigIntoAbsSign_spec L p5 p6 hb0).weaken ?_) ?_
  · rintro p ⟨rfl, hp⟩
    exact ⟨rfl, fun t => hp ⟨p7, p11 (hT' t).1⟩⟩
  rintro ⟨diff0, sign0, nd0⟩ hd0
  simp only []
  rw [q3, ok_bind]
  refine Sp.bind ((subBigIntoAbsSign_spec L q5 q6 hb1).weaken ?_) ?_
  · rintro p ⟨rfl, hp⟩
    exact ⟨rfl, fun t => hp ⟨q7, q11 (hT' t).2.1⟩⟩
  rintro ⟨diff1, sign1, nd1⟩ hd1
  simp only []
  have a1 : diff0.length = s := by rw [hd0.len, List.length_take]; omega
  have b1 : diff1.length = result.length - s := by rw [hd1.len, List.length_drop]
  have a3 : nd0 ≤ s := le_trans hd0.le hm0
  have a3' : nd0 ≤ x.length := le_trans hd0.le hm0'
  have b3' : nd1 ≤ y.length := le_trans hd1.le hm1'
  have b3 : nd1 ≤ s := le_trans hd1.le hm1
  have b4 : nd1 ≤ diff1.length := by rw [hd1.len]; exact hd1.le_buf
  have hd0d : Digs B diff0 := hd0.digs (hr.take _)
  have hd1d : Digs B diff1 := hd1.digs (hr.drop _)
  have hln0 : (diff0.take nd0).length = nd0 := by rw [List.length_take]; omega
  have hln1 : (diff1.take nd1).length = nd1 := by rw [List.length_take]; omega
  -- the result buffer: zeros and the untouched rest
  have hrest : (diff0 ++ diff1).drop (x.length + y.length) = result.drop (x.length + y.length) := by
    have h1 := hd1.drop hb1 (k := x.length + y.length - s) (by omega)
    rw [show x.length + y.length = diff0.length + (x.length + y.length - s) by omega,
      ← List.drop_drop, List.drop_left' rfl]
    simp only [] at h1
    rw [h1, List.drop_drop, a1]
  clear hm0 hm1 hm1' hm0' hm1'' hb0 hb1
  rw [splitAtR_ok (by omega), ok_bind]
  simp only []
  rw [slice_take (by omega), ok_bind, slice_take b4, ok_bind]
  have hfill : fillWith 0 (work.take (2 * s)) = List.replicate (2 * s) 0 := by
    simp only [fillWith, List.length_take]
    congr 1; omega
  rw [hfill]
  refine Sp.bind (hmul _ _ _ _ (hd0d.take nd0) (hd1d.take nd1) (digs_replicate hB) (hw.drop _)
    (by omega) (by omega) (by rw [hln0, hln1]; omega) (Or.inr (Or.inr (by rw [List.length_replicate]; omega)))
    (by rw [List.length_drop]; omega) ?_) ?_
  · intro t
    obtain ⟨t1, t2, t3, t4, d, -, t5, -⟩ := hT' t
    have e0 := eq_dist hd0.val_eq
    have e1 := eq_dist hd1.val_eq
    simp only [] at e0 e1
    rcases hd0.canon p7 (p11 t1) 20 t3 with h | h
    · left; left; rw [hln0]; exact h
    rcases hd1.canon q7 (q11 t2) 20 t4 with h' | h'
    · left; right; rw [hln1]; exact h'
    exact Or.inr ⟨h, h', d, by rw [e0, e1]; exact t5⟩
  rintro ⟨z1, w1, nz1⟩ m1
  have m1b := m1.buf hB
  have m1l := m1.len
  have m1w := m1.wlen
  have m1d : Digs B w1 := m1.wdigs
  simp only [List.length_replicate, List.length_drop] at m1b m1l m1w ⊢
  rw [onSlice_fill (by rw [List.length_append]; omega), ok_bind]
  simp only []
  rw [hrest]
  have hrestd : Digs B (result.drop (x.length + y.length)) := hr.drop _
  clear hrest
  generalize hrest : result.drop (x.length + y.length) = rest at *
  obtain ⟨k, hk⟩ : ∃ k, x.length + y.length = 2 * s + k := ⟨x.length + y.length - 2 * s, by omega⟩
  have hbound : val B x * val B y < B ^ (2 * s + k) := by
    rw [← hk, pow_add]
    exact Nat.mul_lt_mul'' (val_lt hx) (val_lt hy)
  rw [hk] at hrest hlen hh ⊢
  rw [Nat.add_sub_cancel_left] at hh
  simp only [ok_bind]
  refine kara_products (work := work) (s0 := sign0) (s1 := sign1) (wk := ws)
    (nd0 := low0.length + low1.length) (nd2 := high0.length + high1.length) L p8 q8
    (by omega) (by omega) ?_ hd0.val_eq hd1.val_eq m1b m1.rep.canon
    m1l m1d (by omega) (by omega) hrestd hrest hlen hbound ?_ ?_
  · rcases hh with h | h | h
    · left; rw [h]; simp
    · left; rw [h]; simp
    · right; omega
  · intro p w hp hw hlp hlw
    exact hmul _ _ _ _ p5 q5 hp hw hl0 hl1 hml (Or.inr (Or.inr (by omega))) hlw
      (fun t => by
        obtain ⟨-, -, -, -, d, t5, -, -⟩ := hT' t
        exact Or.inr ⟨p7, q7, d, t5⟩)
  · intro p w hp hw hlp hlw
    refine hmul _ _ _ _ p6 q6 hp hw hh0 hh1 hmh ?_ hlw
      (fun t => by
        obtain ⟨t1, t2, -, -, d, -, -, t5⟩ := hT' t
        exact Or.inr ⟨p11 t1, q11 t2, d, t5⟩)
    rcases hh with h | h | h
    · exact Or.inl h
    · exact Or.inr (Or.inl h)
    · right; right; omega

/-! ## Karatsuba squaring -/

/-- The contract of `square_into_with_work` for numbers of at most `s` digits. -/
def SquareOk (B : Nat) (T : Prop) (s w : Nat) (square : SquareFn) : Prop :=
  ∀ a product work : List Nat, Digs B a → Digs B product → Digs B work →
    a.length ≤ s → 2 * a.length ≤ product.length → w ≤ work.length →
    (T → MulP B a a) →
    Sp (fun p => p = .unwrap ∧ ¬ T) (square a product work)
      (MulPost B (2 * a.length) (val B a * val B a) product work)

theorem squareKaratsubaInto_spec {dbg : Bool} (L : Lawful D B) {T : Prop} {square : SquareFn}
    {x result work : List Nat} (hx : Digs B x) (hr : Digs B result)
    (hw : Digs B work) (hx20 : 20 ≤ x.length)
    (hlen : 2 * x.length ≤ result.length)
    (hwork : karatsubaWorkSize x.length ≤ work.length)
    (h128 : x.length < 128) (hT : T → MulP B x x)
    (hsq : SquareOk B T ((x.length + 1) / 2) (karatsubaWorkSize ((x.length + 1) / 2)) square) :
    Sp (fun p => p = .unwrap ∧ ¬ T) (squareKaratsubaInto D dbg square x result work)
      (MulPost B (2 * x.length) (val B x * val B x) result work) := by
  have hB := L.pos
  have hkws := karatsubaWorkSize_eq x.length
  rw [if_pos (by omega)] at hkws
  unfold squareKaratsubaInto
  simp only []
  refine Sp.bind_eq (a := ()) (by simp [assertR]; omega) ?_
  refine Sp.bind_eq (a := ()) (by simp [assertR, hwork]) ?_
  generalize hs : (x.length + 1) / 2 = s at *
  have hx2 : x.length ≤ 2 * s := by omega
  have hs2 : 2 * s ≤ 2 * x.length := by omega
  have hsx : s < x.length := by omega
  rw [hkws] at hwork
  clear hkws
  generalize hws : karatsubaWorkSize s = ws at *
  clear hws
  obtain ⟨nl, e1, e2, e3, e4⟩ := dropLeadingZeros_spec x s (by omega)
  rw [e1, ok_bind, slice_take (by omega), ok_bind, slice_ok (by omega) (le_refl _), ok_bind,
    List.take_length]
  have p5 : Digs B (x.take nl) := hx.take _
  have p6 : Digs B (x.drop s) := hx.drop _
  have p8 : val B x = val B (x.take nl) + B ^ s * val B (x.drop s) := by
    have h1 := val_take_add_drop B x s (by omega)
    rw [e3, val_append_zeros] at h1
    exact h1.symm
  have hl0 : (x.take nl).length ≤ s := by rw [List.length_take]; omega
  have hT' := fun t => (hT t).kara (s := s) (by have := L.base; omega) hx hx hx20 hx20 (by omega)
    (by omega) p8 p8 (lt_of_lt_of_le (val_lt p5) (Nat.pow_le_pow_right hB hl0))
    (lt_of_lt_of_le (val_lt p5) (Nat.pow_le_pow_right hB hl0))
  clear hT hs
  have hh0' : (x.drop s).length = x.length - s := by rw [List.length_drop]
  have hh0 : (x.drop s).length ≤ s := by omega
  have p11 : Canon x → Canon (x.drop s) := by
    intro hc
    have hne : x.drop s ≠ [] := by
      intro h
      rw [h] at hh0'
      simp at hh0'; omega
    rw [← List.take_append_drop s x, canon_append_of hne] at hc
    exact hc
  generalize x.take nl = low at *
  generalize x.drop s = high at *
  have hb0 : max low.length high.length ≤ result.length := by omega
  refine Sp.bind ((subBigIntoAbsSign_spec L p5 p6 hb0).weaken ?_) ?_
  · rintro p ⟨rfl, hp⟩
    exact ⟨rfl, fun t => hp ⟨e4, p11 (hT' t).1⟩⟩
  rintro ⟨diff, sign, nd⟩ hd
  simp only []
  have a1 : diff.length = result.length := hd.len
  have a3 : nd ≤ s := by have := hd.le; simp only [] at this; omega
  have hdd : Digs B diff := hd.digs hr
  have hln : (diff.take nd).length = nd := by rw [List.length_take]; omega
  have hrest : diff.drop (2 * x.length) = result.drop (2 * x.length) :=
    hd.drop hb0 (k := 2 * x.length) (by omega)
  rw [splitAtR_ok (by omega), ok_bind]
  simp only []
  rw [slice_take (by omega), ok_bind]
  have hfill : fillWith 0 (work.take (2 * s)) = List.replicate (2 * s) 0 := by
    simp only [fillWith, List.length_take]
    congr 1; omega
  rw [hfill]
  refine Sp.bind (hsq _ _ _ (hdd.take nd) (digs_replicate hB) (hw.drop _)
    (by omega) (by rw [List.length_replicate]; omega)
    (by rw [List.length_drop]; omega) ?_) ?_
  · intro t
    obtain ⟨t1, t2, t3, t4, d, -, t5, -⟩ := hT' t
    have e0 := eq_dist hd.val_eq
    simp only [] at e0
    rcases hd.canon e4 (p11 t1) 20 t3 with h | h
    · left; left; rw [hln]; exact h
    exact Or.inr ⟨h, h, d, by rw [e0]; exact t5⟩
  rintro ⟨z1, w1, nz1⟩ m1
  have m1b := m1.buf hB
  have m1l := m1.len
  have m1w := m1.wlen
  have m1d : Digs B w1 := m1.wdigs
  simp only [List.length_replicate, List.length_drop] at m1b m1l m1w ⊢
  rw [onSlice_fill (by omega), ok_bind]
  simp only []
  rw [hrest]
  have hrestd : Digs B (result.drop (2 * x.length)) := hr.drop _
  clear hrest
  generalize hrest : result.drop (2 * x.length) = rest at *
  obtain ⟨k, hk⟩ : ∃ k, 2 * x.length = 2 * s + k := ⟨2 * x.length - 2 * s, by omega⟩
  have hbound : val B x * val B x < B ^ (2 * s + k) := by
    rw [← hk, two_mul, pow_add]
    exact Nat.mul_lt_mul'' (val_lt hx) (val_lt hx)
  rw [hk] at hrest hlen ⊢
  have key := kara_products (dbg := dbg) (T := T) (f0 := square low) (f2 := square high) (work := work)
    (s0 := sign) (s1 := sign) (wk := ws)
    (nd0 := 2 * low.length) (nd2 := 2 * high.length) L p8 p8
    (by omega) (by omega) (Or.inr (by omega)) hd.val_eq hd.val_eq m1b m1.rep.canon
    m1l m1d (by omega) (by omega) hrestd hrest hlen hbound
    (fun p w hp hw hlp hlw => hsq _ _ _ p5 hp hw hl0 (by omega) hlw (fun t => by
      obtain ⟨-, -, -, -, d, t5, -, -⟩ := hT' t
      exact Or.inr ⟨e4, e4, d, t5⟩))
    (fun p w hp hw hlp hlw => hsq _ _ _ p6 hp hw hh0 (by omega) hlw
      (fun t => by
        obtain ⟨t1, -, -, -, d, -, -, t5⟩ := hT' t
        exact Or.inr ⟨p11 t1, p11 t1, d, t5⟩))
  have hmid : karatsubaMid D dbg (sign ^^ sign) = karatsubaSub D dbg := by
    funext a b c d e f
    simp [karatsubaMid]
  rw [hmid] at key
  exact key

end Babs
