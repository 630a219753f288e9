import Verif.SpecKara
import Verif.Proofs.MulBig

/-!
# Helper lemmas: exactly when Karatsuba multiplication panics
-/

namespace Babs

variable {D : DigitOps} {B : Nat}

/-- Working notion: the computation panics with an unwrapped error if `K`, otherwise returns `Q`. -/
def Ex {α : Type} (K : Prop) (x : R α) (Q : α → Prop) : Prop :=
  Sp (fun p => p = .unwrap ∧ K) x (fun a => ¬ K ∧ Q a)

theorem Ex.bind {α β : Type} {K1 K2 : Prop} {x : R α} {f : α → R β} {P : α → Prop} {Q : β → Prop}
    (hx : Ex K1 x P) (hf : ∀ a, P a → Ex K2 (f a) Q) : Ex (K1 ∨ K2) (x >>= f) Q := by
  cases x with
  | error p => exact ⟨hx.1, Or.inl hx.2⟩
  | ok a =>
    have h1 : ¬ K1 := hx.1
    refine ((hf a hx.2).weaken ?_).mono ?_
    · rintro p ⟨h, k⟩; exact ⟨h, Or.inr k⟩
    · rintro b ⟨k, h⟩
      exact ⟨fun hk => hk.elim h1 k, h⟩

theorem Ex.congr {α : Type} {K K' : Prop} {x : R α} {Q : α → Prop} (hx : Ex K x Q) (h : K ↔ K') :
    Ex K' x Q := (propext h) ▸ hx

theorem Ex.mono {α : Type} {K : Prop} {x : R α} {P Q : α → Prop} (hx : Ex K x P)
    (h : ∀ a, P a → Q a) : Ex K x Q := Sp.mono hx fun _ ha => ⟨ha.1, h _ ha.2⟩

theorem Ex.of_tot {α : Type} {x : R α} {Q : α → Prop} (hx : Tot x Q) : Ex False x Q :=
  (hx.weaken fun _ h => h.elim).mono fun _ h => ⟨not_false, h⟩

theorem Ex.bind_eq {α β : Type} {K : Prop} {x : R α} {a : α} {f : α → R β} {Q : β → Prop}
    (hx : x = .ok a) (hf : Ex K (f a) Q) : Ex K (x >>= f) Q := by subst hx; exact hf

/-! ## The length of differences -/

/-- `dec_assign` shortens the number if it is a power of the base with nothing above. -/
theorem decGo_shortens (L : Lawful D B) (n : Nat) (l : List Nat) (hl : Digs B l) (h0 : l ≠ [])
    (hv : val B l = B ^ (l.length - 1)) : ∃ r, decGo D n l = .ok (r, .ok (n - 1)) := by
  have hB := L.base
  induction l with
  | nil => exact absurd rfl h0
  | cons d ds ih =>
    rw [digs_cons] at hl
    cases ds with
    | nil =>
      simp at hv
      subst hv
      unfold decGo
      rw [L.dec 1 hl.1, ok_bind]
      have : (1 + (B - 1)) % B = 0 := by rw [show 1 + (B - 1) = B by omega, Nat.mod_self]
      exact ⟨_, by simp [this]; rfl⟩
    | cons e es =>
      rw [val_cons] at hv
      have e1 : B ^ ((d :: e :: es).length - 1) = B * B ^ ((e :: es).length - 1) := by
        rw [← pow_succ']; simp
      rw [e1] at hv
      have hd : d = 0 := by
        have h1 := congrArg (· % B) hv
        simp only [Nat.add_mul_mod_self_left, Nat.mul_mod_right] at h1
        rw [Nat.mod_eq_of_lt hl.1] at h1
        exact h1
      subst hd
      rw [Nat.zero_add] at hv
      obtain ⟨r, hr⟩ := ih hl.2 (by simp) (Nat.eq_of_mul_eq_mul_left (by omega) hv)
      unfold decGo
      rw [L.dec 0 hl.1, ok_bind]
      simp only [decide_true, Bool.not_true, Bool.false_eq_true, if_false]
      rw [hr, ok_bind]
      exact ⟨_, rfl⟩

theorem sub_finish_digits (L : Lawful D B) (l0 l1 r1 hi q r : List Nat) (c1 : Bool) (nd : Nat)
    (hlen : l1.length ≤ l0.length) (h0 : Digs B l0)
    (hhi : hi = l0.drop l1.length) (e2 : r1.length = l1.length) (e3 : Digs B r1)
    (e6 : val B r1 + val B l1 = val B (l0.take l1.length) + B ^ l1.length * c1.toNat)
    (hrun : (if c1 then do
        let (diff, r) ← onSlice (r1 ++ hi ++ q) l1.length l0.length (decAssign D)
        match r with
        | .error e => return (diff, .error e)
        | .ok nd => return (diff, .ok (l1.length + nd))
      else do return (r1 ++ hi ++ q, .ok (← dropLeadingZeros (r1 ++ hi ++ q) l0.length))
      : R (List Nat × Res Nat)) = .ok (r, .ok nd)) :
    nd = diffDigits B l0.length (val B l0) l1.length (val B l1) := by
  have hB := L.base
  have hv := val_take_add_drop B l0 l1.length hlen
  rw [← hhi] at hv
  have hhil : hi.length = l0.length - l1.length := by rw [hhi]; simp
  have hhid : Digs B hi := by rw [hhi]; exact h0.drop _
  have hP : 0 < B ^ l1.length := Nat.pow_pos (by omega)
  have htl : val B (l0.take l1.length) < B ^ l1.length := by
    have := val_lt (h0.take l1.length)
    rwa [List.length_take, Nat.min_eq_left hlen] at this
  have hmod : val B l0 % B ^ l1.length = val B (l0.take l1.length) := by
    rw [← hv, Nat.add_mul_mod_self_left, Nat.mod_eq_of_lt htl]
  have hdiv : val B l0 / B ^ l1.length = val B hi := by
    rw [← hv, Nat.add_mul_div_left _ _ hP, Nat.div_eq_of_lt htl, Nat.zero_add]
  have hr1 := val_lt e3
  rw [e2] at hr1
  unfold diffDigits
  rw [hmod, hdiv]
  cases c1 with
  | false =>
    simp only [Bool.toNat_false, Nat.mul_zero, Nat.add_zero] at e6
    rw [if_neg (by omega)]
    obtain ⟨nd', d1, d2, d3, d4⟩ := dropLeadingZeros_spec (r1 ++ hi ++ q) l0.length
      (by simp; omega)
    have hl : (r1 ++ hi).length = l0.length := by simp; omega
    rw [List.take_left' hl] at d3
    have htk : (r1 ++ hi ++ q).take nd' = (r1 ++ hi).take nd' :=
      List.take_append_of_le_length (by omega)
    rw [htk] at d3 d4
    have hval : val B (r1 ++ hi) + val B l1 = val B l0 := by
      rw [val_append, e2]; omega
    simp only [Bool.false_eq_true, if_false] at hrun
    rw [d1, ok_bind] at hrun
    have hnd : nd' = nd := by
      have h := Except.ok.inj hrun
      simp only [Prod.mk.injEq, Except.ok.injEq] at h
      exact h.2
    subst hnd
    have hdig : Digs B (r1 ++ hi) := by simp [e3, hhid]
    have h2 := size_canon (by omega) (hdig.take nd') d4
    rw [val_take_zeros d3, List.length_take, Nat.min_eq_left (by omega)] at h2
    rw [show val B l0 - val B l1 = val B (r1 ++ hi) by omega, h2]
  | true =>
    simp only [Bool.toNat_true, Nat.mul_one] at e6
    rw [if_pos (by omega)]
    rw [if_pos rfl, onSlice_append e2 (by omega)] at hrun
    unfold decAssign at hrun
    obtain ⟨r2, res, f1, f2, f3, f4⟩ := decGo_spec L hi.length hi hhid (le_refl _)
    by_cases hp : val B hi = B ^ (hi.length - 1)
    · have hne : hi ≠ [] := by
        rintro rfl
        simp at hp
      obtain ⟨r3, g1⟩ := decGo_shortens L hi.length hi hhid hne hp
      have hpos := List.length_pos_iff.mpr hne
      rw [if_pos (by rw [← hhil]; exact hp)]
      rw [g1, ok_bind] at hrun
      have h := Except.ok.inj hrun
      simp only [Prod.mk.injEq, Except.ok.injEq] at h
      omega
    · rw [if_neg (by rw [← hhil]; exact hp)]
      rw [f1, ok_bind] at hrun
      rcases f4 with ⟨g1, g2, g3⟩ | ⟨g1, g2, g3, g4⟩
      · subst g2
        have h := Except.ok.inj hrun
        simp at h
      · have hne : hi ≠ [] := by rintro rfl; simp at g1
        have hpos := List.length_pos_iff.mpr hne
        rcases g3 with g3 | ⟨g3, g5, g6, g7⟩
        · subst g3
          have h := Except.ok.inj hrun
          simp only [Prod.mk.injEq, Except.ok.injEq] at h
          omega
        · exact absurd (g2.symm.trans g7) hp

theorem subBigInto_digits (L : Lawful D B) (l0 l1 diff r : List Nat) (nd : Nat) (h0 : Digs B l0)
    (h1 : Digs B l1) (hlen : l1.length ≤ l0.length) (hd : l0.length ≤ diff.length)
    (hr : subBigInto D l0 l1 diff = .ok (r, .ok nd)) :
    nd = diffDigits B l0.length (val B l0) l1.length (val B l1) := by
  obtain ⟨p, s, q, hdiff, hp, hs, -, -, hq⟩ := split3 diff hlen hd
  obtain ⟨r1, c1, e1, e2, e3, -, e5⟩ := zipInto_spec (subCarry_step L) (l0.take l1.length)
    l1 p (l0.drop l1.length) [] (s ++ q) false
    (by simp [hlen]) (by simp; omega) (Or.inr rfl) (h0.take _) h1 trivial
  rw [List.take_append_drop, List.append_nil, ← List.append_assoc, ← hdiff] at e1
  have hlt : (l0.take l1.length).length = l1.length := by simp [hlen]
  rw [hlt] at e2 e5
  refine sub_finish_digits L l0 l1 r1 (l0.drop l1.length) q r c1 nd hlen h0 rfl e2 e3
    (sub_common l0 l1 r1 c1 e5) ?_
  rw [← hr]
  unfold subBigInto
  simp only [if_neg (show ¬ l0.length < l1.length by omega),
    if_neg (show ¬ diff.length < l0.length by omega), e1, ok_bind]
  rw [← List.append_assoc, copyInto_append e2 (by omega) (by simp; omega), ok_bind]
  all_goals rfl

/-! ## The difference of the halves -/

theorem subBigIntoAbsSign_exact {dbg : Bool} (L : Lawful D B) {a b buf : List Nat}
    (ha : Digs B a) (hb : Digs B b) (ca : Canon a) (hbuf : max a.length b.length ≤ buf.length) :
    Ex (halvesFail B b.length (val B a) (val B b) = true) (subBigIntoAbsSign D dbg a b buf)
      (fun res => AbsPost B a b buf res ∧
        res.2.2 = halvesDigits B b.length (val B a) (val B b) ∧ Digs B (res.1.take res.2.2)) := by
  have hB := L.base
  have hsz := size_canon (B := B) (by omega) ha ca
  have hbl := val_lt hb
  unfold subBigIntoAbsSign halvesFail halvesDigits
  rw [hsz]
  refine Ex.bind_eq (a := ()) (by simp [debugAssertR, hbuf]) ?_
  by_cases h : ltBig a b = true
  · rw [if_pos h]
    have hlen : a.length ≤ b.length := by
      by_contra hcon
      rw [ltBig_longer (by omega)] at h; simp at h
    obtain ⟨r, res, e1, e2⟩ := subBigInto_spec L b a buf hb ha hlen (by omega)
    have hlt : a.length = b.length → val B a < val B b := fun hl =>
      (ltBig_same_length ha hb hl).mp h
    have e3 := fun nd (he : res = .ok nd) => subBigInto_digits L b a buf _ nd hb ha hlen (by omega)
      (he ▸ e1)
    rw [e1, ok_bind]
    have q3 := e2.cases
    cases res with
    | error e =>
      rcases q3 with ⟨a1, -, -⟩ | ⟨-, nd, a2, -⟩
      · refine ⟨rfl, ?_⟩
        have : a.length < b.length := by
          rcases Nat.lt_or_ge a.length b.length with h | h
          · exact h
          · have := hlt (by omega); omega
        simp [this, a1]
      · cases a2
    | ok nd =>
      rcases q3 with ⟨-, a2, -⟩ | ⟨a1, -⟩
      · cases a2
      · have hp := absPost_of (a := a) (b := b) (by omega) ha hlen (show b.length ≤ buf.length by omega)
          e2 (Or.inl ⟨rfl, rfl, rfl⟩)
        refine ⟨?_, hp, ?_, ?_⟩
        · simp; omega
        swap
        · have h3 := hp.le
          have h4 := e2.len
          simp only [] at h3 ⊢
          rw [List.take_append_of_le_length (by omega)]
          exact e2.digs.take _
        · simp only []
          rw [e3 nd rfl, if_pos]
          rcases Nat.lt_or_ge a.length b.length with h | h
          · simp [h]
          · have hl : a.length = b.length := by omega
            simp [hl, hlt hl]
  · rw [if_neg h]
    have hlen : b.length ≤ a.length := by
      by_contra hcon
      exact h (ltBig_shorter (by omega))
    have hge : a.length = b.length → val B b ≤ val B a := fun hl =>
      Nat.le_of_not_lt fun hc => h ((ltBig_same_length ha hb hl).mpr hc)
    obtain ⟨r, res, e1, e2⟩ := subBigInto_spec L a b buf ha hb hlen (by omega)
    have e3 := fun nd (he : res = .ok nd) => subBigInto_digits L a b buf _ nd ha hb hlen (by omega)
      (he ▸ e1)
    rw [e1, ok_bind]
    have q3 := e2.cases
    cases res with
    | error e =>
      rcases q3 with ⟨a1, -, -⟩ | ⟨-, nd, a2, -⟩
      · exfalso
        rcases Nat.lt_or_ge b.length a.length with hl | hl
        · have h1 := ca.ge (b := B) (by omega) (by rintro rfl; simp at hl)
          have h2 : B ^ b.length ≤ B ^ (a.length - 1) := Nat.pow_le_pow_right (by omega) (by omega)
          omega
        · have := hge (by omega); omega
      · cases a2
    | ok nd =>
      have hp := absPost_of (a := a) (b := b) (by omega) hb hlen (show a.length ≤ buf.length by omega)
        e2 (Or.inr ⟨rfl, rfl, rfl⟩)
      refine ⟨?_, hp, ?_, ?_⟩
      · simp; omega
      swap
      · have h3 := hp.le
        have h4 := e2.len
        simp only [] at h3 ⊢
        rw [List.take_append_of_le_length (by omega)]
        exact e2.digs.take _
      · simp only []
        rw [e3 nd rfl, if_neg]
        rcases Nat.lt_or_ge b.length a.length with hl | hl
        · simp; omega
        · have hl : a.length = b.length := by omega
          have := hge hl
          simp [hl]; omega

/-! ## Karatsuba multiplication -/

/-- One call: with enough space in the buffers, `f` computes the product `v`. -/
def CallEx (B : Nat) (K : Prop) (len wk nd v : Nat)
    (f : List Nat → List Nat → R (List Nat × List Nat × Nat)) : Prop :=
  ∀ product work : List Nat, Digs B product → Digs B work → len ≤ product.length →
    wk ≤ work.length → Ex K (f product work)
      (MulPost B nd v product work)

/-- The products of the low and of the high parts (calls `f0` and `f2`), and what follows. -/
theorem kara_products_exact {dbg : Bool} (L : Lawful D B) {K0 K2 : Prop}
    {f0 f2 : List Nat → List Nat → R (List Nat × List Nat × Nat)} {s k nz1 wk X Y x0 x1 y0 y1 : Nat}
    {nd0 nd2 d0 d1 : Nat} {s0 s1 : Bool} {rest z1 w1 result work : List Nat}
    (p8 : X = x0 + B ^ s * x1) (q8 : Y = y0 + B ^ s * y1)
    (_hnd0 : nd0 ≤ 2 * s) (hnd2 : nd2 ≤ 2 * s) (hh : x1 * y1 = 0 ∨ nd2 ≤ k)
    (a5 : (d0 : ℤ) = if s0 then (x1 : ℤ) - x0 else (x0 : ℤ) - x1)
    (b5 : (d1 : ℤ) = if s1 then (y1 : ℤ) - y0 else (y0 : ℤ) - y1)
    (m1b : Buf B z1 nz1 (d0 * d1)) (m1c : Canon (z1.take nz1)) (m1l : z1.length = 2 * s)
    (w1d : Digs B w1) (w1l : wk ≤ w1.length) (hwl : z1.length + w1.length = work.length)
    (hrestd : Digs B rest) (hrest : result.drop (2 * s + k) = rest)
    (hN : 2 * s + k ≤ result.length) (hbound : X * Y < B ^ (2 * s + k))
    (hf0 : CallEx B K0 (2 * s) wk nd0 (x0 * y0) f0) (hf2 : CallEx B K2 k wk nd2 (x1 * y1) f2) :
    Ex (K0 ∨ K2) (do
      let (z0, z2) ← splitAtR (List.replicate (2 * s + k) 0 ++ rest) (2 * s)
      let (z0, newWork, nz0) ← f0 z0 w1
      let (z2, newWork, nz2) ← f2 z2 newWork
      let (result, z1, nz1) ← karatsubaMid D dbg (s0 ^^ s1) s (← slice z0 0 nz0)
        (← slice z2 0 nz2) z1 nz1 (z0 ++ z2)
      let (result, n) ← karatsubaFinish D s (2 * s + k) result (← slice z1 0 nz1)
      return (result, z1 ++ newWork, n)) (MulPost B (2 * s + k) (X * Y) result work) := by
  have hB := L.pos
  rw [← List.replicate_append_replicate, List.append_assoc, splitAtR_append (by simp), ok_bind]
  simp only []
  refine Ex.bind (hf0 _ _ (digs_replicate hB) w1d (by simp) w1l) ?_
  rintro ⟨z0, w2, nz0⟩ m2
  have m2b := m2.buf hB
  have m2l := m2.len
  have m2w := m2.wlen
  simp only [List.length_replicate] at m2b m2l m2w ⊢
  refine Ex.congr (K := K2 ∨ False) (Ex.bind (hf2 (List.replicate k 0 ++ rest) w2
    (by simp [digs_replicate hB, hrestd]) m2.wdigs (by simp) (by omega)) ?_) (by simp)
  rintro ⟨z2, w3, nz2⟩ m3
  have m3w := m3.wlen
  have hnz2 : nz2 ≤ k := by
    rcases hh with h | h
    · have := m3.zero hB h
      simp only [] at this; omega
    · have := m3.le
      simp only [] at this; omega
  obtain ⟨u2, t', g1, g2, g3, g4, g5⟩ := m3.front hB hnz2
  have m3le := m3.le
  have m3r := m3.rep
  simp only [] at g1 g4 g5 m3w m3le m3r ⊢
  rw [slice_take m2b.le, ok_bind, slice_take (by rw [g1, List.length_append]; omega), ok_bind, g5,
    g1, ← List.append_assoc]
  have hul : (z0 ++ u2).length = 2 * s + k := by rw [List.length_append]; omega
  have hud : Digs B (z0 ++ u2) := by simp [m2b.digs, g4.digs]
  have htd : Digs B t' := g3.digs hB hrestd
  have huv : val B (z0 ++ u2) = x0 * y0 + B ^ (2 * s) * (x1 * y1) := by
    rw [val_append, m2b.val_eq, m2l, g4.val_eq]
  have hprod : X * Y = val B (z0 ++ u2) + B ^ s * (x0 * y1 + x1 * y0) := by
    rw [huv, p8, q8, two_mul, pow_add]; ring
  have m2le := m2.le
  simp only [] at m2le
  have hz2r : Rep B (u2.take nz2) (x1 * y1) := by rw [← g5]; exact m3r
  have hmid := karatsubaMid_spec (dbg := dbg) L (s := s) (z0 := z0.take nz0) (z2 := u2.take nz2)
    (u := z0 ++ u2) (t := t') a5 b5 m2.rep hz2r m1b m1c (by rw [List.length_take]; omega)
    (by rw [List.length_take]; omega) hud htd (by omega) (by rw [hul]; omega)
  exact Ex.of_tot (kara_end L g3 hrestd hrest hN hul hmid m3.wdigs hprod hbound (by omega))

/-- The calls that Karatsuba multiplication makes, and exactly when they panic. -/
def MulEx (B d s m w : Nat) (mul : MulFn) : Prop :=
  ∀ a b product work : List Nat, Digs B a → Digs B b → Digs B product → Digs B work →
    a.length ≤ s → b.length ≤ s → min a.length b.length ≤ m →
    (a = [] ∨ b = [] ∨ a.length + b.length ≤ product.length) → w ≤ work.length →
    Ex (karaPanics B d a.length (val B a) b.length (val B b) = true) (mul a b product work)
      (MulPost B (a.length + b.length) (val B a * val B b) product work)

theorem karaPanics_succ {d k m j n s : Nat} (h : ¬ (k < 20 ∨ j < 20))
    (hs : (max k j + 1) / 2 = s) : karaPanics B (d + 1) k m j n =
      (halvesFail B (k - s) (m % B ^ s) (m / B ^ s) || halvesFail B (j - s) (n % B ^ s) (n / B ^ s) ||
      karaPanics B d (halvesDigits B (k - s) (m % B ^ s) (m / B ^ s))
        (Nat.dist (m % B ^ s) (m / B ^ s)) (halvesDigits B (j - s) (n % B ^ s) (n / B ^ s))
        (Nat.dist (n % B ^ s) (n / B ^ s)) ||
      karaPanics B d (size B (m % B ^ s)) (m % B ^ s) (size B (n % B ^ s)) (n % B ^ s) ||
      karaPanics B d (k - s) (m / B ^ s) (j - s) (n / B ^ s)) := by
  subst hs
  exact if_neg h

theorem mulKaratsubaInto_exact {dbg : Bool} (L : Lawful D B) {d : Nat} {mul : MulFn}
    {x y result work : List Nat} (hx : Digs B x) (hy : Digs B y) (hr : Digs B result)
    (hw : Digs B work) (hx20 : 20 ≤ x.length) (hy20 : 20 ≤ y.length)
    (hlen : x.length + y.length ≤ result.length)
    (hwork : karatsubaWorkSize (max x.length y.length) ≤ work.length)
    (hmul : MulEx B d ((max x.length y.length + 1) / 2) (min x.length y.length)
      (karatsubaWorkSize ((max x.length y.length + 1) / 2)) mul) :
    Ex (karaPanics B (d + 1) x.length (val B x) y.length (val B y) = true)
      (mulKaratsubaInto D dbg mul x y result work)
      (MulPost B (x.length + y.length) (val B x * val B y) result work) := by
  have hB := L.pos
  have hkws := karatsubaWorkSize_eq (max x.length y.length)
  rw [if_pos (by omega)] at hkws
  unfold mulKaratsubaInto
  simp only []
  refine Ex.bind_eq (a := ()) (by simp [assertR]; omega) ?_
  refine Ex.bind_eq (a := ()) (by simp [assertR, hwork]) ?_
  generalize hs : (max x.length y.length + 1) / 2 = s at *
  have hx2 : x.length ≤ 2 * s := by omega
  have hy2 : y.length ≤ 2 * s := by omega
  have hs2 : 2 * s ≤ x.length + y.length := by omega
  rw [hkws] at hwork
  clear hkws
  generalize hws : karatsubaWorkSize s = ws at *
  clear hws
  obtain ⟨nl0, low0, high0, p1, p2, p3, p4, p5, p6, p7, p8, p9, p10, p11⟩ := kara_split hx s
  obtain ⟨nl1, low1, high1, q1, q2, q3, q4, q5, q6, q7, q8, q9, q10, q11⟩ := kara_split hy s
  have hl0 : low0.length ≤ s := by omega
  have hl1 : low1.length ≤ s := by omega
  have hB2 := L.base
  have hl0v := lt_of_lt_of_le (val_lt p5) (Nat.pow_le_pow_right hB hl0)
  have hl1v := lt_of_lt_of_le (val_lt q5) (Nat.pow_le_pow_right hB hl1)
  have hPs : 0 < B ^ s := Nat.pow_pos hB
  refine Ex.congr (K := halvesFail B high0.length (val B low0) (val B high0) = true ∨
    halvesFail B high1.length (val B low1) (val B high1) = true ∨
    karaPanics B d (halvesDigits B high0.length (val B low0) (val B high0))
      (Nat.dist (val B low0) (val B high0)) (halvesDigits B high1.length (val B low1) (val B high1))
      (Nat.dist (val B low1) (val B high1)) = true ∨
    karaPanics B d low0.length (val B low0) low1.length (val B low1) = true ∨
    karaPanics B d high0.length (val B high0) high1.length (val B high1) = true) ?_ ?_
  swap
  · rw [karaPanics_succ (by omega) hs, p8, q8, Nat.add_mul_mod_self_left, Nat.add_mul_mod_self_left, Nat.mod_eq_of_lt hl0v,
      Nat.mod_eq_of_lt hl1v, Nat.add_mul_div_left _ _ hPs, Nat.add_mul_div_left _ _ hPs,
      Nat.div_eq_of_lt hl0v, Nat.div_eq_of_lt hl1v, Nat.zero_add, Nat.zero_add,
      size_canon (by omega) p5 p7, size_canon (by omega) q5 q7,
      show x.length - s = high0.length by omega, show y.length - s = high1.length by omega]
    simp only [Bool.or_eq_true, or_assoc]
  clear hs hl0v hl1v hPs
  have hh0 : high0.length ≤ s := by omega
  have hh1 : high1.length ≤ s := by omega
  have hm0 : max low0.length high0.length ≤ s := by omega
  have hm1 : max low1.length high1.length ≤ s := by omega
  have hm1' : max low1.length high1.length ≤ y.length := by omega
  have hm0' : max low0.length high0.length ≤ x.length := by omega
  have hml : min low0.length low1.length ≤ min x.length y.length := by omega
  have hmh : min high0.length high1.length ≤ min x.length y.length := by omega
  have hsx : s ≤ result.length := by omega
  have hm1'' : s + max low1.length high1.length ≤ x.length + y.length := by omega
  have hh : high0 = [] ∨ high1 = [] ∨ high0.length + high1.length = x.length + y.length - 2 * s := by
    rcases Nat.lt_or_ge s x.length with h | h
    · rcases Nat.lt_or_ge s y.length with h' | h'
      · right; right; omega
      · right; left; exact List.eq_nil_of_length_eq_zero (by omega)
    · left; exact List.eq_nil_of_length_eq_zero (by omega)
  clear p9 p10 q9 q10 p4 q4
  rw [p1, ok_bind]
  simp only []
  rw [p2, ok_bind, q1, ok_bind]
  simp only []
  rw [q2, ok_bind, splitAtR_ok hsx, ok_bind]
  simp only []
  rw [p3, ok_bind]
  have hb0 : max low0.length high0.length ≤ (result.take s).length := by
    rw [List.length_take]; omega
  have hb1 : max low1.length high1.length ≤ (result.drop s).length := by
    rw [List.length_drop]; omega
  refine Ex.bind (subBigIntoAbsSign_exact L p5 p6 p7 hb0) ?_
  rintro ⟨diff0, sign0, nd0⟩ ⟨hd0, hn0, -⟩
  simp only []
  rw [q3, ok_bind]
  refine Ex.bind (subBigIntoAbsSign_exact L q5 q6 q7 hb1) ?_
  rintro ⟨diff1, sign1, nd1⟩ ⟨hd1, hn1, -⟩
  simp only []
  have a1 : diff0.length = s := by rw [hd0.len, List.length_take]; omega
  have b1 : diff1.length = result.length - s := by rw [hd1.len, List.length_drop]
  have a3 : nd0 ≤ s := le_trans hd0.le hm0
  have a3' : nd0 ≤ x.length := le_trans hd0.le hm0'
  have b3' : nd1 ≤ y.length := le_trans hd1.le hm1'
  have b3 : nd1 ≤ s := le_trans hd1.le hm1
  have b4 : nd1 ≤ diff1.length := by rw [hd1.len]; exact hd1.le_buf
  have hd0d : Digs B diff0 := hd0.digs (hr.take _)
  have hd1d : Digs B diff1 := hd1.digs (hr.drop _)
  have hln0 : (diff0.take nd0).length = nd0 := by rw [List.length_take]; omega
  have hln1 : (diff1.take nd1).length = nd1 := by rw [List.length_take]; omega
  -- the result buffer: zeros and the untouched rest
  have hrest : (diff0 ++ diff1).drop (x.length + y.length) = result.drop (x.length + y.length) := by
    have h1 := hd1.drop hb1 (k := x.length + y.length - s) (by omega)
    rw [show x.length + y.length = diff0.length + (x.length + y.length - s) by omega,
      ← List.drop_drop, List.drop_left' rfl]
    simp only [] at h1
    rw [h1, List.drop_drop, a1]
  clear hm0 hm1 hm1' hm0' hm1'' hb0 hb1
  rw [splitAtR_ok (by omega), ok_bind]
  simp only []
  rw [slice_take (by omega), ok_bind, slice_take b4, ok_bind]
  have hfill : fillWith 0 (work.take (2 * s)) = List.replicate (2 * s) 0 := by
    simp only [fillWith, List.length_take]
    congr 1; omega
  rw [hfill]
  have e0 := eq_dist hd0.val_eq
  have e1 := eq_dist hd1.val_eq
  simp only [] at e0 e1 hn0 hn1
  have hcall := hmul _ _ _ _ (hd0d.take nd0) (hd1d.take nd1) (digs_replicate (n := 2 * s) hB)
    (hw.drop (2 * s)) (by omega) (by omega) (by rw [hln0, hln1]; omega)
    (Or.inr (Or.inr (by rw [List.length_replicate]; omega))) (by rw [List.length_drop]; omega)
  refine Ex.bind (hcall.congr (by rw [e0, e1, hln0, hln1, hn0, hn1])) ?_
  rintro ⟨z1, w1, nz1⟩ m1
  have m1b := m1.buf hB
  have m1l := m1.len
  have m1w := m1.wlen
  have m1d : Digs B w1 := m1.wdigs
  simp only [List.length_replicate, List.length_drop] at m1b m1l m1w ⊢
  rw [onSlice_fill (by rw [List.length_append]; omega), ok_bind]
  simp only []
  rw [hrest]
  have hrestd : Digs B (result.drop (x.length + y.length)) := hr.drop _
  clear hrest
  generalize hrest : result.drop (x.length + y.length) = rest at *
  obtain ⟨k, hk⟩ : ∃ k, x.length + y.length = 2 * s + k := ⟨x.length + y.length - 2 * s, by omega⟩
  have hbound : val B x * val B y < B ^ (2 * s + k) := by
    rw [← hk, pow_add]
    exact Nat.mul_lt_mul'' (val_lt hx) (val_lt hy)
  rw [hk] at hrest hlen hh ⊢
  rw [Nat.add_sub_cancel_left] at hh
  simp only [ok_bind]
  refine kara_products_exact (work := work) (s0 := sign0) (s1 := sign1) (wk := ws)
    (nd0 := low0.length + low1.length) (nd2 := high0.length + high1.length) L p8 q8
    (by omega) (by omega) ?_ hd0.val_eq hd1.val_eq m1b m1.rep.canon
    m1l m1d (by omega) (by omega) hrestd hrest hlen hbound ?_ ?_
  · rcases hh with h | h | h
    · left; rw [h]; simp
    · left; rw [h]; simp
    · right; omega
  · intro p w hp hw hlp hlw
    exact hmul _ _ _ _ p5 q5 hp hw hl0 hl1 hml (Or.inr (Or.inr (by omega))) hlw
  · intro p w hp hw hlp hlw
    refine hmul _ _ _ _ p6 q6 hp hw hh0 hh1 hmh ?_ hlw
    rcases hh with h | h | h
    · exact Or.inl h
    · exact Or.inr (Or.inl h)
    · right; right; omega

/-- Multiplication with a factor of less than 128 digits. -/
theorem mulBigIntoWithWork_exact {dbg : Bool} (L : Lawful D B) (fuel : Nat) :
    ∀ {x y product work : List Nat} (d : Nat), Digs B x → Digs B y → Digs B product → Digs B work →
    max x.length y.length < fuel → max x.length y.length ≤ d →
    min x.length y.length < 128 →
    (x = [] ∨ y = [] ∨ x.length + y.length ≤ product.length) →
    (20 ≤ x.length ∧ 20 ≤ y.length → karatsubaWorkSize (max x.length y.length) ≤ work.length) →
    Ex (karaPanics B d x.length (val B x) y.length (val B y) = true)
      (mulBigIntoWithWork D dbg fuel x y product work)
      (MulPost B (x.length + y.length) (val B x * val B y) product work) := by
  induction fuel with
  | zero => intros; omega
  | succ fuel ih =>
    intro x y product work d hx hy hp hw hf hd hmin hlen hwk
    unfold mulBigIntoWithWork
    by_cases h0 : x = [] ∨ y = []
    · rw [if_pos h0]
      have : val B x * val B y = 0 := by rcases h0 with rfl | rfl <;> simp
      rw [this]
      have hk : karaPanics B d x.length (val B x) y.length (val B y) = false := by
        cases d with
        | zero => rfl
        | succ d => exact if_pos (by rcases h0 with rfl | rfl <;> simp)
      rw [hk]
      exact ⟨by simp, mulPost_zero hw⟩
    · rw [if_neg h0]
      have hlen : x.length + y.length ≤ product.length := by
        rcases hlen with h | h | h
        · exact absurd (Or.inl h) h0
        · exact absurd (Or.inr h) h0
        · exact h
      simp only []
      refine Ex.bind_eq (a := ()) (by simp [assertR, hlen]) ?_
      rw [if_neg (by unfold toom3Cutoff; omega)]
      by_cases h2 : karatsubaCutoff ≤ x.length ∧ karatsubaCutoff ≤ y.length
      · rw [if_pos h2]
        unfold karatsubaCutoff at h2
        cases d with
        | zero => omega
        | succ d =>
          refine mulKaratsubaInto_exact L hx hy hp hw h2.1 h2.2 hlen (hwk h2) ?_
          intro a c pr wk ha hc hpr hwkd hal hcl hmin hl hwl
          exact ih d ha hc hpr hwkd (by omega) (by omega) (by omega) hl
            (fun _ => le_trans (karatsubaWorkSize_mono (by omega)) hwl)
      · rw [if_neg h2]
        unfold karatsubaCutoff at h2
        obtain ⟨res, e1, e2⟩ := mulBigLongInto_spec L x y product hx hy hlen
        rw [e1, ok_bind]
        have hk : karaPanics B d x.length (val B x) y.length (val B y) = false := by
          cases d with
          | zero => rfl
          | succ d => exact if_pos (by omega)
        rw [hk]
        exact ⟨by simp, e2.mulPost hw hlen⟩

theorem mulBig_exact {dbg : Bool} (L : Lawful D B) {x y : List Nat} (d : Nat)
    (hx : Digs B x) (hy : Digs B y) (hmin : min x.length y.length < 128)
    (hd : max x.length y.length ≤ d) :
    Ex (karaPanics B d x.length (val B x) y.length (val B y) = true) (mulBig D dbg x y)
      (Rep B · (val B x * val B y)) := by
  have hB := L.pos
  by_cases h2 : 20 ≤ x.length ∧ 20 ≤ y.length
  · have h0 : ¬ (x = [] ∨ y = []) := by rintro (rfl | rfl) <;> simp at h2
    unfold mulBig
    rw [if_neg h0]
    unfold mulBigInto
    rw [if_neg h0]
    simp only [List.length_replicate, le_refl, decide_true, assertR, if_true, ok_bind]
    rw [if_neg (by unfold toom3Cutoff; omega), if_pos (by unfold karatsubaCutoff; omega)]
    cases d with
    | zero => omega
    | succ d =>
      have key := mulKaratsubaInto_exact (dbg := dbg) (d := d)
        (mul := mulBigIntoWithWork D dbg (mulFuel (max x.length y.length))) L hx hy
        (digs_replicate (n := x.length + y.length) hB)
        (digs_replicate (n := karatsubaWorkSize (max x.length y.length)) hB) h2.1 h2.2
        (by simp) (by simp) (by
          intro a c pr wk ha hc hpr hwkd hal hcl hmin hl hwl
          exact mulBigIntoWithWork_exact L _ d ha hc hpr hwkd (by unfold mulFuel; omega) (by omega)
            (by omega) hl (fun _ => le_trans (karatsubaWorkSize_mono (by omega)) hwl))
      refine Ex.congr (K := (karaPanics B (d + 1) x.length (val B x) y.length (val B y) = true) ∨ False)
        ?_ (by simp)
      rw [bind_assoc]
      refine Ex.bind key ?_
      rintro ⟨r, w, n⟩ h
      exact ⟨not_false, h.prod.rep⟩
  · have h := mulBig_digs_spec (dbg := dbg) L (T := True) hx rfl hy rfl
      (fun _ => Or.inl (by omega))
    have hk : karaPanics B d x.length (val B x) y.length (val B y) = false := by
      cases d with
      | zero => rfl
      | succ d => exact if_pos (by omega)
    rw [hk]
    exact ((h.weaken fun _ h => (h.2 trivial).elim).mono fun _ h => ⟨by simp, h⟩)

/-! ## Karatsuba squaring -/

/-- The calls that Karatsuba squaring makes, and exactly when they panic. -/
def SquareEx (B d s w : Nat) (square : SquareFn) : Prop :=
  ∀ a product work : List Nat, Digs B a → Digs B product → Digs B work →
    a.length ≤ s → 2 * a.length ≤ product.length → w ≤ work.length →
    Ex (karaPanics B d a.length (val B a) a.length (val B a) = true) (square a product work)
      (MulPost B (2 * a.length) (val B a * val B a) product work)

theorem squareKaratsubaInto_exact {dbg : Bool} (L : Lawful D B) {d : Nat} {square : SquareFn}
    {x result work : List Nat} (hx : Digs B x) (hr : Digs B result)
    (hw : Digs B work) (hx20 : 20 ≤ x.length)
    (hlen : 2 * x.length ≤ result.length)
    (hwork : karatsubaWorkSize x.length ≤ work.length)
    (hsq : SquareEx B d ((x.length + 1) / 2) (karatsubaWorkSize ((x.length + 1) / 2)) square) :
    Ex (karaPanics B (d + 1) x.length (val B x) x.length (val B x) = true)
      (squareKaratsubaInto D dbg square x result work)
      (MulPost B (2 * x.length) (val B x * val B x) result work) := by
  have hB := L.pos
  have hkws := karatsubaWorkSize_eq x.length
  rw [if_pos (by omega)] at hkws
  unfold squareKaratsubaInto
  simp only []
  refine Ex.bind_eq (a := ()) (by simp [assertR]; omega) ?_
  refine Ex.bind_eq (a := ()) (by simp [assertR, hwork]) ?_
  generalize hs : (x.length + 1) / 2 = s at *
  have hx2 : x.length ≤ 2 * s := by omega
  have hs2 : 2 * s ≤ 2 * x.length := by omega
  have hsx : s < x.length := by omega
  rw [hkws] at hwork
  clear hkws
  generalize hws : karatsubaWorkSize s = ws at *
  clear hws
  obtain ⟨nl, e1, e2, e3, e4⟩ := dropLeadingZeros_spec x s (by omega)
  rw [e1, ok_bind, slice_take (by omega), ok_bind, slice_ok (by omega) (le_refl _), ok_bind,
    List.take_length]
  have p5 : Digs B (x.take nl) := hx.take _
  have p6 : Digs B (x.drop s) := hx.drop _
  have p8 : val B x = val B (x.take nl) + B ^ s * val B (x.drop s) := by
    have h1 := val_take_add_drop B x s (by omega)
    rw [e3, val_append_zeros] at h1
    exact h1.symm
  have hl0 : (x.take nl).length ≤ s := by rw [List.length_take]; omega
  have hB2 := L.base
  have hlv := lt_of_lt_of_le (val_lt p5) (Nat.pow_le_pow_right hB hl0)
  have hPs : 0 < B ^ s := Nat.pow_pos hB
  refine Ex.congr (K := halvesFail B (x.drop s).length (val B (x.take nl)) (val B (x.drop s)) = true ∨
    karaPanics B d (halvesDigits B (x.drop s).length (val B (x.take nl)) (val B (x.drop s)))
      (Nat.dist (val B (x.take nl)) (val B (x.drop s)))
      (halvesDigits B (x.drop s).length (val B (x.take nl)) (val B (x.drop s)))
      (Nat.dist (val B (x.take nl)) (val B (x.drop s))) = true ∨
    karaPanics B d (x.take nl).length (val B (x.take nl)) (x.take nl).length (val B (x.take nl)) = true ∨
    karaPanics B d (x.drop s).length (val B (x.drop s)) (x.drop s).length (val B (x.drop s)) = true)
      ?_ ?_
  swap
  · rw [karaPanics_succ (by omega) (by omega : (max x.length x.length + 1) / 2 = s), p8,
      Nat.add_mul_mod_self_left, Nat.mod_eq_of_lt hlv, Nat.add_mul_div_left _ _ hPs,
      Nat.div_eq_of_lt hlv, Nat.zero_add, size_canon (by omega) p5 e4,
      show x.length - s = (x.drop s).length by rw [List.length_drop]]
    simp only [Bool.or_eq_true, or_assoc]
    tauto
  clear hlv hPs
  have hh0' : (x.drop s).length = x.length - s := by rw [List.length_drop]
  have hh0 : (x.drop s).length ≤ s := by omega
  generalize x.take nl = low at *
  generalize x.drop s = high at *
  have hb0 : max low.length high.length ≤ result.length := by omega
  refine Ex.bind (subBigIntoAbsSign_exact L p5 p6 e4 hb0) ?_
  rintro ⟨diff, sign, nd⟩ ⟨hd, hn, -⟩
  simp only []
  have a1 : diff.length = result.length := hd.len
  have a3 : nd ≤ s := by have := hd.le; simp only [] at this; omega
  have hdd : Digs B diff := hd.digs hr
  have hln : (diff.take nd).length = nd := by rw [List.length_take]; omega
  have hrest : diff.drop (2 * x.length) = result.drop (2 * x.length) :=
    hd.drop hb0 (k := 2 * x.length) (by omega)
  rw [splitAtR_ok (by omega), ok_bind]
  simp only []
  rw [slice_take (by omega), ok_bind]
  have hfill : fillWith 0 (work.take (2 * s)) = List.replicate (2 * s) 0 := by
    simp only [fillWith, List.length_take]
    congr 1; omega
  rw [hfill]
  have e0 := eq_dist hd.val_eq
  simp only [] at e0 hn
  have hcall := hsq _ _ _ (hdd.take nd) (digs_replicate (n := 2 * s) hB) (hw.drop (2 * s))
    (by omega) (by rw [List.length_replicate]; omega) (by rw [List.length_drop]; omega)
  refine Ex.bind (hcall.congr (by rw [e0, hln, hn])) ?_
  rintro ⟨z1, w1, nz1⟩ m1
  have m1b := m1.buf hB
  have m1l := m1.len
  have m1w := m1.wlen
  have m1d : Digs B w1 := m1.wdigs
  simp only [List.length_replicate, List.length_drop] at m1b m1l m1w ⊢
  rw [onSlice_fill (by omega), ok_bind]
  simp only []
  rw [hrest]
  have hrestd : Digs B (result.drop (2 * x.length)) := hr.drop _
  clear hrest
  generalize hrest : result.drop (2 * x.length) = rest at *
  obtain ⟨k, hk⟩ : ∃ k, 2 * x.length = 2 * s + k := ⟨2 * x.length - 2 * s, by omega⟩
  have hbound : val B x * val B x < B ^ (2 * s + k) := by
    rw [← hk, two_mul, pow_add]
    exact Nat.mul_lt_mul'' (val_lt hx) (val_lt hx)
  rw [hk] at hrest hlen ⊢
  have key := kara_products_exact (dbg := dbg) (f0 := square low) (f2 := square high) (work := work)
    (s0 := sign) (s1 := sign) (wk := ws)
    (nd0 := 2 * low.length) (nd2 := 2 * high.length) L p8 p8
    (by omega) (by omega) (Or.inr (by omega)) hd.val_eq hd.val_eq m1b m1.rep.canon
    m1l m1d (by omega) (by omega) hrestd hrest hlen hbound
    (fun p w hp hw hlp hlw => hsq _ _ _ p5 hp hw hl0 (by omega) hlw)
    (fun p w hp hw hlp hlw => hsq _ _ _ p6 hp hw hh0 (by omega) hlw)
  have hmid : karatsubaMid D dbg (sign ^^ sign) = karatsubaSub D dbg := by
    funext a b c d e f
    simp [karatsubaMid]
  rw [hmid] at key
  exact key

theorem squareIntoWithWork_exact {dbg : Bool} (L : Lawful D B) (fuel : Nat) :
    ∀ {x product work : List Nat} (d : Nat), Digs B x → Digs B product → Digs B work →
    x.length < fuel → x.length ≤ d → x.length < 128 → 2 * x.length ≤ product.length →
    (20 ≤ x.length → karatsubaWorkSize x.length ≤ work.length) →
    Ex (karaPanics B d x.length (val B x) x.length (val B x) = true)
      (squareIntoWithWork D dbg fuel x product work)
      (MulPost B (2 * x.length) (val B x * val B x) product work) := by
  induction fuel with
  | zero => intros; omega
  | succ fuel ih =>
    intro x product work d hx hp hw hf hd h128 hlen hwk
    unfold squareIntoWithWork
    by_cases h0 : x = []
    · rw [if_pos h0, h0]
      have hk : karaPanics B d ([] : List Nat).length (val B []) ([] : List Nat).length (val B []) =
          false := by
        cases d with
        | zero => rfl
        | succ d => rfl
      rw [hk]
      exact ⟨by simp, mulPost_zero hw⟩
    · rw [if_neg h0]
      simp only []
      refine Ex.bind_eq (a := ()) (by simp [assertR, hlen]) ?_
      rw [if_neg (by unfold toom3Cutoff; omega)]
      by_cases h2 : karatsubaCutoff ≤ x.length
      · rw [if_pos h2]
        unfold karatsubaCutoff at h2
        cases d with
        | zero => omega
        | succ d =>
          refine squareKaratsubaInto_exact L hx hp hw h2 hlen (hwk h2) ?_
          intro a pr wk ha hpr hwkd hal hl hwl
          exact ih d ha hpr hwkd (by omega) (by omega) (by omega) hl
            (fun _ => le_trans (karatsubaWorkSize_mono hal) hwl)
      · rw [if_neg h2]
        unfold karatsubaCutoff at h2
        obtain ⟨res, e1, e2⟩ := squareLongInto_spec (dbg := dbg) L x product hx h0 hlen
        rw [e1, ok_bind]
        rw [pow_two] at e2
        have hk : karaPanics B d x.length (val B x) x.length (val B x) = false := by
          cases d with
          | zero => rfl
          | succ d => exact if_pos (by omega)
        rw [hk]
        exact ⟨by simp, e2.mulPost hw hlen⟩

theorem square_exact {dbg : Bool} (L : Lawful D B) {x : List Nat} (d : Nat)
    (hx : Digs B x) (h128 : x.length < 128) (hd : x.length ≤ d) :
    Ex (karaPanics B d x.length (val B x) x.length (val B x) = true) (square D dbg x)
      (Rep B · (val B x * val B x)) := by
  have hB := L.pos
  unfold square
  by_cases h0 : x = []
  · rw [if_pos h0, h0]
    have hk : karaPanics B d ([] : List Nat).length (val B []) ([] : List Nat).length (val B []) =
        false := by
      cases d with
      | zero => rfl
      | succ d => rfl
    rw [hk]
    exact ⟨by simp, by simpa using rep_zero B⟩
  rw [if_neg h0]
  unfold squareInto
  rw [if_neg h0]
  simp only [List.length_replicate, le_refl, decide_true, assertR, if_true, ok_bind]
  rw [if_neg (by unfold toom3Cutoff; omega)]
  by_cases h2 : karatsubaCutoff ≤ x.length
  · rw [if_pos h2]
    unfold karatsubaCutoff at h2
    cases d with
    | zero => omega
    | succ d =>
      have key := squareKaratsubaInto_exact (dbg := dbg) (d := d)
        (square := squareIntoWithWork D dbg (mulFuel x.length)) L hx
        (digs_replicate (n := 2 * x.length) hB)
        (digs_replicate (n := karatsubaWorkSize x.length) hB) h2
        (by simp) (by simp) (by
          intro a pr wk ha hpr hwkd hal hl hwl
          exact squareIntoWithWork_exact L _ d ha hpr hwkd (by unfold mulFuel; omega) (by omega)
            (by omega) hl (fun _ => le_trans (karatsubaWorkSize_mono (by omega)) hwl))
      refine Ex.congr (K := (karaPanics B (d + 1) x.length (val B x) x.length (val B x) = true) ∨ False)
        ?_ (by simp)
      rw [bind_assoc]
      refine Ex.bind key ?_
      rintro ⟨r, w, n⟩ h
      exact ⟨not_false, h.prod.rep⟩
  · rw [if_neg h2]
    unfold karatsubaCutoff at h2
    obtain ⟨res, e1, e2⟩ := squareLongInto_spec (dbg := dbg) L x (List.replicate (2 * x.length) 0) hx h0
      (by simp)
    rw [e1, ok_bind]
    rw [pow_two] at e2
    have hk : karaPanics B d x.length (val B x) x.length (val B x) = false := by
      cases d with
      | zero => rfl
      | succ d => exact if_pos (by omega)
    rw [hk]
    exact ⟨by simp, (e2.mulPost (work := []) (by simp) (by simp)).prod.rep⟩

theorem karaPanics_comm (d : Nat) : ∀ k m j n, karaPanics B d k m j n = karaPanics B d j n k m := by
  induction d with
  | zero => intros; rfl
  | succ d ih =>
    intro k m j n
    by_cases h : k < 20 ∨ j < 20
    · exact (if_pos h).trans (if_pos h.symm).symm
    · rw [karaPanics_succ h rfl, karaPanics_succ (mt Or.symm h) rfl, max_comm j k, ih (size _ _),
        ih (k - _), ih (halvesDigits _ _ _ _), Bool.or_comm (halvesFail _ (k - _) _ _)]

end Babs
