import Verif.SpecDec
import Verif.Props.Text
import Verif.Props.DivSafe
import Verif.Props.SquareFresh

/-!
# C30: when the conversion of long numbers to decimal is exact
-/

namespace Babs.Props

open UBig

variable (dbg : Bool)

/-- The decimal places of a decimal digit. -/
def places : Width → Nat
  | .w8 => 2
  | .w16 => 4
  | .w32 => 9
  | .w64 => 19

/-- A number of `n` binary digits, which has about `d = n * bytes * 643 / 267` decimal places, is split
at `2 ^ e` decimal digits; `e` is the least number for which this is at least a third of `d`. -/
def splitExp (w : Width) (n : Nat) : Nat :=
  let d := n * w.bytes * 643 / 267
  Nat.clog 2 ((d + 3 * places w - 1) / (3 * places w))

/-- The division of `m` by `n` is right, in base `b`: it contains no tie, and if `n` has 20 digits or more
nothing that can cause a panic. -/
def DivRight (b m n : Nat) : Prop :=
  ∀ y, Rep b y n → if y.length < 20 then NoTie b m (size b m) y
    else NoBlockTie b m (size b m) y ∧ NoBlockPanic (productOk b) b m (size b m) y

/-- The square of `m` is right, in base `b`: it meets neither a difference that the code gets wrong nor
stale digits. -/
def SquareRight (b m : Nat) : Prop :=
  ∃ d d', mulSafe b d m m = true ∧ squareFresh b d' true true m = true

/-- The square of `m` is returned. -/
def SquareReturned (dbg : Bool) (t : DType) (m : Nat) : Prop :=
  ∀ s, Rep t.radix s m → Returns (UBig.square t dbg s) fun z => Rep t.radix z (m ^ 2)

/-! ## Helpers -/

theorem squareReturned_of (dbg : Bool) (t : DType) {m : Nat} (h : SquareRight t.radix m) :
    SquareReturned dbg t m := by
  intro s hs
  obtain ⟨d, d', hd, hf⟩ := h
  rw [pow_two]
  exact tot_iff.mp ((square_fresh_spec (ops_lawful t dbg) hs hd hf).weaken fun _ h => h.2 trivial)

theorem places_eq (w : Width) : nrDecimalPlacesDec w = places w := by cases w <;> decide

theorem decRadix_eq (w : Width) : (DType.dec w).radix = 10 ^ places w := by cases w <;> decide

theorem binRadix_eq (w : Width) : (DType.bin w).radix = 256 ^ w.bytes := by cases w <;> decide

theorem scaleRounds_le (tot fuel : Nat) : ∀ p, 0 < p → tot ≤ 3 * p * 2 ^ fuel → ∀ e,
    scaleRounds tot fuel p ≤ e ↔ tot ≤ 3 * p * 2 ^ e := by
  induction fuel with
  | zero =>
    intro p hp h e
    have : 1 ≤ 2 ^ e := Nat.one_le_two_pow
    have := Nat.mul_le_mul_left (3 * p) this
    unfold scaleRounds
    simp at h
    omega
  | succ k ih =>
    intro p hp h e
    unfold scaleRounds
    split
    next hc =>
      cases e with
      | zero => simp; omega
      | succ e =>
        have := ih (2 * p) (by omega) (by rw [pow_succ] at h; linarith) e
        rw [show 3 * p * 2 ^ (e + 1) = 3 * (2 * p) * 2 ^ e by ring, ← this]
        omega
    next hc =>
      have : 1 ≤ 2 ^ e := Nat.one_le_two_pow
      have := Nat.mul_le_mul_left (3 * p) this
      omega

theorem splitExp_le (w : Width) (n e : Nat) :
    splitExp w n ≤ e ↔ n * w.bytes * 643 / 267 ≤ 3 * places w * 2 ^ e := by
  have hp : 0 < 3 * places w := by cases w <;> decide
  unfold splitExp
  simp only []
  rw [Nat.clog_le_iff_le_pow (by omega), ← Nat.lt_succ_iff, Nat.div_lt_iff_lt_mul hp,
    Nat.succ_eq_add_one, Nat.add_mul, Nat.mul_comm (2 ^ e)]
  omega

theorem scaleRounds_eq (w : Width) (n : Nat) :
    scaleRounds (nrDecimalPlacesBin w n) (nrDecimalPlacesBin w n) (nrDecimalPlacesDec w)
      = splitExp w n := by
  have hp : 0 < places w := by cases w <;> decide
  have h : nrDecimalPlacesBin w n ≤ 3 * places w * 2 ^ nrDecimalPlacesBin w n := by
    have h1 : nrDecimalPlacesBin w n < 2 ^ nrDecimalPlacesBin w n := Nat.lt_two_pow_self
    have h2 : 1 * 2 ^ nrDecimalPlacesBin w n ≤ 3 * places w * 2 ^ nrDecimalPlacesBin w n :=
      Nat.mul_le_mul_right _ (by omega)
    omega
  have := scaleRounds_le (nrDecimalPlacesBin w n) (nrDecimalPlacesBin w n) (places w) hp h
  rw [places_eq]
  refine Nat.le_antisymm ?_ ?_
  · exact (this _).mpr ((splitExp_le w n _).mp (le_refl _))
  · exact (splitExp_le w n _).mpr ((this _).mp (le_refl _))

theorem splitExp_mono (w : Width) {m n : Nat} (h : m ≤ n) : splitExp w m ≤ splitExp w n := by
  rw [splitExp_le]
  refine le_trans (Nat.div_le_div_right ?_) ((splitExp_le w n _).mp (le_refl _))
  exact Nat.mul_le_mul_right _ (Nat.mul_le_mul_right _ h)

/-- Below the exponent the decimal places are less than a third of those of the number. -/
theorem lt_of_lt_splitExp (w : Width) {n e : Nat} (h : e < splitExp w n) :
    3 * places w * 2 ^ e < n * w.bytes * 643 / 267 := by
  by_contra hc
  have := (splitExp_le w n e).mpr (by omega)
  omega

/-- A power of ten of `k` decimal places in base `256 ^ c`. -/
theorem pow10_le {k c j : Nat} (h : 5 * k ≤ 12 * (c * j)) : 10 ^ k ≤ (256 ^ c) ^ j := by
  have h1 : (10 ^ k) ^ 5 ≤ ((256 ^ c) ^ j) ^ 5 := by
    rw [← pow_mul, ← pow_mul, ← pow_mul]
    have e1 : (10 : Nat) ^ (k * 5) ≤ 10 ^ (12 * (c * j)) := Nat.pow_le_pow_right (by omega) (by omega)
    have e2 : (10 : Nat) ^ (12 * (c * j)) = (10 ^ 12) ^ (c * j) := pow_mul _ _ _
    have e3 : ((10 : Nat) ^ 12) ^ (c * j) ≤ (256 ^ 5) ^ (c * j) := Nat.pow_le_pow_left (by decide) _
    have e4 : ((256 : Nat) ^ 5) ^ (c * j) = 256 ^ (c * (j * 5)) := by rw [← pow_mul]; congr 1; ring
    omega
  exact le_of_pow_le_pow_left₀ (by omega) (by omega) h1

/-- The divisor has fewer digits than the number. -/
theorem split_lt (w : Width) {n : Nat} (hn : 16 ≤ n) :
    (DType.dec w).radix ^ 2 ^ splitExp w n ≤ (DType.bin w).radix ^ (n - 1) := by
  rw [decRadix_eq, binRadix_eq, ← pow_mul]
  apply pow10_le
  have he : splitExp w n ≠ 0 := by
    intro h
    have := (splitExp_le w n 0).mp (by omega)
    cases w <;> simp [places, Width.bytes] at this <;> omega
  obtain ⟨e, he⟩ := Nat.exists_eq_succ_of_ne_zero he
  have := lt_of_lt_splitExp w (n := n) (e := e) (by omega)
  rw [he, pow_succ]
  cases w <;> simp only [places, Width.bytes] at * <;> omega

theorem makeScales_spec (w : Width) (rounds : Nat) : ∀ (s : List Nat) (j : Nat),
    Rep (DType.bin w).radix s ((DType.dec w).radix ^ 2 ^ j) →
    (∀ i, j ≤ i → i < j + rounds → ∀ s, Rep (DType.bin w).radix s ((DType.dec w).radix ^ 2 ^ i) →
      Returns (UBig.square (.bin w) dbg s) fun z =>
        Rep (DType.bin w).radix z ((DType.dec w).radix ^ 2 ^ (i + 1))) →
    Returns (makeScales dbg w rounds s) fun l => l.length = rounds + 1 ∧
      ∀ i, i ≤ rounds → ∃ s, l[i]? = some s ∧
        Rep (DType.bin w).radix s ((DType.dec w).radix ^ 2 ^ (j + i)) := by
  induction rounds with
  | zero =>
    intro s j hs _
    refine ⟨[s], rfl, rfl, fun i hi => ?_⟩
    have : i = 0 := by omega
    subst this
    exact ⟨s, rfl, hs⟩
  | succ k ih =>
    intro s j hs hsq
    obtain ⟨z, h1, h2⟩ := hsq j (le_refl _) (by omega) s hs
    obtain ⟨l, h3, h4, h5⟩ := ih z (j + 1) h2 fun i hi hi' => hsq i (by omega) (by omega)
    refine ⟨s :: l, ?_, by simp [h4], fun i hi => ?_⟩
    · unfold makeScales
      rw [h1, ok_bind, h3, ok_bind]
      rfl
    · cases i with
      | zero => exact ⟨s, rfl, hs⟩
      | succ i =>
        obtain ⟨s', h6, h7⟩ := h5 i (by omega)
        refine ⟨s', by simpa using h6, ?_⟩
        rwa [show j + (i + 1) = j + 1 + i by omega]

theorem size_rep {b : Nat} {x : List Nat} {m : Nat} (hb : 2 ≤ b) (h : Rep b x m) :
    size b m = x.length := by
  have := size_canon hb h.digs h.canon
  rwa [h.val_eq] at this

theorem size_eq_iff {b m k : Nat} (hb : 2 ≤ b) (hk : 0 < k) (hm : m < b ^ k) :
    size b m = k ↔ b ^ (k - 1) ≤ m := by
  have h1 := size_le hb hm
  have h2 := lt_pow_size m hb
  have hp : 0 < b ^ (k - 1) := Nat.pow_pos (by omega)
  constructor
  · intro h
    have h0 : m ≠ 0 := by rintro rfl; rw [size_zero] at h; omega
    unfold size at h
    rw [if_neg h0] at h
    rw [← h, Nat.add_sub_cancel]
    exact Nat.pow_log_le_self b h0
  · intro h
    by_contra hc
    have : b ^ size b m ≤ b ^ (k - 1) := Nat.pow_le_pow_right (by omega) (by omega)
    omega

theorem size_split {b m u : Nat} (hb : 2 ≤ b) (h : b ^ u ≤ m) : size b m = u + size b (m / b ^ u) := by
  have h1 : 0 < b ^ u := Nat.pow_pos (by omega)
  have h2 : 0 < m / b ^ u := Nat.div_pos h h1
  unfold size
  rw [if_neg (by omega), if_neg (by omega), Nat.log_div_base_pow]
  have : u ≤ Nat.log b m := by
    by_contra hc
    have := Nat.lt_pow_of_log_lt (b := b) (x := u) (y := m) (by omega) (by omega)
    omega
  omega

/-- The divisions are right. -/
def DivOk (w : Width) (m n : Nat) : Prop :=
  ∀ x y, Rep (DType.bin w).radix x m → Rep (DType.bin w).radix y n →
    DivisionExact (.bin w) dbg (fun _ => False) x y m n

theorem buildDecimal_spec (w : Width) (scales : List (List Nat))
    (hs : ∀ i, i < scales.length → ∃ s, scales[i]? = some s ∧
        Rep (DType.bin w).radix s ((DType.dec w).radix ^ 2 ^ i)) (fuel : Nat) :
    ∀ (x : List Nat) (m : Nat), Rep (DType.bin w).radix x m → x.length < fuel →
    (16 ≤ x.length → splitExp w x.length < scales.length) →
    EverySplit (DivOk dbg w) (DType.bin w).radix (DType.dec w).radix (splitExp w) fuel m →
    Returns (buildDecimal dbg w scales fuel x) fun z =>
      (Digs (DType.dec w).radix z ∧ Canon z ∧ (m ≠ 0 → z ≠ [])) ∧
      z.length ≤ size (DType.dec w).radix m ∧
      if padded (DType.bin w).radix (DType.dec w).radix (splitExp w) fuel m = true then
        Rep (DType.dec w).radix z m
      else z.length < size (DType.dec w).radix m := by
  have hB := (ops_lawful (.bin w) dbg).base
  have hR := (ops_lawful (.dec w) dbg).base
  induction fuel with
  | zero => intro x m _ h; omega
  | succ k ih =>
    intro x m hx hl hi hd
    have hsz := size_rep (by omega) hx
    by_cases h16 : x.length < 16
    · obtain ⟨z, h1, h2⟩ := buildDecimal_small dbg w scales k x m hx h16
      refine ⟨z, h1, ⟨h2.digs, h2.canon, ?_⟩, (size_rep (by omega) h2).ge, ?_⟩
      · rintro h0 rfl
        have := h2.val_eq
        simp at this
        omega
      rw [if_pos]
      · exact h2
      · rw [padded, if_pos (by omega)]
    · have hd' := hd (by omega)
      simp only [hsz] at hd'
      obtain ⟨hdiv, hdl, hdh⟩ := hd'
      obtain ⟨s, hs1, hs2⟩ := hs _ (hi (by omega))
      have hsl := split_lt w (n := x.length) (by omega)
      set R := (DType.dec w).radix with hRdef
      set u := 2 ^ splitExp w x.length with hu
      have hu0 : 0 < u := Nat.two_pow_pos _
      have hS : 0 < R ^ u := Nat.pow_pos (by omega)
      have hmx : (DType.bin w).radix ^ (x.length - 1) ≤ m := by
        have := (size_eq_iff (b := (DType.bin w).radix) (m := m) (k := x.length) (by omega) (by omega)
          (by rw [← hx.val_eq]; exact val_lt hx.digs)).mp hsz
        exact this
      have hSm : R ^ u ≤ m := le_trans hsl hmx
      obtain ⟨⟨hi', r⟩, g1, g2, low, rfl, g3⟩ := tot_iff.mp (hdiv x s hx hs2).divAssign
      simp only [] at g2 g3
      have hm : m < (DType.bin w).radix ^ x.length := by rw [← hx.val_eq]; exact val_lt hx.digs
      have hp1 : (DType.bin w).radix ^ x.length
          = (DType.bin w).radix * (DType.bin w).radix ^ (x.length - 1) := by
        rw [← pow_succ', Nat.sub_add_cancel (by omega)]
      have llow : low.length < x.length := by
        have : m % R ^ u < (DType.bin w).radix ^ (x.length - 1) := lt_of_lt_of_le (Nat.mod_lt _ hS) hsl
        have := size_le (B := (DType.bin w).radix) (by omega) this
        rw [size_rep (by omega) g3] at this
        omega
      have lhi : hi'.length < x.length := by
        have hRu : (DType.bin w).radix ≤ R ^ u := by
          have e1 : R ^ 2 ≤ R ^ u := by
            refine Nat.pow_le_pow_right (by omega) ?_
            rw [hu]
            have he : splitExp w x.length ≠ 0 := by
              intro h
              have := (splitExp_le w x.length 0).mp (by omega)
              cases w <;> simp [places, Width.bytes] at this <;> omega
            exact Nat.le_self_pow he 2
          refine le_trans ?_ e1
          rw [hRdef]
          cases w <;> decide
        have : m / R ^ u < (DType.bin w).radix ^ (x.length - 1) := by
          rw [Nat.div_lt_iff_lt_mul hS]
          calc m < _ := hm
            _ = (DType.bin w).radix ^ (x.length - 1) * (DType.bin w).radix := by rw [hp1]; ring
            _ ≤ _ := Nat.mul_le_mul_left _ hRu
        have := size_le (B := (DType.bin w).radix) (by omega) this
        rw [size_rep (by omega) g2] at this
        omega
      obtain ⟨zl, l1, ⟨l2, -, -⟩, l3, l4⟩ := ih low _ g3 (by omega)
        (fun _ => lt_of_le_of_lt (splitExp_mono w (by omega)) (hi (by omega))) hdl
      obtain ⟨zh, k1, ⟨k2, kc, kn⟩, k3, k4⟩ := ih hi' _ g2 (by omega)
        (fun _ => lt_of_le_of_lt (splitExp_mono w (by omega)) (hi (by omega))) hdh
      have hlow : m % R ^ u < R ^ u := Nat.mod_lt _ hS
      have e1 := size_split (b := R) (by omega) hSm
      have e2 := size_le (B := R) (by omega) hlow
      have e3 := size_eq_iff (b := R) (by omega) hu0 hlow
      have hne : zh ≠ [] := kn (Nat.div_pos hSm hS).ne'
      have hcan : Canon (zl ++ zh) := by
        unfold Canon at kc ⊢
        rw [List.getLast?_append_of_ne_nil _ hne]
        exact kc
      refine ⟨zl ++ zh, ?_, ⟨(digs_append _ _ _).mpr ⟨l2, k2⟩, hcan, fun _ => by simp [hne]⟩,
        by rw [List.length_append]; omega, ?_⟩
      · rw [buildDecimal]
        rw [if_neg (by omega), if_neg (by unfold toDecDivCutoff; omega)]
        simp only [scaleRounds_eq, hs1]
        rw [ok_bind, g1, ok_bind]
        simp only [unwrapR]
        rw [ok_bind, l1, ok_bind, k1, ok_bind]
        rfl
      · have hpad : padded (DType.bin w).radix R (splitExp w) (k + 1) m = true ↔
            (R ^ (u - 1) ≤ m % R ^ u ∧ padded (DType.bin w).radix R (splitExp w) k (m % R ^ u) = true) ∧
              padded (DType.bin w).radix R (splitExp w) k (m / R ^ u) = true := by
          rw [padded, if_neg (by omega)]
          simp only [hsz, Bool.and_eq_true, decide_eq_true_eq]
          rw [← hu]
        simp only [hpad]
        split
        next hc =>
          obtain ⟨⟨c1, c2⟩, c3⟩ := hc
          rw [if_pos c2] at l4
          rw [if_pos c3] at k4
          have hlen : zl.length = u := by
            rw [← size_rep (by omega) l4]; exact e3.mpr c1
          refine ⟨(digs_append _ _ _).mpr ⟨l2, k2⟩, hcan, ?_⟩
          rw [val_append, l4.val_eq, k4.val_eq, hlen]
          exact Nat.mod_add_div m (R ^ u)
        next hc =>
          rw [List.length_append]
          by_cases c2 : padded (DType.bin w).radix R (splitExp w) k (m % R ^ u) = true
          · by_cases c3 : padded (DType.bin w).radix R (splitExp w) k (m / R ^ u) = true
            · have : ¬ size R (m % R ^ u) = u := fun h => hc ⟨⟨e3.mp h, c2⟩, c3⟩
              omega
            · rw [if_neg c3] at k4
              omega
          · rw [if_neg c2] at l4
            omega

theorem divOk_of (w : Width) (m : Nat) (y : Nat) (hy0 : y ≠ 0) (h : DivRight (DType.bin w).radix m y) :
    DivOk dbg w m y := by
  intro x z hx hz
  have hB := (ops_lawful (.bin w) dbg).base
  have := h z hz
  rw [size_rep (by omega) hx] at this
  by_cases hl : z.length < 20
  · rw [if_pos hl] at this
    exact div_short_binary_exact_partial dbg w x z m y hx hz hy0 hl this
  · rw [if_neg hl] at this
    exact (div_exact_partial _ dbg x z m y hx hz hy0 (scaleFits_binary w z y hz)
      (Or.inr (by rw [if_neg hl]; exact this.1))).weaken fun _ h => h.2.2 this.2

theorem everySplit_ne {G G' : Nat → Nat → Prop} {b r : Nat} {e : Nat → Nat} (hr : 0 < r)
    (h : ∀ m n, n ≠ 0 → G m n → G' m n) (k : Nat) :
    ∀ m, EverySplit G b r e k m → EverySplit G' b r e k m := by
  induction k with
  | zero => intro m _; trivial
  | succ k ih =>
    intro m hm h16
    obtain ⟨h1, h2, h3⟩ := hm h16
    exact ⟨h _ _ (Nat.pow_pos hr).ne' h1, ih _ h2, ih _ h3⟩

/-- The size of a power of the decimal radix, in binary digits. -/
theorem decPow_size (w : Width) {k j : Nat} (h : 5 * (places w * k) ≤ 12 * (w.bytes * j)) :
    size (DType.bin w).radix ((DType.dec w).radix ^ k) ≤ j + 1 := by
  have hB := (ops_lawful (.bin w) true).base
  refine size_le (by omega) ?_
  rw [decRadix_eq, ← pow_mul]
  refine lt_of_le_of_lt (pow10_le (c := w.bytes) (j := j) h) ?_
  rw [← binRadix_eq]
  exact Nat.pow_lt_pow_right (by omega) (by omega)

theorem toDecimal_spec (w : Width) (x : List Nat) (m : Nat) (hx : Rep (DType.bin w).radix x m)
    (hsq : ∀ i, i < splitExp w x.length → SquareReturned dbg (.bin w) ((DType.dec w).radix ^ 2 ^ i))
    (hdiv : EverySplit (DivRight (DType.bin w).radix) (DType.bin w).radix (DType.dec w).radix
      (splitExp w) (x.length + 1) m) :
    Returns (toDecimal dbg w x) fun z => Rep (DType.dec w).radix z (val (DType.dec w).radix z) ∧
      if padded (DType.bin w).radix (DType.dec w).radix (splitExp w) (x.length + 1) m = true then
        val (DType.dec w).radix z = m
      else val (DType.dec w).radix z < m := by
  have hB := (ops_lawful (.bin w) dbg).base
  have hR := (ops_lawful (.dec w) dbg).base
  have hd := everySplit_ne (by omega) (fun m n hn => divOk_of dbg w m n hn) _ _ hdiv
  have key : ∀ scales : List (List Nat), (16 ≤ x.length → splitExp w x.length < scales.length) →
      (∀ i, i < scales.length → ∃ s, scales[i]? = some s ∧
        Rep (DType.bin w).radix s ((DType.dec w).radix ^ 2 ^ i)) →
      Returns (buildDecimal dbg w scales (x.length + 1) x) fun z =>
        Rep (DType.dec w).radix z (val (DType.dec w).radix z) ∧
        if padded (DType.bin w).radix (DType.dec w).radix (splitExp w) (x.length + 1) m = true then
          val (DType.dec w).radix z = m
        else val (DType.dec w).radix z < m := by
    intro scales h1 h2
    obtain ⟨z, h3, ⟨h4, h5, -⟩, -, h6⟩ :=
      buildDecimal_spec dbg w scales h2 (x.length + 1) x m hx (by omega) h1 hd
    refine ⟨z, h3, ⟨h4, h5, rfl⟩, ?_⟩
    split
    next hc => rw [if_pos hc] at h6; exact h6.val_eq
    next hc =>
      rw [if_neg hc] at h6
      have g1 := val_lt h4
      by_contra hcon
      have g2 := size_le (B := (DType.dec w).radix) (n := m) (by omega) (lt_of_le_of_lt (by omega) g1)
      omega
  unfold toDecimal
  by_cases h16 : x.length < 16
  · rw [if_pos (by simpa [toDecDivCutoff] using h16)]
    exact key [] (fun h => by omega) (fun i hi => by simp at hi)
  · rw [if_neg (by simpa [toDecDivCutoff] using h16)]
    simp only [scaleRounds_eq]
    have h0 : Rep (DType.bin w).radix (ofWord (.bin w) w.decRadix) ((DType.dec w).radix ^ 2 ^ 0) := by
      rw [pow_zero, pow_one]
      exact ofWord_exact (.bin w) w.decRadix (by cases w <;> decide)
    obtain ⟨l, h1, h2, h3⟩ := makeScales_spec dbg w (splitExp w x.length) _ 0 h0 (by
      intro i _ hi s hs
      rw [pow_succ 2 i, pow_mul]
      exact hsq i (by omega) s hs)
    rw [h1, ok_bind]
    refine key l (fun _ => by omega) (fun i hi => ?_)
    have := h3 i (by omega)
    rwa [Nat.zero_add] at this

/-! ## Theorems -/

/-- C30: if the squares and divisions of the conversion are right, the result is right if and only if every
lower part has all its digits; otherwise it is a smaller number. -/
theorem toDecimal_iff (w : Width) (x : List Nat) (m : Nat)
    (hx : Rep (DType.bin w).radix x m)
    (hsq : ∀ i, i < splitExp w x.length → SquareReturned dbg (.bin w) ((DType.dec w).radix ^ 2 ^ i))
    (hdiv : EverySplit (DivRight (DType.bin w).radix) (DType.bin w).radix (DType.dec w).radix
      (splitExp w) (x.length + 1) m) :
    (Returns (toDecimal dbg w x) (fun z => Rep (DType.dec w).radix z m) ↔
      padded (DType.bin w).radix (DType.dec w).radix (splitExp w) (x.length + 1) m = true) ∧
    Returns (toDecimal dbg w x) fun z => ∃ n, n ≤ m ∧ Rep (DType.dec w).radix z n := by
  obtain ⟨z, h1, h2, h3⟩ := toDecimal_spec dbg w x m hx hsq hdiv
  refine ⟨⟨?_, ?_⟩, ?_⟩
  · rintro ⟨z', h4, h5⟩
    rw [h1] at h4
    cases h4
    by_contra hc
    rw [if_neg hc, h5.val_eq] at h3
    omega
  · intro hc
    rw [if_pos hc] at h3
    exact ⟨z, h1, h3 ▸ h2⟩
  · refine ⟨z, h1, _, ?_, h2⟩
    split at h3 <;> omega

/-- C30 (in part): if the squares and divisions that occur in it are right, the conversion to decimal
is exact if and only if every lower part has the full number of digits.  Otherwise a smaller number is
returned. -/
theorem toDecimal_exact_iff_partial (w : Width) (x : List Nat) (m : Nat)
    (hx : Rep (DType.bin w).radix x m)
    (hsq : ∀ i, i < splitExp w x.length → SquareRight (DType.bin w).radix ((DType.dec w).radix ^ 2 ^ i))
    (hdiv : EverySplit (DivRight (DType.bin w).radix) (DType.bin w).radix (DType.dec w).radix
      (splitExp w) (x.length + 1) m) :
    (Returns (toDecimal dbg w x) (fun z => Rep (DType.dec w).radix z m) ↔
      padded (DType.bin w).radix (DType.dec w).radix (splitExp w) (x.length + 1) m = true) ∧
    Returns (toDecimal dbg w x) fun z => ∃ n, n ≤ m ∧ Rep (DType.dec w).radix z n := by
  exact toDecimal_iff dbg w x m hx (fun i hi => squareReturned_of dbg _ (hsq i hi)) hdiv

/-- C30: converting a number of up to 3300 digits, no square meets stale digits. -/
theorem squareRight_upto3300 (w : Width) (n : Nat) (hn : n ≤ 3300) (i : Nat) (hi : i < splitExp w n)
    (h : ∃ d, mulSafe (DType.bin w).radix d ((DType.dec w).radix ^ 2 ^ i) ((DType.dec w).radix ^ 2 ^ i)
      = true) : SquareRight (DType.bin w).radix ((DType.dec w).radix ^ 2 ^ i) := by
  obtain ⟨d, hd⟩ := h
  have hB := (ops_lawful (.bin w) true).base
  refine ⟨d, 3, hd, squareFresh_of_short (.bin w) _ ?_⟩
  refine lt_of_lt_of_le (lt_pow_size _ (by omega : 2 ≤ (DType.bin w).radix))
    (Nat.pow_le_pow_right (by omega) ?_)
  have := lt_of_lt_splitExp w hi
  refine decPow_size w (j := 1130) ?_
  cases w <;> simp only [places, Width.bytes] at * <;> omega

theorem everySplit_40 (w : Width) (k : Nat) : ∀ m, size (DType.bin w).radix m ≤ 40 →
    EverySplit (fun m n => ∀ y, Rep (DType.bin w).radix y n →
        NoTie (DType.bin w).radix m (size (DType.bin w).radix m) y)
      (DType.bin w).radix (DType.dec w).radix (splitExp w) k m →
    EverySplit (DivRight (DType.bin w).radix) (DType.bin w).radix (DType.dec w).radix
      (splitExp w) k m := by
  have hB := (ops_lawful (.bin w) true).base
  induction k with
  | zero => intro m _ _; trivial
  | succ k ih =>
    intro m h40 hm h16
    obtain ⟨h1, h2, h3⟩ := hm h16
    have hmono : ∀ a, a ≤ m → size (DType.bin w).radix a ≤ 40 := fun a ha =>
      size_le (by omega) (lt_of_le_of_lt ha (lt_of_lt_of_le (lt_pow_size m (by omega))
        (Nat.pow_le_pow_right (by omega) h40)))
    refine ⟨fun y hy => ?_, ih _ (hmono _ (Nat.mod_le _ _)) h2, ih _ (hmono _ (Nat.div_le_self _ _)) h3⟩
    rw [if_pos]
    · exact h1 y hy
    · rw [← size_rep (by omega) hy]
      have he : splitExp w (size (DType.bin w).radix m) ≤ 4 :=
        le_trans (splitExp_mono w h40) (by cases w <;> decide +kernel)
      have : 2 ^ splitExp w (size (DType.bin w).radix m) ≤ 2 ^ 4 := Nat.pow_le_pow_right (by omega) he
      refine Nat.lt_of_le_of_lt (decPow_size w (j := 16) ?_) (by omega)
      cases w <;> simp only [places, Width.bytes] at * <;> omega

/-- C30 (in part): for numbers of up to 40 digits only ties are to be excluded. -/
theorem toDecimal_upto40_exact_iff_partial (w : Width) (x : List Nat) (m : Nat)
    (hx : Rep (DType.bin w).radix x m) (hl : x.length ≤ 40)
    (hdiv : EverySplit (fun m n => ∀ y, Rep (DType.bin w).radix y n →
        NoTie (DType.bin w).radix m (size (DType.bin w).radix m) y)
      (DType.bin w).radix (DType.dec w).radix (splitExp w) (x.length + 1) m) :
    (Returns (toDecimal dbg w x) (fun z => Rep (DType.dec w).radix z m) ↔
      padded (DType.bin w).radix (DType.dec w).radix (splitExp w) (x.length + 1) m = true) ∧
    Returns (toDecimal dbg w x) fun z => ∃ n, n ≤ m ∧ Rep (DType.dec w).radix z n := by
  have hB := (ops_lawful (.bin w) true).base
  refine toDecimal_exact_iff_partial dbg w x m hx (fun i hi => squareRight_upto3300 w _ (by omega) i hi
    ⟨1, mulSafe_short 0 (Or.inl ?_)⟩)
    (everySplit_40 w _ _ (by rw [size_rep (by omega) hx]; omega) hdiv)
  have := lt_of_lt_splitExp w hi
  refine Nat.lt_of_le_of_lt (decPow_size w (j := 17) ?_) (by omega)
  cases w <;> simp only [places, Width.bytes] at * <;> omega

theorem mulSafe_scales : ∀ w : Width, ∀ i ∈ List.range 12, mulSafe (DType.bin w).radix 20
    ((DType.dec w).radix ^ 2 ^ i) ((DType.dec w).radix ^ 2 ^ i) = true := by
  intro w; cases w <;> decide +kernel

theorem squareFresh_scales : ∀ w : Width, ∀ i ∈ List.range 12,
    squareFresh (DType.bin w).radix 20 true true ((DType.dec w).radix ^ 2 ^ i) = true := by
  intro w; cases w <;> decide +kernel

/-- C30 (in part): for numbers of up to 10204 digits all squares are right; only the divisions remain. -/
theorem toDecimal_upto10204_exact_iff_partial (w : Width) (x : List Nat) (m : Nat)
    (hx : Rep (DType.bin w).radix x m) (hl : x.length ≤ 10204)
    (hdiv : EverySplit (DivRight (DType.bin w).radix) (DType.bin w).radix (DType.dec w).radix
      (splitExp w) (x.length + 1) m) :
    (Returns (toDecimal dbg w x) (fun z => Rep (DType.dec w).radix z m) ↔
      padded (DType.bin w).radix (DType.dec w).radix (splitExp w) (x.length + 1) m = true) ∧
    Returns (toDecimal dbg w x) fun z => ∃ n, n ≤ m ∧ Rep (DType.dec w).radix z n := by
  refine toDecimal_exact_iff_partial dbg w x m hx (fun i hi => ?_) hdiv
  have h12 : splitExp w x.length ≤ 12 :=
    le_trans (splitExp_mono w hl) (by rw [splitExp_le]; cases w <;> decide)
  have hi' : i ∈ List.range 12 := List.mem_range.mpr (by omega)
  exact ⟨20, 20, mulSafe_scales w i hi', squareFresh_scales w i hi'⟩

/-- C30 (in part): under the same conditions, the text is the standard decimal notation, and can be read
back, if and only if every lower part has the full number of digits. -/
theorem display_binary_iff_partial (w : Width) (x : List Nat) (m : Nat)
    (hx : Rep (DType.bin w).radix x m)
    (hsq : ∀ i, i < splitExp w x.length → SquareRight (DType.bin w).radix ((DType.dec w).radix ^ 2 ^ i))
    (hdiv : EverySplit (DivRight (DType.bin w).radix) (DType.bin w).radix (DType.dec w).radix
      (splitExp w) (x.length + 1) m) :
    (Returns (display (.bin w) dbg {} x) (fun s => Standard 10 false s m) ↔
      padded (DType.bin w).radix (DType.dec w).radix (splitExp w) (x.length + 1) m = true) ∧
    (Returns (display (.bin w) dbg {} x) (fun s => fromStr (.bin w) dbg s = .ok (.ok x)) ↔
      padded (DType.bin w).radix (DType.dec w).radix (splitExp w) (x.length + 1) m = true) := by
  obtain ⟨z, h1, h2, h3⟩ := toDecimal_spec dbg w x m hx
    (fun i hi => squareReturned_of dbg _ (hsq i hi)) hdiv
  obtain ⟨s, h4, h5⟩ := fmtDec_formatted w {} z _ h2
  have e : fmtDec w {} z = s := by simpa using formatted_plain rfl h5
  have hdis : display (.bin w) dbg {} x = .ok s := by
    unfold display
    simp only [h1, ok_bind]
    rw [e]; rfl
  obtain ⟨r, g1, y, rfl, g2⟩ := parse_decimal (.bin w) dbg s _ h4.numeral
  have hval : padded (DType.bin w).radix (DType.dec w).radix (splitExp w) (x.length + 1) m = true ↔
      val (DType.dec w).radix z = m := by
    constructor
    · intro h; rwa [if_pos h] at h3
    · intro h
      by_contra hc
      rw [if_neg hc] at h3
      omega
  rw [hval]
  refine ⟨⟨?_, ?_⟩, ?_, ?_⟩
  · rintro ⟨s', k1, k2⟩
    rw [hdis] at k1
    cases k1
    obtain ⟨r, k3, y', rfl, k4⟩ := parse_decimal (.bin w) dbg s _ k2.numeral
    rw [g1] at k3
    cases k3
    rw [← g2.val_eq, ← k4.val_eq]
  · intro h
    exact ⟨s, hdis, h ▸ h4⟩
  · rintro ⟨s', k1, k2⟩
    rw [hdis] at k1
    cases k1
    rw [g1] at k2
    cases k2
    rw [← g2.val_eq, ← hx.val_eq]
  · intro h
    refine ⟨s, hdis, ?_⟩
    show fromStr (.bin w) dbg s = _
    rw [g1, (h ▸ g2 : Rep _ y m).unique hx]

/-! ## Examples -/

theorem divRight_short {b m n s : Nat} (y : List Nat) (hy : Rep b y n) (hl : y.length < 20)
    (hs : Scale b y s)
    (h : ∀ i, i < size b m - y.length → (m * 2 ^ s / b ^ (i + 1)) % (val b y * 2 ^ s) / b ^ (y.length - 1)
      < val b y * 2 ^ s / b ^ (y.length - 1)) : DivRight b m n := by
  intro y' hy'
  rw [hy'.unique hy, if_pos hl]
  exact noTie_of hs h

theorem divRight_long {b m n s k : Nat} (y : List Nat) (hy : Rep b y n) (hl : ¬ y.length < 20)
    (hs : Scale b y s) (hk : IsBlockLen y.length k)
    (h1 : ∀ i, i < (size b m - y.length) / k + 1 → tieFree b (k + 1) k
      (m * 2 ^ s * b ^ (k - y.length) / b ^ (i * k)
        % (val b y * 2 ^ s * b ^ (k - y.length) * b ^ k))
      (val b y * 2 ^ s * b ^ (k - y.length)) = true)
    (h2 : ∀ i, i < (size b m - y.length) / k + 1 → bzSafe (productOk b) b (k + 1) k
      (m * 2 ^ s * b ^ (k - y.length) / b ^ (i * k)
        % (val b y * 2 ^ s * b ^ (k - y.length) * b ^ k))
      (val b y * 2 ^ s * b ^ (k - y.length)) = true) : DivRight b m n := by
  intro y' hy'
  rw [hy'.unique hy, if_neg hl]
  exact ⟨noBlockTie_of hs hk h1, noBlockPanic_of hs hk h2⟩

/-- `10 ^ 16`, `10 ^ 32` and `10 ^ 64` in digits of eight bits. -/
def ten16 : List Nat := [0, 0, 193, 111, 242, 134, 35]
@[inherit_doc ten16]
def ten32 : List Nat := [0, 0, 0, 0, 129, 239, 172, 133, 91, 65, 109, 45, 238, 4]
@[inherit_doc ten16]
def ten64 : List Nat := [0, 0, 0, 0, 0, 0, 0, 0, 1, 31, 106, 191, 100, 237, 56, 110, 237, 151, 167, 218,
  244, 249, 63, 233, 3, 79, 24]

/-- A number of 40 digits with two divisions and no tie; it is converted correctly. -/
example : let m := val 256 (mixed 256 39 1 ++ [1])
    EverySplit (fun m n => ∀ y, Rep 256 y n → NoTie 256 m (size 256 m) y) 256 100 (splitExp .w8) 41 m ∧
    padded 256 100 (splitExp .w8) 41 m = true := by
  intro m
  have hy : Rep 256 ten32 (100 ^ 2 ^ splitExp .w8 40) := by decide +kernel
  have h40 : size 256 m = 40 := by decide +kernel
  have h26 : size 256 (m / 100 ^ 2 ^ splitExp .w8 40) = 26 := by decide +kernel
  have he : splitExp .w8 26 = splitExp .w8 40 := by decide +kernel
  have hs : Scale 256 ten32 5 := ⟨4, rfl, by decide, by decide⟩
  refine ⟨fun _ => ?_, by decide +kernel⟩
  simp only [h40]
  refine ⟨fun y h => ?_, fun h => absurd h (by decide +kernel), fun _ => ?_⟩
  · rw [h.unique hy]
    exact noTie_of hs (by decide +kernel)
  · simp only [h26, he]
    refine ⟨fun y h => ?_, fun h => absurd h (by decide +kernel), fun h => absurd h (by decide +kernel)⟩
    rw [h.unique hy]
    exact noTie_of hs (by decide +kernel)

/-- A number of 60 digits with four divisions, the first by a number of 27 digits. -/
example : let m := val 256 (mixed 256 59 1 ++ [1])
    (∀ i, i < splitExp .w8 60 → SquareRight 256 (100 ^ 2 ^ i)) ∧
    EverySplit (DivRight 256) 256 100 (splitExp .w8) 61 m ∧ padded 256 100 (splitExp .w8) 61 m = true := by
  intro m
  have e60 : splitExp .w8 60 = 5 := by decide +kernel
  have e33 : splitExp .w8 33 = 4 := by decide +kernel
  have e27 : splitExp .w8 27 = 4 := by decide +kernel
  have e20 : splitExp .w8 20 = 3 := by decide +kernel
  have n60 : size 256 m = 60 := by decide +kernel
  have n27 : size 256 (m % 100 ^ 2 ^ 5) = 27 := by decide +kernel
  have n33 : size 256 (m / 100 ^ 2 ^ 5) = 33 := by decide +kernel
  have n20 : size 256 (m / 100 ^ 2 ^ 5 / 100 ^ 2 ^ 4) = 20 := by decide +kernel
  refine ⟨?_, fun _ => ?_, by decide +kernel⟩
  · intro i hi
    refine squareRight_upto3300 .w8 60 (by decide) i hi ⟨10, ?_⟩
    rw [e60] at hi
    have : i = 0 ∨ i = 1 ∨ i = 2 ∨ i = 3 ∨ i = 4 := by omega
    rcases this with rfl | rfl | rfl | rfl | rfl <;> decide +kernel
  simp only [n60, e60]
  refine ⟨?_, fun _ => ?_, fun _ => ?_⟩
  · exact divRight_long ten64 (s := 3) (k := 28) (by decide +kernel) (by decide)
      ⟨24, rfl, by decide, by decide⟩ ⟨1, by decide, by decide, by decide, by decide, by decide⟩
      (by decide +kernel) (by decide +kernel)
  · simp only [n27, e27]
    refine ⟨?_, fun h => absurd h (by decide +kernel), fun h => absurd h (by decide +kernel)⟩
    exact divRight_short ten32 (s := 5) (by decide +kernel) (by decide) ⟨4, rfl, by decide, by decide⟩
      (by decide +kernel)
  · simp only [n33, e33]
    refine ⟨?_, fun h => absurd h (by decide +kernel), fun _ => ?_⟩
    · exact divRight_short ten32 (s := 5) (by decide +kernel) (by decide) ⟨4, rfl, by decide, by decide⟩
        (by decide +kernel)
    simp only [n20, e20]
    refine ⟨?_, fun h => absurd h (by decide +kernel), fun h => absurd h (by decide +kernel)⟩
    exact divRight_short ten16 (s := 2) (by decide +kernel) (by decide) ⟨35, rfl, by decide, by decide⟩
      (by decide +kernel)

/-- The numbers of `toDecimal_wrong` have a lower part with fewer digits. -/
example : padded 256 100 (splitExp .w8) 17 (10 ^ 37) = false := by decide +kernel

end Babs.Props
