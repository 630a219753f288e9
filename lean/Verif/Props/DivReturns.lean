import Verif.Proofs.DivTotal
import Verif.Props.DivLengths

/-!
# When short divisions return

C17 and C34 for divisors of fewer than 20 digits, whether the quotient is right or not.
-/

namespace Babs.Props

open Babs

variable {D : DigitOps} {B : Nat} {dbg : Bool}

theorem divOps_of_divBig {x y : List Nat} (cy : Canon y) (hne : y ≠ []) (hlen : y.length ≤ x.length)
    (h : Tot (divBig D dbg x y (List.replicate (x.length - y.length + 1) 0)) (fun _ => True)) :
    (∃ z, divOp D dbg x y = .ok z) ∧ ∃ z, remOp D dbg x y = .ok z := by
  have key := h.and_of_tot (divBig_ok (D := D) (dbg := dbg) x y cy hne hlen)
  cases e : divBig D dbg x y (List.replicate (x.length - y.length + 1) 0) with
  | error p => rw [e] at h; exact h.elim
  | ok r =>
    rw [e] at key
    obtain ⟨⟨nq, nr⟩, hp⟩ := key
    obtain ⟨num, quot, res⟩ := r
    simp only at hp
    subst hp
    constructor
    · unfold divOp divAssignBig
      simp only []
      rw [if_neg (by omega), e]
      simp only [ok_bind, ubigNew, normalise]
      obtain ⟨nd, a1, -⟩ := dropLeadingZeros_spec (num.take nr) (num.take nr).length (le_refl _)
      rw [a1]
      exact ⟨_, rfl⟩
    · unfold remOp remAssignBig
      simp only []
      rw [if_pos hlen, e]
      exact ⟨_, rfl⟩

theorem divOps_of_divBig_error {x y : List Nat} {p : Panic} (hlen : y.length ≤ x.length)
    (h : divBig D dbg x y (List.replicate (x.length - y.length + 1) 0) = .error p) :
    divOp D dbg x y = .error p ∧ remOp D dbg x y = .error p := by
  constructor
  · unfold divOp divAssignBig
    simp only []
    rw [if_neg (by omega), h]
    rfl
  · unfold remOp remAssignBig
    simp only []
    rw [if_pos hlen, h]
    rfl

theorem topDigit_bounds {b n d s : Nat} {y : List Nat} (hb : 0 < b) (hy : Rep b y n)
    (hd : y.getLast? = some d) :
    d * 2 ^ s ≤ n * 2 ^ s / b ^ (y.length - 1) ∧ n * 2 ^ s / b ^ (y.length - 1) < (d + 1) * 2 ^ s := by
  have hne : y ≠ [] := by rintro rfl; simp at hd
  obtain ⟨v, d', rfl⟩ : ∃ v d, y = v ++ [d] :=
    ⟨y.dropLast, y.getLast hne, (List.dropLast_concat_getLast _).symm⟩
  have : d' = d := by simpa using hd
  subst this
  have hv : val b v < b ^ v.length := val_lt fun x hx => hy.digs x (by simp [hx])
  have hval : n = val b v + b ^ v.length * d' := by rw [← hy.val_eq, val_snoc]
  have hpos : 0 < b ^ v.length := Nat.pow_pos hb
  simp only [List.length_append, List.length_singleton, Nat.add_sub_cancel]
  constructor
  · rw [Nat.le_div_iff_mul_le hpos, hval]
    calc d' * 2 ^ s * b ^ v.length = b ^ v.length * d' * 2 ^ s := by ring
      _ ≤ _ := Nat.mul_le_mul_right _ (by omega)
  · rw [Nat.div_lt_iff_lt_mul hpos, hval]
    calc (val b v + b ^ v.length * d') * 2 ^ s < (b ^ v.length + b ^ v.length * d') * 2 ^ s :=
          Nat.mul_lt_mul_of_pos_right (by omega) (Nat.two_pow_pos s)
      _ = _ := by ring

theorem topOf_eq {b n s : Nat} {y : List Nat} (hy : Rep b y n) :
    topOf b y s = n * 2 ^ s / b ^ (y.length - 1) % b := by rw [topOf, hy.val_eq]

/-- The scaled divisor fits if and only if its leading part is a digit. -/
theorem fits_iff_top {b n s : Nat} {y : List Nat} (hb : 0 < b) (hne : y ≠ []) :
    n * 2 ^ s < b ^ y.length ↔ n * 2 ^ s / b ^ (y.length - 1) < b := by
  rw [Nat.div_lt_iff_lt_mul (Nat.pow_pos hb), ← pow_succ']
  have : 0 < y.length := List.length_pos_iff.mpr hne
  rw [show y.length - 1 + 1 = y.length by omega]

theorem divOps_smaller (t : DType) (dbg : Bool) {x y : List Nat} {m n : Nat} (hx : Rep t.radix x m)
    (hy : Rep t.radix y n) (h : m < n) :
    (∃ q, UBig.div t dbg x y = .ok q) ∧ ∃ r, UBig.rem t dbg x y = .ok r := by
  have := div_smaller_exact t dbg x y m n hx hy h
  obtain ⟨q, hq, -⟩ := tot_iff.mp this.div
  obtain ⟨r, hr, -⟩ := tot_iff.mp this.rem
  exact ⟨⟨q, hq⟩, r, hr⟩

/-- C34 and C17, binary types: division by a nonzero number of fewer than 20 digits never panics, in either
build profile, even where a tie makes the quotient wrong. -/
theorem div_binary_short_returns (w : Width) (dbg : Bool) (x y : List Nat) (m n : Nat)
    (hx : Rep (DType.bin w).radix x m) (hy : Rep (DType.bin w).radix y n) (hn : n ≠ 0) (h20 : y.length < 20) :
    (∃ q, UBig.div (.bin w) dbg x y = .ok q) ∧ ∃ r, UBig.rem (.bin w) dbg x y = .ok r := by
  have L := ops_lawful (.bin w) dbg
  have hne : y ≠ [] := by
    rintro rfl
    exact hn (by simpa using hy.val_eq.symm)
  by_cases hmn : m < n
  · exact divOps_smaller _ dbg hx hy hmn
  have hlen : y.length ≤ x.length :=
    hy.canon.length_le L.pos hx.digs (by rw [hx.val_eq, hy.val_eq]; omega)
  refine divOps_of_divBig hy.canon hne hlen ?_
  refine divBig_tot (P := fun d => d < (DType.bin w).radix) L
    (bin_closed dbg w.bits (by cases w <;> simp [Width.bits])) (fun _ h => h) hx.digs hy.digs hy.canon hne
    hlen h20 ?_ (fun s h0 hs => L.shrTot h0 hs)
  intro d s h1 h2 h3 _
  have hfit := scaleFits_binary w y n hy s ⟨d, h1, h2, h3⟩
  rw [hy.val_eq, fits_iff_top L.pos hne] at hfit
  rw [topOf_eq hy, Nat.mod_eq_of_lt hfit]
  have hb := L.base
  have := (topDigit_bounds (s := s) L.pos hy h1).1
  rw [pow_succ] at h3
  constructor
  · rintro h
    rw [h] at this
    have : d * (2 ^ s * 2) = d * 2 ^ s * 2 := by ring
    omega
  · intro _
    have : d * (2 ^ s * 2) = d * 2 ^ s * 2 := by ring
    omega

/-- C34 and C17, decimal types in release builds: which divisions by a nonzero number of fewer than 20 digits
panic.  It is a division by zero: scaling the divisor carries out of its leading digit and leaves zero there.
All others return, although the quotient is wrong if the scaled divisor does not fit. -/
theorem div_decimal_release_panics_exactly (w : Width) (x y : List Nat) (m n s : Nat)
    (hx : Rep (DType.dec w).radix x m) (hy : Rep (DType.dec w).radix y n) (hn : n ≠ 0) (h20 : y.length < 20)
    (hs : Scale (DType.dec w).radix y s) :
    if n ≤ m ∧ n * 2 ^ s / (DType.dec w).radix ^ (y.length - 1) = (DType.dec w).radix then
      Panics (UBig.div (.dec w) false x y) .divZero ∧ Panics (UBig.rem (.dec w) false x y) .divZero
    else (∃ q, UBig.div (.dec w) false x y = .ok q) ∧ ∃ r, UBig.rem (.dec w) false x y = .ok r := by
  have L := ops_lawful (.dec w) false
  have hb := L.base
  have hne : y ≠ [] := by
    rintro rfl
    exact hn (by simpa using hy.val_eq.symm)
  by_cases hmn : m < n
  · rw [if_neg (by omega)]
    exact divOps_smaller _ false hx hy hmn
  have hlen : y.length ≤ x.length :=
    hy.canon.length_le L.pos hx.digs (by rw [hx.val_eq, hy.val_eq]; omega)
  obtain ⟨d, h1, h2, h3⟩ := hs
  have ht := topDigit_bounds (s := s) L.pos hy h1
  have hsb : 1 * 2 ^ s ≤ d * 2 ^ s := Nat.mul_le_mul_right _ (by
    by_contra h
    have : d = 0 := by omega
    subst this
    omega)
  have e1 : (d + 1) * 2 ^ s = d * 2 ^ s + 2 ^ s := by ring
  have hiff : topOf (DType.dec w).radix y s = 0 ↔
      n * 2 ^ s / (DType.dec w).radix ^ (y.length - 1) = (DType.dec w).radix := by
    rw [topOf_eq hy]
    constructor
    · intro h
      obtain ⟨k, hk⟩ := Nat.dvd_of_mod_eq_zero h
      rcases k with _ | _ | k
      · omega
      · omega
      · have : (DType.dec w).radix * (k + 1 + 1) = (DType.dec w).radix * k + 2 * (DType.dec w).radix := by ring
        omega
    · intro h; rw [h]; exact Nat.mod_self _
  split
  · rename_i h
    have h0 := hiff.mpr h.2
    have hl2 : 2 ≤ y.length := by
      by_contra hl
      have hl1 : y.length = 1 := by have := List.length_pos_iff.mpr hne; omega
      have h4 := h.2
      obtain ⟨d', rfl⟩ := List.length_eq_one_iff.mp hl1
      have : d' = d := by simpa using h1
      subst this
      have hv : n = d' := by rw [← hy.val_eq]; simp [val]
      rw [hv] at h4
      simp at h4
      omega
    exact divOps_of_divBig_error hlen (divBig_topZero L (by intro a c; cases w <;> exact dec_div_zero ..)
      (by cases w <;> exact dec_maxShift_tot ..) hx.digs hy.digs hy.canon hx.canon
      (by rw [hx.val_eq, hy.val_eq]; exact h.1) hl2 h20 h1 h2 h3 h0)
  · rename_i h
    refine divOps_of_divBig hy.canon hne hlen ?_
    refine divBig_tot (P := fun _ => True) L (dec_closed w) (fun _ _ => trivial) hx.digs hy.digs hy.canon hne
      hlen h20 ?_ (fun s _ _ => dec_shrTot w s)
    intro d' s' g1 g2 g3 _
    have : d' = d := by rw [h1] at g1; injection g1 with g1; exact g1.symm
    subst this
    rw [shift_unique g2 g3 h2 h3]
    refine ⟨fun h0 => h ⟨by omega, hiff.mp h0⟩, fun h => ?_⟩
    cases h

/-- C17, decimal types in debug builds: a divisor of 3 to 19 digits that does not fit when it is scaled, and
whose leading digit is left small (but not zero), is found by a debug assertion. -/
theorem div_decimal_debug_asserts (w : Width) (x y : List Nat) (m n s : Nat)
    (hx : Rep (DType.dec w).radix x m) (hy : Rep (DType.dec w).radix y n) (h3 : 3 ≤ y.length)
    (h20 : y.length < 20) (hs : Scale (DType.dec w).radix y s) (hmn : n ≤ m)
    (h1 : (DType.dec w).radix < n * 2 ^ s / (DType.dec w).radix ^ (y.length - 1))
    (h2 : 2 * (n * 2 ^ s / (DType.dec w).radix ^ (y.length - 1) - (DType.dec w).radix) < (DType.dec w).radix) :
    Panics (UBig.div (.dec w) true x y) .debugAssert ∧ Panics (UBig.rem (.dec w) true x y) .debugAssert := by
  have L := ops_lawful (.dec w) true
  have hlen : y.length ≤ x.length :=
    hy.canon.length_le L.pos hx.digs (by rw [hx.val_eq, hy.val_eq]; omega)
  obtain ⟨d, g1, g2, g3⟩ := hs
  refine divOps_of_divBig_error hlen (divBig_assert L hx.digs hy.digs hy.canon hx.canon
    (by rw [hx.val_eq, hy.val_eq]; exact hmn) h3 h20 g1 g2 g3 ?_)
  rw [topOf_eq hy]
  generalize n * 2 ^ s / (DType.dec w).radix ^ (y.length - 1) = T at h1 h2 ⊢
  have hT : T % (DType.dec w).radix = T - (DType.dec w).radix := by
    rw [Nat.mod_eq_sub_mod (by omega), Nat.mod_eq_of_lt (by omega)]
  rw [hT]
  obtain ⟨k, k1, k2, k3⟩ := L.maxShift (T - (DType.dec w).radix) (by omega) (by omega)
  refine ⟨k, k1, ?_⟩
  rintro rfl
  rw [Nat.zero_add, pow_one] at k3
  omega

/-- A divisor that does not fit when it is scaled is left with a leading digit that could be scaled again. -/
theorem misfit_maxShift (w : Width) (hw : w = .w8 ∨ w = .w32) {y : List Nat} {n d s : Nat}
    (hy : Rep (DType.dec w).radix y n) (h1 : 1 ≤ y.length) (g1 : y.getLast? = some d)
    (g2 : d * 2 ^ s < (DType.dec w).radix) (g3 : (DType.dec w).radix ≤ d * 2 ^ (s + 1))
    (hfit : ¬ val (DType.dec w).radix y * 2 ^ s < (DType.dec w).radix ^ y.length) :
    ∃ k, ((DType.dec w).ops true).maxShift (topOf (DType.dec w).radix y s) = .ok k ∧ k ≠ 0 := by
  have L := ops_lawful (.dec w) true
  have hb := L.base
  have hne : y ≠ [] := by rintro rfl; simp at h1
  rw [hy.val_eq, fits_iff_top L.pos hne, Nat.not_lt] at hfit
  have ht := topDigit_bounds (s := s) L.pos hy g1
  have hd0 : d ≠ 0 := by rintro rfl; omega
  rw [topOf_eq hy]
  generalize n * 2 ^ s / (DType.dec w).radix ^ (y.length - 1) = T at ht hfit ⊢
  have hsmall : 2 * (T - (DType.dec w).radix) < (DType.dec w).radix := by
    have e1 : (d + 1) * 2 ^ s = d * 2 ^ s + 2 ^ s := by ring
    by_cases hd : d = 1
    · subst hd
      rcases hw with rfl | rfl
      · have : s = 6 := shift_unique (B := 100) (d := 1) g2 g3 (by norm_num) (by norm_num)
        subst this
        have hr : (DType.dec .w8).radix = 100 := rfl
        rw [hr] at *
        omega
      · have : s = 29 := shift_unique (B := 1000000000) (d := 1) g2 g3 (by norm_num) (by norm_num)
        subst this
        have hr : (DType.dec .w32).radix = 1000000000 := rfl
        rw [hr] at *
        omega
    · have : 2 * 2 ^ s ≤ d * 2 ^ s := Nat.mul_le_mul_right _ (by omega)
      omega
  have hT : T % (DType.dec w).radix = T - (DType.dec w).radix := by
    rw [Nat.mod_eq_sub_mod hfit, Nat.mod_eq_of_lt (by omega)]
  rw [hT]
  by_cases heq : T = (DType.dec w).radix
  · rw [heq, Nat.sub_self]
    rcases hw with rfl | rfl
    · exact ⟨7, by decide, by decide⟩
    · exact ⟨30, by decide, by decide⟩
  · obtain ⟨k, k1, k2, k3⟩ := L.maxShift (T - (DType.dec w).radix) (by omega) (by omega)
    refine ⟨k, k1, ?_⟩
    rintro rfl
    rw [Nat.zero_add, pow_one] at k3
    omega

/-- C17, decimal digits of 8 and of 32 bits in debug builds: which divisions by a number of 3 to 19 digits
panic.  Either the scaled divisor fits and the division is exact, or a debug assertion fails. -/
theorem div_decimal_debug_panics_exactly (w : Width) (hw : w = .w8 ∨ w = .w32) (x y : List Nat) (m n : Nat)
    (hx : Rep (DType.dec w).radix x m) (hy : Rep (DType.dec w).radix y n) (h3 : 3 ≤ y.length)
    (h20 : y.length < 20) :
    (n ≤ m ∧ ¬ ScaleFits (DType.dec w).radix y →
      Panics (UBig.div (.dec w) true x y) .debugAssert ∧ Panics (UBig.rem (.dec w) true x y) .debugAssert) ∧
    (m < n ∨ ScaleFits (DType.dec w).radix y → DivisionExact (.dec w) true (fun _ => False) x y m n) := by
  have L := ops_lawful (.dec w) true
  have hb := L.base
  have hne : y ≠ [] := by rintro rfl; simp at h3
  have hn : n ≠ 0 := by
    have := hy.canon.ge L.pos hne
    have := Nat.pow_pos (n := y.length - 1) L.pos
    rw [hy.val_eq] at *
    omega
  constructor
  · rintro ⟨hmn, hfit⟩
    unfold ScaleFits at hfit
    push Not at hfit
    obtain ⟨s, hs, hfit⟩ := hfit
    obtain ⟨d, g1, g2, g3⟩ := hs
    have hlen : y.length ≤ x.length :=
      hy.canon.length_le L.pos hx.digs (by rw [hx.val_eq, hy.val_eq]; omega)
    exact divOps_of_divBig_error hlen (divBig_assert L hx.digs hy.digs hy.canon hx.canon
      (by rw [hx.val_eq, hy.val_eq]; exact hmn) h3 h20 g1 g2 g3
      (misfit_maxShift w hw hy (by omega) g1 g2 g3 (by omega)))
  · rintro (h | h)
    · exact div_smaller_exact _ true x y m n hx hy h
    · exact div_short_exact_partial _ true x y m n hx hy hn h20 h (Or.inl ⟨w, rfl⟩)

theorem divPairAssign_release (w : Width) {x : List Nat} {n s : Nat} (hx : Digs (DType.dec w).radix x)
    (h1 : (DType.dec w).radix ≤ n) (h2 : n < (DType.dec w).radix ^ 2)
    (hs1 : n / (DType.dec w).radix * 2 ^ s < (DType.dec w).radix)
    (hs2 : (DType.dec w).radix ≤ n / (DType.dec w).radix * 2 ^ (s + 1)) :
    let z := divPairAssign ((DType.dec w).ops false) x (n % (DType.dec w).radix) (n / (DType.dec w).radix)
    (2 ≤ x.length ∧ n * 2 ^ s / (DType.dec w).radix = (DType.dec w).radix → z = .error .divZero) ∧
    (¬ (2 ≤ x.length ∧ n * 2 ^ s / (DType.dec w).radix = (DType.dec w).radix) →
      ∃ q a c, z = .ok (q, .ok (a, c))) := by
  intro z
  have L := ops_lawful (.dec w) false
  have hB := L.pos
  have hl : n % (DType.dec w).radix < (DType.dec w).radix := Nat.mod_lt _ hB
  have hh : n / (DType.dec w).radix < (DType.dec w).radix := by
    rw [Nat.div_lt_iff_lt_mul hB, ← pow_two]; exact h2
  have hd0 : n / (DType.dec w).radix ≠ 0 := by have := Nat.div_pos h1 hB; omega
  have hn : n % (DType.dec w).radix + (DType.dec w).radix * (n / (DType.dec w).radix) = n := Nat.mod_add_div _ _
  have hs : ((DType.dec w).ops false).maxShift (n / (DType.dec w).radix) = .ok s := by
    obtain ⟨s', k1, k2, k3⟩ := L.maxShift _ (Nat.pos_of_ne_zero hd0) hh
    rw [k1, shift_unique k2 k3 hs1 hs2]
  have hy : Rep (DType.dec w).radix [n % (DType.dec w).radix, n / (DType.dec w).radix] n := by
    have := rep_pair (B := (DType.dec w).radix) hl hh hd0
    rwa [hn] at this
  have ht := topDigit_bounds (s := s) hB hy (d := n / (DType.dec w).radix) (by simp)
  simp only [List.length_cons, List.length_nil, Nat.zero_add, Nat.reduceAdd, Nat.reduceSub, pow_one] at ht
  generalize hT : n * 2 ^ s / (DType.dec w).radix = T at ht ⊢
  have hiff : T % (DType.dec w).radix = 0 ↔ T = (DType.dec w).radix := by
    have hsb : 1 * 2 ^ s ≤ n / (DType.dec w).radix * 2 ^ s :=
      Nat.mul_le_mul_right _ (Nat.pos_of_ne_zero hd0)
    have e1 : (n / (DType.dec w).radix + 1) * 2 ^ s = n / (DType.dec w).radix * 2 ^ s + 2 ^ s := by ring
    constructor
    · intro h
      obtain ⟨k, hk⟩ := Nat.dvd_of_mod_eq_zero h
      rcases k with _ | _ | k
      · omega
      · omega
      · have : (DType.dec w).radix * (k + 1 + 1) = (DType.dec w).radix * k + 2 * (DType.dec w).radix := by ring
        omega
    · intro h; rw [h]; exact Nat.mod_self _
  constructor
  · rintro ⟨hlen, he⟩
    have := divPair_topZero L (by intro a c; cases w <;> exact dec_div_zero ..) hx hlen hl hh hd0 hs hs1
      (by rw [hn, hT]; exact hiff.mpr he)
    show divPairAssign _ _ _ _ = _
    unfold divPairAssign
    rw [this]
    rfl
  · intro hc
    by_cases hlen : 2 ≤ x.length
    · have h0 : T ≠ (DType.dec w).radix := fun h => hc ⟨hlen, h⟩
      have k1 := divPair_tot (P := fun _ => True) L (dec_closed w) (fun _ _ => trivial) hx hl hh hd0 hs hs1
        (by rw [hn, hT]; exact fun h => h0 (hiff.mp h)) (fun _ => dec_shrTot w s)
      have k2 := k1.and_of_tot (divPair_ok (D := (DType.dec w).ops false) x (n % (DType.dec w).radix)
        (n / (DType.dec w).radix) hd0 hlen)
      show ∃ q a c, divPairAssign _ _ _ _ = _
      unfold divPairAssign
      cases e : divAssignDigitPair ((DType.dec w).ops false) x (n % (DType.dec w).radix)
        (n / (DType.dec w).radix) with
      | error p => rw [e] at k1; exact k1.elim
      | ok r =>
        rw [e] at k2
        obtain ⟨-, nd, a, c, k3, -⟩ := k2
        obtain ⟨num, res⟩ := r
        simp only at k3
        subst k3
        exact ⟨_, a, c, rfl⟩
    · show ∃ q a c, divPairAssign _ _ _ _ = _
      unfold divPairAssign divAssignDigitPair
      rw [if_neg hd0]
      match x, hlen with
      | [], _ => exact ⟨_, _, _, rfl⟩
      | [d], _ => exact ⟨_, _, _, rfl⟩
      | _ :: _ :: _, hlen => simp at hlen

theorem word_lt_sq (w : Width) {n : Nat} (h : n < 2 ^ w.bits) : n < (DType.dec w).radix ^ 2 := by
  have := decRadix_sq w
  rw [pow_two]
  exact lt_trans h this

/-- C16, decimal types in release builds: which divisions by a word of at least the radix panic.  It is a
division by zero again, and it does not matter whether the quotient is zero.  All other divisions return. -/
theorem divWord_decimal_release_panics_exactly (w : Width) (x : List Nat) (m n s : Nat)
    (hx : Rep (DType.dec w).radix x m) (h1 : (DType.dec w).radix ≤ n) (h2 : n < 2 ^ w.bits)
    (hs1 : n / (DType.dec w).radix * 2 ^ s < (DType.dec w).radix)
    (hs2 : (DType.dec w).radix ≤ n / (DType.dec w).radix * 2 ^ (s + 1)) :
    if (DType.dec w).radix ≤ m ∧ n * 2 ^ s / (DType.dec w).radix = (DType.dec w).radix then
      Panics (UBig.divWord (.dec w) false x n) .divZero ∧ Panics (UBig.remWord (.dec w) false x n) .divZero ∧
      Panics (UBig.remWordAssign (.dec w) false x n) .divZero
    else (∃ q, UBig.divWord (.dec w) false x n = .ok q) ∧ (∃ r, UBig.remWord (.dec w) false x n = .ok r) ∧
      ∃ r, UBig.remWordAssign (.dec w) false x n = .ok r := by
  have L := ops_lawful (.dec w) false
  have key := divPairAssign_release w hx.digs h1 (word_lt_sq w h2) hs1 hs2
  have hlen : (DType.dec w).radix ≤ m ↔ 2 ≤ x.length := by
    constructor
    · intro h
      by_contra hl
      have : m < (DType.dec w).radix ^ 1 := by
        rw [← hx.val_eq]
        exact lt_of_lt_of_le (val_lt hx.digs) (Nat.pow_le_pow_right L.pos (by omega))
      rw [pow_one] at this
      omega
    · intro h
      have h3 := hx.canon.ge L.pos (by rintro rfl; simp at h)
      rw [hx.val_eq] at h3
      have h4 : (DType.dec w).radix ^ 1 ≤ (DType.dec w).radix ^ (x.length - 1) :=
        Nat.pow_le_pow_right L.pos (by omega)
      rw [pow_one] at h4
      omega
  have hn : ¬ n < w.decRadix := by
    have : (DType.dec w).radix ≤ n := h1
    exact Nat.not_lt.mpr this
  split
  · rename_i hc
    rw [hlen] at hc
    have he := key.1 hc
    have hr : remWordDec ((DType.dec w).ops false) w.decRadix x n = .error .divZero := by
      unfold remWordDec
      rw [if_neg hn]
      erw [he]
      rfl
    refine ⟨?_, hr, hr⟩
    show divWordDec _ _ _ _ = _
    unfold divWordDec
    rw [if_neg hn]
    erw [he]
    rfl
  · rename_i hc
    rw [hlen] at hc
    obtain ⟨q, a, c, he⟩ := key.2 hc
    have hr : ∃ r, remWordDec ((DType.dec w).ops false) w.decRadix x n = .ok r := by
      unfold remWordDec
      rw [if_neg hn]
      erw [he]
      exact ⟨_, rfl⟩
    refine ⟨?_, hr, hr⟩
    show ∃ q, divWordDec _ _ _ _ = _
    unfold divWordDec
    rw [if_neg hn]
    erw [he]
    exact ⟨_, rfl⟩

/-! ## Examples -/

/-- The tie of `div_tie_wrong` has a divisor of two digits: the quotient is zero, and wrong. -/
example : Rep (DType.bin .w8).radix [0, 0, 128] (128 * 65536) ∧ Rep (DType.bin .w8).radix [255, 128] 33023 ∧
    UBig.div (.bin .w8) true [0, 0, 128] [255, 128] = .ok [] :=
  ⟨⟨by decide, by decide, by decide⟩, ⟨by decide, by decide, by decide⟩, by decide +kernel⟩

/-- Release build, decimal digits of 8 bits: `[57, 1]`, scaled by `2 ^ 6`, is `10048`, with leading digit `0`: a
panic. -/
example : Scale (DType.dec .w8).radix [57, 1] 6 ∧
    157 * 2 ^ 6 / (DType.dec .w8).radix ^ (2 - 1) = (DType.dec .w8).radix ∧
    UBig.div (.dec .w8) false [0, 0, 1] [57, 1] = .error .divZero :=
  ⟨⟨1, rfl, by decide, by decide⟩, by decide, by decide +kernel⟩

/-- `[99, 1]`, scaled, is `12736`, with leading digit `27`: a wrong quotient is returned. -/
example : 199 * 2 ^ 6 / (DType.dec .w8).radix ^ (2 - 1) = 127 ∧
    UBig.div (.dec .w8) false [0, 0, 1] [99, 1] = .ok [33, 2] ∧ val 100 [33, 2] ≠ 10000 / 199 :=
  ⟨by decide, by decide +kernel, by decide⟩

/-- Debug build: the same with three digits is found by an assertion. -/
example : Scale (DType.dec .w8).radix [0, 99, 1] 6 ∧ ¬ ScaleFits (DType.dec .w8).radix [0, 99, 1] ∧
    UBig.div (.dec .w8) true [0, 0, 0, 1] [0, 99, 1] = .error .debugAssert := by
  refine ⟨⟨1, rfl, by decide, by decide⟩, fun h => ?_, by decide +kernel⟩
  have := h 6 ⟨1, rfl, by decide, by decide⟩
  revert this
  decide

/-- Division by a word in a release build: 157 panics and 199 gives a wrong quotient. -/
example : UBig.divWord (.dec .w8) false [0, 0, 1] 157 = .error .divZero ∧
    UBig.divWord (.dec .w8) false [0, 1] 157 = .error .divZero ∧
    UBig.divWord (.dec .w8) false [5] 157 = .ok [] ∧
    157 / 100 * 2 ^ 6 < 100 ∧ 100 ≤ 157 / 100 * 2 ^ 7 ∧ 157 * 2 ^ 6 / 100 = 100 ∧ 199 * 2 ^ 6 / 100 = 127 := by
  decide +kernel

end Babs.Props
