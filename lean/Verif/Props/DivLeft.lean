import Verif.Proofs.DivLeft
import Verif.Props.DivReturns
import Verif.Props.Forms

/-!
# What a division that panics leaves behind (C51)

`x /= y` replaces `x` by zeros before it divides; `x %= y` works on `x` itself.
-/

namespace Babs.Props

open Babs After

variable (t : DType) (dbg : Bool)

/-- The zeros that `/=` puts into its operand before it divides. -/
abbrev zerosFor (x y : List Nat) : List Nat := List.replicate (x.length - y.length + 1) 0

theorem divAssignRef_panicked {x y : List Nat} {left : Option (List Nat)} {p : Panic}
    (h : Forms.divAssignRef t dbg x y = .panicked left p) :
    y.length ≤ x.length ∧ divBig (t.ops dbg) dbg x y (zerosFor x y) = .error p ∨
      ∃ z e, y.length ≤ x.length ∧ divBig (t.ops dbg) dbg x y (zerosFor x y) = .ok z ∧ z.2.2 = .error e := by
  unfold Forms.divAssignRef divAssignBig at h
  simp only [] at h
  by_cases hl : x.length < y.length
  · rw [if_pos hl] at h
    simp only [ubigNew, normalise] at h
    obtain ⟨nd, a1, -⟩ := dropLeadingZeros_spec x x.length (le_refl _)
    rw [a1] at h
    cases h
  rw [if_neg hl] at h
  cases e : divBig (t.ops dbg) dbg x y (zerosFor x y) with
  | error q =>
    rw [e] at h
    cases h
    exact Or.inl ⟨by omega, rfl⟩
  | ok z =>
    obtain ⟨num, quot, r⟩ := z
    rcases r with er | ⟨nq, nr⟩
    · exact Or.inr ⟨_, er, by omega, rfl, rfl⟩
    · rw [e] at h
      simp only [ubigNew, normalise, ok_bind] at h
      obtain ⟨nd, a1, -⟩ := dropLeadingZeros_spec (num.take nr) (num.take nr).length (le_refl _)
      rw [a1] at h
      cases h

theorem remAssignRef_panicked {x y : List Nat} {left : Option (List Nat)} {p : Panic}
    (h : Forms.remAssignRef t dbg x y = .panicked left p) :
    y.length ≤ x.length ∧ divBig (t.ops dbg) dbg x y (zerosFor x y) = .error p ∨
      ∃ z e, y.length ≤ x.length ∧ divBig (t.ops dbg) dbg x y (zerosFor x y) = .ok z ∧ z.2.2 = .error e := by
  unfold Forms.remAssignRef remAssignBig at h
  simp only [] at h
  by_cases hl : x.length < y.length
  · rw [if_neg (by omega)] at h
    cases h
  rw [if_pos (by omega)] at h
  cases e : divBig (t.ops dbg) dbg x y (zerosFor x y) with
  | error q =>
    rw [e] at h
    cases h
    exact Or.inl ⟨by omega, rfl⟩
  | ok z =>
    obtain ⟨num, quot, r⟩ := z
    rcases r with er | ⟨nq, nr⟩
    · exact Or.inr ⟨_, er, by omega, rfl, rfl⟩
    · rw [e] at h
      cases h

theorem no_result_error {x y : List Nat} (cy : Canon y) (hy : y ≠ []) {z} {e : Error}
    (hl : y.length ≤ x.length) (h : divBig (t.ops dbg) dbg x y (zerosFor x y) = .ok z) (he : z.2.2 = .error e) :
    False := by
  have := divBig_ok (D := t.ops dbg) (dbg := dbg) x y cy hy hl
  rw [show divBig (t.ops dbg) dbg x y (List.replicate (x.length - y.length + 1) 0) = .ok z from h] at this
  obtain ⟨p, hp⟩ := this
  rw [he] at hp
  cases hp

theorem forms_of_divLeft {x y l : List Nat} {p : Panic}
    (h : divLeft (t.ops dbg) dbg x y = .error (p, some (l, zerosFor x y))) :
    Forms.divAssignRef t dbg x y = .panicked (some (zerosFor x y)) p ∧
    Forms.remAssignRef t dbg x y = .panicked (some l) p := by
  obtain ⟨h1, h2⟩ := divLeft_sound h
  constructor
  · unfold Forms.divAssignRef divAssignBig
    simp only []
    rw [if_neg (by omega), h2, h]
    rfl
  · unfold Forms.remAssignRef remAssignBig
    simp only []
    rw [if_pos h1, h2, h]
    rfl

/-- C51, divisors of 20 digits or more: if `/=` panics, the operand holds zeros, as many as the quotient may
have digits; if `%=` panics, the operand is as it was.  This is so for all lists of digits. -/
theorem div_long_left_behind (x y : List Nat) (cy : Canon y) (h20 : 20 ≤ y.length)
    (left : Option (List Nat)) (p : Panic) :
    (Forms.divAssignRef t dbg x y = .panicked left p → left = some (zerosFor x y)) ∧
    (Forms.remAssignRef t dbg x y = .panicked left p → left = some x) := by
  have hne : y ≠ [] := by rintro rfl; simp at h20
  constructor
  · intro h
    rcases divAssignRef_panicked t dbg h with ⟨h1, h2⟩ | ⟨z, e, h1, h2, h3⟩
    · have := (forms_of_divLeft t dbg (divLeft_long h20 h1 h2)).1
      rw [h] at this
      cases this; rfl
    · exact (no_result_error t dbg cy hne h1 h2 h3).elim
  · intro h
    rcases remAssignRef_panicked t dbg h with ⟨h1, h2⟩ | ⟨z, e, h1, h2, h3⟩
    · have := (forms_of_divLeft t dbg (divLeft_long h20 h1 h2)).2
      rw [h] at this
      cases this; rfl
    · exact (no_result_error t dbg cy hne h1 h2 h3).elim

theorem not_panicked {a : After} {r : R (List Nat)} {left : Option (List Nat)} {p : Panic}
    (h1 : a.result = r) (h2 : ∃ z, r = .ok z) : a ≠ .panicked left p := by
  rintro rfl
  obtain ⟨z, h2⟩ := h2
  rw [← h1] at h2
  cases h2

/-- C51, binary types: all panics of `/=` and `%=`.  If `/=` panics, the operand holds zeros; if `%=` panics,
the operand is as it was. -/
theorem div_binary_left_behind (w : Width) (x y : List Nat) (m n : Nat) (hx : Rep (DType.bin w).radix x m)
    (hy : Rep (DType.bin w).radix y n) (left : Option (List Nat)) (p : Panic) :
    (Forms.divAssignRef (.bin w) dbg x y = .panicked left p → left = some (zerosFor x y)) ∧
    (Forms.remAssignRef (.bin w) dbg x y = .panicked left p → left = some x) := by
  by_cases h20 : 20 ≤ y.length
  · exact div_long_left_behind _ dbg x y hy.canon h20 left p
  by_cases hne : y = []
  · subst hne
    constructor
    · intro h
      rw [div_left_behind] at h
      cases h; rfl
    · exact (panic_leaves_alone (.bin w) dbg x [] m 0 0 hx (ops_lawful (.bin w) dbg).pos left p).2.1
  have hn : n ≠ 0 := by
    have h1 := hy.canon.ge (ops_lawful (.bin w) dbg).pos hne
    have h2 := Nat.pow_pos (n := y.length - 1) (ops_lawful (.bin w) dbg).pos
    rw [hy.val_eq] at h1
    omega
  have h := div_binary_short_returns w dbg x y m n hx hy hn (by omega)
  exact ⟨fun e => absurd e (not_panicked (divAssignRef_result _ dbg x y) h.1),
    fun e => absurd e (not_panicked (remAssignRef_result _ dbg x y) h.2)⟩

/-- C51, decimal types in release builds: all panics of `/=` and `%=`.  If `/=` panics, the operand holds
zeros.  If `%=` panics, the operand is as it was, unless the divisor has fewer than 20 digits and is not
zero: then it holds the scaled number without the digits that were shifted out at the top, and with a
divisor of two digits without its leading digit. -/
theorem div_decimal_left_behind (w : Width) (x y : List Nat) (m n : Nat) (hx : Rep (DType.dec w).radix x m)
    (hy : Rep (DType.dec w).radix y n) (left : Option (List Nat)) (p : Panic) :
    (Forms.divAssignRef (.dec w) false x y = .panicked left p → left = some (zerosFor x y)) ∧
    (Forms.remAssignRef (.dec w) false x y = .panicked left p →
      if n = 0 ∨ 20 ≤ y.length then left = some x
      else ∃ s l, Scale (DType.dec w).radix y s ∧ left = some l ∧ l.length = x.length ∧
        val (DType.dec w).radix l =
          m * 2 ^ s % (DType.dec w).radix ^ (if y.length = 2 then x.length - 1 else x.length)) := by
  have L := ops_lawful (.dec w) false
  by_cases h20 : 20 ≤ y.length
  · rw [if_pos (Or.inr h20)]
    exact div_long_left_behind _ false x y hy.canon h20 left p
  by_cases hne : y = []
  · subst hne
    rw [if_pos (Or.inl (by simpa using hy.val_eq.symm))]
    constructor
    · intro h
      rw [div_left_behind] at h
      cases h; rfl
    · exact (panic_leaves_alone (.dec w) false x [] m 0 0 hx L.pos left p).2.1
  have hn : n ≠ 0 := by
    have h1 := hy.canon.ge L.pos hne
    have h2 := Nat.pow_pos (n := y.length - 1) L.pos
    rw [hy.val_eq] at h1
    omega
  rw [if_neg (by omega)]
  obtain ⟨d, hd⟩ : ∃ d, y.getLast? = some d := ⟨y.getLast hne, List.getLast?_eq_some_getLast hne⟩
  have hdm : d ∈ y := List.mem_of_getLast? hd
  have hd0 : d ≠ 0 := by
    obtain ⟨v, d', rfl⟩ : ∃ v d, y = v ++ [d] :=
      ⟨y.dropLast, y.getLast hne, (List.dropLast_concat_getLast _).symm⟩
    have : d' = d := by simpa using hd
    subst this
    exact canon_snoc.mp hy.canon
  obtain ⟨s, hs, hs1, hs2⟩ := L.maxShift d (by omega) (hy.digs d hdm)
  have hsc : Scale (DType.dec w).radix y s := ⟨d, hd, hs1, hs2⟩
  have key := div_decimal_release_panics_exactly w x y m n s hx hy hn (by omega) hsc
  split at key
  · rename_i hc
    obtain ⟨hmn, hT⟩ := hc
    have hdz : ∀ a c, ((DType.dec w).ops false).divCarry a 0 c = .error .divZero := by
      intro a c; cases w <;> exact dec_div_zero ..
    have h0 : topOf (DType.dec w).radix y s = 0 := by rw [topOf_eq hy, hT, Nat.mod_self]
    obtain ⟨l, q, h1, h2, h3⟩ : ∃ l q, divLeft ((DType.dec w).ops false) false x y =
        .error (q, some (l, zerosFor x y)) ∧ l.length = x.length ∧ val (DType.dec w).radix l =
          m * 2 ^ s % (DType.dec w).radix ^ (if y.length = 2 then x.length - 1 else x.length) := by
      have hle : val (DType.dec w).radix y ≤ val (DType.dec w).radix x := by
        rw [hx.val_eq, hy.val_eq]; exact hmn
      have hlen := hy.canon.length_le L.pos hx.digs hle
      by_cases hl2 : y.length = 2
      · obtain ⟨yl, yh, rfl⟩ : ∃ yl yh, y = [yl, yh] := by
          match y, hl2 with
          | [a, b], _ => exact ⟨a, b, rfl⟩
        have : yh = d := by simpa using hd
        subst this
        obtain ⟨l, h1, h2, -, h3⟩ := divLeft_pair_topZero (dbg := false) L hdz hx.digs hx.canon
          (hy.digs yl (by simp)) (hy.digs yh (by simp)) hd0 (by simpa [val] using hle) hs1 hs2 h0
        rw [if_pos hl2]
        have hz : zerosFor x [yl, yh] = List.replicate (x.length - 1) 0 := by
          have h2 : 2 ≤ x.length := hlen
          unfold zerosFor
          rw [hl2, show x.length - 2 + 1 = x.length - 1 by omega]
        exact ⟨l, .divZero, by rw [hz]; exact h1, h2, by rw [h3, hx.val_eq]⟩
      · have hl3 : 3 ≤ y.length := by
          by_contra hl
          have hl1 : y.length = 1 := by have := List.length_pos_iff.mpr hne; omega
          obtain ⟨d', rfl⟩ := List.length_eq_one_iff.mp hl1
          have : d' = d := by simpa using hd
          subst this
          have hv : n = d' := by rw [← hy.val_eq]; simp [val]
          rw [hv] at hT
          simp at hT
          omega
        obtain ⟨l, h1, h2, -, h3⟩ := divLeft_long_misfit (dbg := false) (p := .divZero) L hx.digs hx.canon hy.digs
          hy.canon hl3 (by omega) hle hd hs1 hs2 (by
            intro a c
            rw [h0, hdz]
            have : Tot (((DType.dec w).ops false).maxShift 0) (fun _ => True) := by
              cases w <;> exact dec_maxShift_tot ..
            cases e : ((DType.dec w).ops false).maxShift 0 with
            | error p => rw [e] at this; exact this.elim
            | ok k => rfl)
        rw [if_neg hl2]
        exact ⟨l, _, h1, h2, by rw [h3, hx.val_eq]⟩
    have hf := forms_of_divLeft _ false h1
    constructor
    · intro h
      rw [hf.1] at h
      cases h; rfl
    · intro h
      rw [hf.2] at h
      cases h
      exact ⟨s, l, hsc, rfl, h2, h3⟩
  · exact ⟨fun e => absurd e (not_panicked (divAssignRef_result _ false x y) key.1),
      fun e => absurd e (not_panicked (remAssignRef_result _ false x y) key.2)⟩

/-- C51, decimal digits of 8 and of 32 bits in debug builds, divisors of 3 to 19 digits: `%=` by a divisor
that does not fit when it is scaled leaves the scaled number, without the digits that were shifted out. -/
theorem rem_decimal_debug_left_behind (w : Width) (hw : w = .w8 ∨ w = .w32) (x y : List Nat) (m n s : Nat)
    (hx : Rep (DType.dec w).radix x m) (hy : Rep (DType.dec w).radix y n) (h3 : 3 ≤ y.length)
    (h20 : y.length < 20) (hs : Scale (DType.dec w).radix y s) (left : Option (List Nat)) (p : Panic) :
    (Forms.divAssignRef (.dec w) true x y = .panicked left p → left = some (zerosFor x y)) ∧
    (Forms.remAssignRef (.dec w) true x y = .panicked left p →
      ∃ l, left = some l ∧ l.length = x.length ∧
        val (DType.dec w).radix l = m * 2 ^ s % (DType.dec w).radix ^ x.length) := by
  have L := ops_lawful (.dec w) true
  have key := div_decimal_debug_panics_exactly w hw x y m n hx hy h3 h20
  by_cases hc : n ≤ m ∧ ¬ ScaleFits (DType.dec w).radix y
  · have hp := (key.1 hc).1
    have hle : val (DType.dec w).radix y ≤ val (DType.dec w).radix x := by
      rw [hx.val_eq, hy.val_eq]; exact hc.1
    have hlen := hy.canon.length_le L.pos hx.digs hle
    obtain ⟨d, hd, hs1, hs2⟩ := hs
    -- the assertion is the first thing to fail
    have hk : ∃ k, ((DType.dec w).ops true).maxShift (topOf (DType.dec w).radix y s) = .ok k ∧ k ≠ 0 :=
      misfit_maxShift w hw hy (by omega) hd hs1 hs2 (fun h => hc.2 fun s' hs' => by
        obtain ⟨d', g1, g2, g3⟩ := hs'
        rw [hd] at g1
        cases g1
        rw [shift_unique g2 g3 hs1 hs2]
        exact h)
    obtain ⟨k, k1, k2⟩ := hk
    obtain ⟨l, h1, h2, -, h4⟩ := divLeft_long_misfit (dbg := true) (p := .debugAssert) L hx.digs hx.canon hy.digs
      hy.canon h3 h20 hle hd hs1 hs2 (by
        intro a c
        rw [k1, ok_bind]
        have : debugAssertR true (decide (k = 0)) = .error .debugAssert := by simp [debugAssertR, k2]
        rw [this]
        rfl)
    have hf := forms_of_divLeft _ true h1
    constructor
    · intro h
      rw [hf.1] at h
      cases h; rfl
    · intro h
      rw [hf.2] at h
      cases h
      exact ⟨l, rfl, h2, by rw [h4, hx.val_eq]⟩
  · have hex := key.2 (by
      by_cases h : m < n
      · exact Or.inl h
      · exact Or.inr (by by_contra h'; exact hc ⟨by omega, h'⟩))
    obtain ⟨q, hq, -⟩ := tot_iff.mp hex.div
    obtain ⟨r, hr, -⟩ := tot_iff.mp hex.rem
    exact ⟨fun e => absurd e (not_panicked (divAssignRef_result _ true x y) ⟨q, hq⟩),
      fun e => absurd e (not_panicked (remAssignRef_result _ true x y) ⟨r, hr⟩)⟩

/-- C51, decimal types in release builds: division by a word of at least the radix works on the number in
place.  If `/=` or `%=` panics, the operand holds the scaled number without its leading digit and without the
digits that were shifted out. -/
theorem divWord_large_left_behind (w : Width) (x : List Nat) (m n s : Nat) (hx : Rep (DType.dec w).radix x m)
    (h1 : (DType.dec w).radix ≤ n) (h2 : n < 2 ^ w.bits)
    (hs1 : n / (DType.dec w).radix * 2 ^ s < (DType.dec w).radix)
    (hs2 : (DType.dec w).radix ≤ n / (DType.dec w).radix * 2 ^ (s + 1)) (left : Option (List Nat)) (p : Panic)
    (h : Forms.divAssignWord (.dec w) false x n = .panicked left p ∨
      Forms.remAssignWord (.dec w) false x n = .panicked left p) :
    p = .divZero ∧ ∃ l, left = some l ∧ l.length = x.length ∧
      val (DType.dec w).radix l = m * 2 ^ s % (DType.dec w).radix ^ (x.length - 1) := by
  have L := ops_lawful (.dec w) false
  have hB := L.pos
  have key := divPairAssign_release w hx.digs h1 (word_lt_sq w h2) hs1 hs2
  have hn : ¬ n < w.decRadix := Nat.not_lt.mpr h1
  have h' : ∃ f, Forms.pairInPlace (.dec w) false x (n % (DType.dec w).radix) (n / (DType.dec w).radix) f =
      .panicked left p := by
    rcases h with h | h
    · unfold Forms.divAssignWord at h
      simp only [] at h
      rw [if_neg hn] at h
      exact ⟨_, h⟩
    · unfold Forms.remAssignWord at h
      simp only [] at h
      rw [if_neg hn] at h
      exact ⟨_, h⟩
  obtain ⟨f, h'⟩ := h'
  unfold Forms.pairInPlace at h'
  by_cases hc : 2 ≤ x.length ∧ n * 2 ^ s / (DType.dec w).radix = (DType.dec w).radix
  · have hl : n % (DType.dec w).radix < (DType.dec w).radix := Nat.mod_lt _ hB
    have hh : n / (DType.dec w).radix < (DType.dec w).radix := by
      rw [Nat.div_lt_iff_lt_mul hB, ← pow_two]; exact word_lt_sq w h2
    have hd0 : n / (DType.dec w).radix ≠ 0 := by have := Nat.div_pos h1 hB; exact Nat.pos_iff_ne_zero.mp this
    have h0 : topOf (DType.dec w).radix [n % (DType.dec w).radix, n / (DType.dec w).radix] s = 0 := by
      have hy := rep_pair (B := (DType.dec w).radix) hl hh hd0
      rw [Nat.mod_add_div] at hy
      rw [topOf_eq hy]
      simp only [List.length_cons, List.length_nil, Nat.zero_add, Nat.reduceAdd, Nat.reduceSub, pow_one]
      rw [hc.2, Nat.mod_self]
    obtain ⟨l, g1, g2, -, g3⟩ := pairLeft_topZero L (by intro a c; cases w <;> exact dec_div_zero ..) (quot := [])
      hx.digs hc.1 hl hh hd0 hs1 hs2 h0
    rw [key.1 hc, g1] at h'
    cases h'
    exact ⟨rfl, l, rfl, g2, by rw [g3, hx.val_eq]⟩
  · obtain ⟨q, a, c, he⟩ := key.2 hc
    rw [he] at h'
    cases h'

/-! ## Examples -/

/-- `%=` in a release build: the panic leaves `10000 * 64` without its leading digits. -/
example : Forms.remAssignRef (.dec .w8) false [0, 0, 1] [57, 1] = .panicked (some [0, 0, 0]) .divZero ∧
    Scale (DType.dec .w8).radix [57, 1] 6 ∧ 10000 * 2 ^ 6 % 100 ^ 2 = 0 := by
  refine ⟨by decide +kernel, ⟨1, rfl, by decide, by decide⟩, by decide⟩

/-- The same with a divisor of three digits; the dividend is 3070500 before and 96512000 after. -/
example : Forms.remAssignRef (.dec .w8) false [0, 5, 7, 3] [0, 57, 1] = .panicked (some [0, 20, 51, 96]) .divZero ∧
    3070500 * 2 ^ 6 % 100 ^ 4 = 96512000 := by
  refine ⟨by decide +kernel, by decide⟩

/-- A debug build, at the assertion. -/
example : Forms.remAssignRef (.dec .w8) true [0, 5, 7, 3] [0, 99, 1] = .panicked (some [0, 20, 51, 96]) .debugAssert := by
  decide +kernel

/-- Division by a word: `3070500 * 64 = 196512000`, without the leading digits 1 and 96. -/
example : Forms.divAssignWord (.dec .w8) false [0, 5, 7, 3] 157 = .panicked (some [0, 20, 51, 0]) .divZero ∧
    Forms.remAssignWord (.dec .w8) false [0, 5, 7, 3] 157 = .panicked (some [0, 20, 51, 0]) .divZero ∧
    3070500 * 2 ^ 6 % 100 ^ 3 = 512000 := by
  decide +kernel

end Babs.Props
