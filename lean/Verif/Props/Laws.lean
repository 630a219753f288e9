import Verif.Props.Div
import Verif.Props.Mul

/-!
# C38-C42: laws of arithmetic

Equations between numbers that are returned by sequences of operations.
-/

namespace Babs.Props

variable (t : DType) (dbg : Bool)

/-! ## C38: sums and products -/

/-- C38: addition is commutative: both orders return the same digits. -/
theorem ubig_add_comm (x y : List Nat) (m n : Nat) (hx : Rep t.radix x m) (hy : Rep t.radix y n) :
    Returns (UBig.add t dbg x y) fun z => UBig.add t dbg y x = .ok z := by
  obtain ⟨a, h1, h2⟩ := add_exact t dbg x y m n hx hy
  obtain ⟨b, h3, h4⟩ := add_exact t dbg y x n m hy hx
  rw [Nat.add_comm] at h4
  exact ⟨a, h1, by rw [h3, h4.unique h2]⟩

/-- C38: addition is associative. -/
theorem ubig_add_assoc (x y z : List Nat) (m n k : Nat) (hx : Rep t.radix x m) (hy : Rep t.radix y n)
    (hz : Rep t.radix z k) :
    Returns (UBig.add t dbg x y >>= fun s => UBig.add t dbg s z) fun r =>
      (UBig.add t dbg y z >>= fun s => UBig.add t dbg x s) = .ok r := by
  obtain ⟨a, h1, h2⟩ := add_exact t dbg x y m n hx hy
  obtain ⟨b, h3, h4⟩ := add_exact t dbg y z n k hy hz
  obtain ⟨c, h5, h6⟩ := add_exact t dbg a z _ k h2 hz
  obtain ⟨d, h7, h8⟩ := add_exact t dbg x b m _ hx h4
  rw [← Nat.add_assoc] at h8
  refine ⟨c, by rw [h1, ok_bind, h5], ?_⟩
  rw [h3, ok_bind, h7, h8.unique h6]

/-- C38: zero is neutral for addition, one for multiplication, and zero times anything is zero. -/
theorem ubig_neutral (x : List Nat) (m : Nat) (hx : Rep t.radix x m) :
    UBig.add t dbg x ubigZero = .ok x ∧ UBig.add t dbg ubigZero x = .ok x ∧
    UBig.mul t dbg x ubigOne = .ok x ∧ UBig.mul t dbg ubigOne x = .ok x ∧
    UBig.mul t dbg x ubigZero = .ok ubigZero ∧ UBig.mul t dbg ubigZero x = .ok ubigZero := by
  have hB := (ops_lawful t dbg).base
  have h0 : Rep t.radix ubigZero 0 := rep_zero _
  have h1 : Rep t.radix ubigOne 1 :=
    ⟨by intro d hd; simp [ubigOne] at hd; omega, by simp [ubigOne, Canon], by simp [ubigOne, val]⟩
  have key : ∀ {r : R (List Nat)} {k : Nat} {y : List Nat}, Rep t.radix y k →
      Returns r (fun z => Rep t.radix z k) → r = .ok y := by
    rintro r k y hy ⟨z, e, hz⟩
    rw [e, hz.unique hy]
  have l1 : ubigOne.length < 20 := by decide
  have l0 : ubigZero.length < 20 := by decide
  refine ⟨key hx ?_, key hx ?_, key hx ?_, key hx ?_, key h0 ?_, key h0 ?_⟩
  · simpa using add_exact t dbg x _ m 0 hx h0
  · simpa using add_exact t dbg _ x 0 m h0 hx
  · simpa using mul_short_exact t dbg x _ m 1 hx h1 (.inr l1)
  · simpa using mul_short_exact t dbg _ x 1 m h1 hx (.inl l1)
  · simpa using mul_short_exact t dbg x _ m 0 hx h0 (.inr l0)
  · simpa using mul_short_exact t dbg _ x 0 m h0 hx (.inl l0)

/-- C38: multiplication is associative: two results that are returned are equal.  (Whether they are
returned is C10.) -/
theorem mul_assoc_of_returned (x y z : List Nat) (m n k : Nat) (hx : Rep t.radix x m)
    (hy : Rep t.radix y n) (hz : Rep t.radix z k) (a b : List Nat)
    (ha : (UBig.mul t dbg x y >>= fun p => UBig.mul t dbg p z) = .ok a)
    (hb : (UBig.mul t dbg y z >>= fun p => UBig.mul t dbg x p) = .ok b) : a = b := by
  have h1 : ReturnsOr (· = .unwrap) (UBig.mul t dbg x y >>= fun p => UBig.mul t dbg p z)
      fun r => Rep t.radix r (m * n * k) :=
    Sp.bind (mul_exact_or_unwrap t dbg x y m n hx hy) fun p hp =>
      mul_exact_or_unwrap t dbg p z _ k hp hz
  have h2 : ReturnsOr (· = .unwrap) (UBig.mul t dbg y z >>= fun p => UBig.mul t dbg x p)
      fun r => Rep t.radix r (m * (n * k)) :=
    Sp.bind (mul_exact_or_unwrap t dbg y z n k hy hz) fun p hp =>
      mul_exact_or_unwrap t dbg x p m _ hx hp
  rw [ha] at h1
  rw [hb, ← Nat.mul_assoc] at h2
  exact Rep.unique h1 h2

/-- C38: multiplication distributes over addition: two results that are returned are equal. -/
theorem mul_add_of_returned (x y z : List Nat) (m n k : Nat) (hx : Rep t.radix x m)
    (hy : Rep t.radix y n) (hz : Rep t.radix z k) (a b : List Nat)
    (ha : (UBig.add t dbg y z >>= fun s => UBig.mul t dbg x s) = .ok a)
    (hb : (UBig.mul t dbg x y >>= fun p => UBig.mul t dbg x z >>= fun q => UBig.add t dbg p q)
      = .ok b) : a = b := by
  have key : ∀ {x : R (List Nat)} {Q : List Nat → Prop}, Returns x Q →
      ReturnsOr (· = .unwrap) x Q := by
    rintro x Q ⟨a, rfl, ha⟩; exact ha
  have h1 : ReturnsOr (· = .unwrap) (UBig.add t dbg y z >>= fun s => UBig.mul t dbg x s)
      fun r => Rep t.radix r (m * (n + k)) :=
    Sp.bind (key (add_exact t dbg y z n k hy hz)) fun p hp =>
      mul_exact_or_unwrap t dbg x p m _ hx hp
  have h2 : ReturnsOr (· = .unwrap)
      (UBig.mul t dbg x y >>= fun p => UBig.mul t dbg x z >>= fun q => UBig.add t dbg p q)
      fun r => Rep t.radix r (m * n + m * k) :=
    Sp.bind (mul_exact_or_unwrap t dbg x y m n hx hy) fun p hp =>
      Sp.bind (mul_exact_or_unwrap t dbg x z m k hx hz) fun q hq =>
        key (add_exact t dbg p q _ _ hp hq)
  rw [ha] at h1
  rw [hb, ← Nat.mul_add] at h2
  exact Rep.unique h1 h2

/-- C38: with a factor of fewer than 20 digits and terms of any size, both sides of the distributive
law are returned and equal. -/
theorem mul_add_short (x y z : List Nat) (m n k : Nat) (hx : Rep t.radix x m)
    (hy : Rep t.radix y n) (hz : Rep t.radix z k) (hl : x.length < 20) :
    Returns (UBig.add t dbg y z >>= fun s => UBig.mul t dbg x s) fun r =>
      (UBig.mul t dbg x y >>= fun p => UBig.mul t dbg x z >>= fun q => UBig.add t dbg p q)
        = .ok r := by
  obtain ⟨s, h1, h2⟩ := add_exact t dbg y z n k hy hz
  obtain ⟨a, h3, h4⟩ := mul_short_exact t dbg x s m _ hx h2 (.inl hl)
  obtain ⟨p, h5, h6⟩ := mul_short_exact t dbg x y m n hx hy (.inl hl)
  obtain ⟨q, h7, h8⟩ := mul_short_exact t dbg x z m k hx hz (.inl hl)
  obtain ⟨b, h9, h10⟩ := add_exact t dbg p q _ _ h6 h8
  rw [← Nat.mul_add] at h10
  refine ⟨a, by rw [h1, ok_bind, h3], ?_⟩
  rw [h5, ok_bind, h7, ok_bind, h9, h10.unique h4]

/-- C38: a product that is returned is zero exactly if a factor is zero. -/
theorem ubig_mul_eq_zero (x y z : List Nat) (m n : Nat) (hx : Rep t.radix x m) (hy : Rep t.radix y n)
    (h : UBig.mul t dbg x y = .ok z) :
    isZero z = true ↔ isZero x = true ∨ isZero y = true := by
  have h1 := mul_exact_or_unwrap t dbg x y m n hx hy
  rw [h] at h1
  rw [is_zero_iff t z _ h1, is_zero_iff t x m hx, is_zero_iff t y n hy]
  exact Nat.mul_eq_zero

/-! ## C39: order -/

/-- C39: adding the same number on both sides does not change a comparison. -/
theorem cmp_add (x y z : List Nat) (m n k : Nat) (hx : Rep t.radix x m) (hy : Rep t.radix y n)
    (hz : Rep t.radix z k) :
    Returns (UBig.add t dbg x z) fun a => Returns (UBig.add t dbg y z) fun b =>
      UBig.cmp a b = UBig.cmp x y := by
  obtain ⟨a, h1, h2⟩ := add_exact t dbg x z m k hx hz
  obtain ⟨b, h3, h4⟩ := add_exact t dbg y z n k hy hz
  refine ⟨a, h1, b, h3, ?_⟩
  beta_reduce
  rw [cmp_numeric t a b _ _ h2 h4, cmp_numeric t x y _ _ hx hy]
  rcases Nat.lt_trichotomy m n with h | h | h
  · rw [Nat.compare_eq_lt.mpr h, Nat.compare_eq_lt.mpr (by omega)]
  · subst h; simp
  · rw [Nat.compare_eq_gt.mpr h, Nat.compare_eq_gt.mpr (by omega)]

/-- C39: multiplying both sides by the same nonzero number does not change a comparison, if both
products are returned. -/
theorem cmp_mul (x y z a b : List Nat) (m n k : Nat) (hx : Rep t.radix x m) (hy : Rep t.radix y n)
    (hz : Rep t.radix z k) (h0 : isZero z = false) (ha : UBig.mul t dbg x z = .ok a)
    (hb : UBig.mul t dbg y z = .ok b) : UBig.cmp a b = UBig.cmp x y := by
  have h1 := mul_exact_or_unwrap t dbg x z m k hx hz
  have h2 := mul_exact_or_unwrap t dbg y z n k hy hz
  rw [ha] at h1
  rw [hb] at h2
  have hk : 0 < k := by
    rcases Nat.eq_zero_or_pos k with h | h
    · rw [(is_zero_iff t z k hz).mpr h] at h0; cases h0
    · exact h
  rw [cmp_numeric t a b _ _ h1 h2, cmp_numeric t x y _ _ hx hy]
  rcases Nat.lt_trichotomy m n with h | h | h
  · rw [Nat.compare_eq_lt.mpr h, Nat.compare_eq_lt.mpr (Nat.mul_lt_mul_of_pos_right h hk)]
  · subst h; simp
  · rw [Nat.compare_eq_gt.mpr h, Nat.compare_eq_gt.mpr (Nat.mul_lt_mul_of_pos_right h hk)]

/-- C39: the comparison is a total order: reversing the arguments reverses the answer, and `le` is
transitive. -/
theorem cmp_order (x y z : List Nat) (m n k : Nat) (hx : Rep t.radix x m) (hy : Rep t.radix y n)
    (hz : Rep t.radix z k) :
    UBig.cmp y x = (UBig.cmp x y).swap ∧ (UBig.cmp x y = .eq ↔ UBig.eq x y = true) ∧
    (UBig.cmp x y ≠ .gt → UBig.cmp y z ≠ .gt → UBig.cmp x z ≠ .gt) := by
  rw [cmp_numeric t y x n m hy hx, cmp_numeric t x y m n hx hy, cmp_numeric t y z n k hy hz,
    cmp_numeric t x z m k hx hz, eq_iff t x y m n hx hy]
  refine ⟨?_, Nat.compare_eq_eq, ?_⟩
  · rw [Nat.compare_swap]
  · simp only [ne_eq, Nat.compare_eq_gt]
    omega

/-! ## C40: shifts -/

/-- C40: shifting a binary number left and back right gives the number, for every shift. -/
theorem shl_shr_binary (w : Width) (x : List Nat) (m n : Nat) (hx : Rep (DType.bin w).radix x m) :
    (UBig.shl (.bin w) dbg x n >>= fun y => UBig.shr (.bin w) dbg y n) = .ok x := by
  have L := ops_lawful (.bin w) dbg
  by_cases h0 : m = 0
  · have hx0 : x = [] := by rw [h0] at hx; exact hx.unique (rep_zero _)
    subst hx0
    simp only [UBig.shl, UBig.shr, shlBin, shrBin, shlWithin, shrWithin]
    by_cases hl : n % w.bits = 0 <;> by_cases hh : n / w.bits = 0 <;>
      simp [hl, hh, foldDigits, foldDigitsRev, dropLeadingZeros, dropZerosGo, slice, ok_bind]
  · obtain ⟨y, h1, h2⟩ := shl_binary_normalised_partial dbg w x m n hx
    have h3 := h2.mpr (by omega)
    have hlen : n / w.bits ≤ y.length := by
      by_contra hc
      have hv := val_lt h3.digs
      rw [h3.val_eq] at hv
      have e : (DType.bin w).radix = 2 ^ w.bits := rfl
      rw [e, ← Nat.pow_mul] at hv
      have h4 : w.bits * y.length ≤ n :=
        le_trans (Nat.mul_le_mul_left _ (by omega)) (Nat.mul_div_le n w.bits)
      have h5 : (2 : Nat) ^ (w.bits * y.length) ≤ 2 ^ n := Nat.pow_le_pow_right (by norm_num) h4
      have h6 : 2 ^ n ≤ m * 2 ^ n := Nat.le_mul_of_pos_left _ (by omega)
      omega
    obtain ⟨z, h4, h5⟩ := shr_binary_exact_partial dbg w y _ n h3 hlen
    rw [Nat.mul_div_cancel _ (Nat.pow_pos (by norm_num))] at h5
    rw [h1, ok_bind, h4, h5.unique hx]

/-- C40: two left shifts of a nonzero binary number are one. -/
theorem shl_shl_binary (w : Width) (x : List Nat) (m a b : Nat) (hx : Rep (DType.bin w).radix x m)
    (h0 : m ≠ 0) :
    Returns (UBig.shl (.bin w) dbg x (a + b)) fun z =>
      (UBig.shl (.bin w) dbg x a >>= fun y => UBig.shl (.bin w) dbg y b) = .ok z := by
  obtain ⟨z, h1, h2⟩ := shl_binary_normalised_partial dbg w x m (a + b) hx
  obtain ⟨y, h3, h4⟩ := shl_binary_normalised_partial dbg w x m a hx
  have h4 := h4.mpr (by omega)
  have h5 : m * 2 ^ a ≠ 0 := Nat.mul_ne_zero h0 (Nat.pow_pos (by norm_num)).ne'
  obtain ⟨z', h6, h7⟩ := shl_binary_normalised_partial dbg w y _ b h4
  have h7 := h7.mpr (by omega)
  have h2 := h2.mpr (by omega)
  rw [Nat.mul_assoc, ← pow_add] at h7
  exact ⟨z, h1, by rw [h3, ok_bind, h6, h7.unique h2]⟩

/-- C40: two right shifts of a binary number are one, as long as no more digits are shifted out than
there are. -/
theorem shr_shr_binary (w : Width) (x : List Nat) (m a b : Nat) (hx : Rep (DType.bin w).radix x m)
    (hn : (a + b) / w.bits ≤ x.length) :
    Returns (UBig.shr (.bin w) dbg x (a + b)) fun z =>
      ∀ z', (UBig.shr (.bin w) dbg x a >>= fun y => UBig.shr (.bin w) dbg y b) = .ok z' → z' = z := by
  obtain ⟨z, h1, h2⟩ := shr_binary_exact_partial dbg w x m (a + b) hx hn
  obtain ⟨y, h3, h4⟩ := shr_binary_exact_partial dbg w x m a hx
    (le_trans (Nat.div_le_div_right (by omega)) hn)
  refine ⟨z, h1, fun z' hz' => ?_⟩
  rw [h3, ok_bind] at hz'
  by_cases hb : b / w.bits ≤ y.length
  · obtain ⟨z'', h6, h7⟩ := shr_binary_exact_partial dbg w y _ b h4 hb
    rw [h6] at hz'
    cases hz'
    rw [Nat.div_div_eq_div_mul, ← pow_add] at h7
    exact h7.unique h2
  · have := shr_binary_panics dbg w y b (by omega)
    unfold Panics at this
    rw [this] at hz'
    cases hz'

/-- C40: a right shift of a binary number is division by a power of two, and the digits that are
shifted out are the remainder, for numbers of any size: `x = (x >> n << n) + x % 2 ^ n`. -/
theorem shr_eq_div_binary (w : Width) (x y : List Nat) (m n : Nat)
    (hx : Rep (DType.bin w).radix x m) (hy : Rep (DType.bin w).radix y (2 ^ n))
    (hn : n / w.bits ≤ x.length) :
    Returns (UBig.shr (.bin w) dbg x n) fun z => UBig.div (.bin w) dbg x y = .ok z ∧
      (2 ^ n ≤ m → (UBig.shl (.bin w) dbg z n >>= fun h => UBig.rem (.bin w) dbg x y >>= fun r =>
        UBig.add (.bin w) dbg h r) = .ok x) ∧
      (m < 2 ^ n → z = [] ∧ UBig.rem (.bin w) dbg x y = .ok x) := by
  have hb : 1 < (DType.bin w).radix := by have := (ops_lawful (.bin w) dbg).base; omega
  have hd := div_binary_digit_pow2_exact dbg w x y m 1 n hx (by rwa [Nat.one_mul]) hb
    (by rw [Nat.one_mul]; exact (Nat.pow_pos (by norm_num)).ne')
  rw [Nat.one_mul] at hd
  obtain ⟨z, h1, h2⟩ := shr_binary_exact_partial dbg w x m n hx hn
  obtain ⟨q, h3, h4⟩ := tot_iff.mp hd.div
  obtain ⟨r, h5, h6⟩ := tot_iff.mp hd.rem
  refine ⟨z, h1, by rw [h3, h4.unique h2], fun hle => ?_, fun hlt => ?_⟩
  · obtain ⟨h, h7, h8⟩ := shl_binary_normalised_partial dbg w z _ n h2
    have hq : m / 2 ^ n ≠ 0 := (Nat.div_pos hle (Nat.pow_pos (by norm_num))).ne'
    have h8 := h8.mpr (by omega)
    obtain ⟨s, h9, h10⟩ := add_exact (.bin w) dbg h r _ _ h8 h6
    rw [Nat.div_add_mod' m (2 ^ n)] at h10
    rw [h7, ok_bind, h5, ok_bind, h9, h10.unique hx]
  · rw [Nat.div_eq_of_lt hlt] at h2
    rw [Nat.mod_eq_of_lt hlt] at h6
    exact ⟨h2.unique (rep_zero _), by rw [h5, h6.unique hx]⟩

/-- C40: a left shift of a binary number is multiplication by a power of two, if that is returned. -/
theorem shl_eq_mul_binary (w : Width) (x y p : List Nat) (m n : Nat)
    (hx : Rep (DType.bin w).radix x m) (hy : Rep (DType.bin w).radix y (2 ^ n)) (h0 : m ≠ 0)
    (hp : UBig.mul (.bin w) dbg x y = .ok p) : UBig.shl (.bin w) dbg x n = .ok p := by
  obtain ⟨z, h1, h2⟩ := shl_binary_normalised_partial dbg w x m n hx
  have h3 := mul_exact_or_unwrap (.bin w) dbg x y m _ hx hy
  rw [hp] at h3
  rw [h1, (h2.mpr (by omega)).unique h3]

/-- C40: shifting a decimal number left and back right by up to `4 * MAX_HEX_PLACES` bits gives the
number. -/
theorem shl_shr_decimal_partial (w : Width) (x : List Nat) (m n : Nat)
    (hx : Rep (DType.dec w).radix x m) (hn : n ≤ 4 * UBig.maxHexPlaces w) :
    (UBig.shl (.dec w) dbg x n >>= fun y => UBig.shr (.dec w) dbg y n) = .ok x := by
  obtain ⟨y, h1, h2⟩ := shl_decimal_small_exact dbg w x m n hx hn
  obtain ⟨z, h3, h4⟩ := shr_decimal_exact_partial dbg w y _ n h2 hn
  rw [Nat.mul_div_cancel _ (Nat.pow_pos (by norm_num))] at h4
  rw [h1, ok_bind, h3, h4.unique hx]

/-! ## C41: powers, and division of products -/

/-- C41: `x ^ (a + b)` is the product of `x ^ a` and `x ^ b`, when all are returned and have at most
2262 digits. -/
theorem pow_add_of_returned_partial (x p q r s : List Nat) (m a b : Nat) (hx : Rep t.radix x m)
    (h0 : m ≠ 0) (hs : m ^ (a + b) < t.radix ^ 2262) (hp : UBig.pow t dbg x a = .ok p)
    (hq : UBig.pow t dbg x b = .ok q) (hr : UBig.pow t dbg x (a + b) = .ok r)
    (hm : UBig.mul t dbg p q = .ok s) : r = s := by
  have h1 := pow_exact_or_unwrap_partial t dbg x m a hx
    (lt_of_le_of_lt (Nat.pow_le_pow_right (by omega) (by omega)) hs)
  have h2 := pow_exact_or_unwrap_partial t dbg x m b hx
    (lt_of_le_of_lt (Nat.pow_le_pow_right (by omega) (by omega)) hs)
  have h3 := pow_exact_or_unwrap_partial t dbg x m (a + b) hx hs
  rw [hp] at h1
  rw [hq] at h2
  rw [hr] at h3
  have h4 := mul_exact_or_unwrap t dbg p q _ _ h1 h2
  rw [hm, ← pow_add] at h4
  exact Rep.unique h3 h4

/-- C41: `(x ^ a) ^ b` is `x ^ (a * b)`, when all are returned and have at most 2262 digits. -/
theorem pow_pow_of_returned_partial (x p r s : List Nat) (m a b : Nat) (hx : Rep t.radix x m)
    (hb : b ≠ 0) (hs : m ^ (a * b) < t.radix ^ 2262) (hp : UBig.pow t dbg x a = .ok p)
    (hr : UBig.pow t dbg x (a * b) = .ok r) (hm : UBig.pow t dbg p b = .ok s) : r = s := by
  have hB := (ops_lawful t dbg).base
  have h1 : ReturnsOr (· = .unwrap) (UBig.pow t dbg x a) fun z => Rep t.radix z (m ^ a) := by
    refine pow_exact_or_unwrap_partial t dbg x m a hx (lt_of_le_of_lt ?_ hs)
    rw [Nat.pow_mul]
    exact Nat.le_self_pow hb _
  have h3 := pow_exact_or_unwrap_partial t dbg x m (a * b) hx hs
  rw [hp] at h1
  rw [hr] at h3
  have h4 := pow_exact_or_unwrap_partial t dbg p (m ^ a) b h1 (by rwa [← Nat.pow_mul])
  rw [hm, ← Nat.pow_mul] at h4
  exact Rep.unique h3 h4

/-- C41: dividing a product by a factor gives the other factor and remainder zero, for decimal types
and a divisor of fewer than 20 digits that fits when scaled; the other factor may have any length. -/
theorem mul_div_decimal_partial (w : Width) (x y : List Nat) (m n : Nat)
    (hx : Rep (DType.dec w).radix x m) (hy : Rep (DType.dec w).radix y n) (h0 : n ≠ 0)
    (hl : y.length < 20) (hf : ScaleFits (DType.dec w).radix y) :
    Returns (UBig.mul (.dec w) dbg x y) fun p =>
      UBig.div (.dec w) dbg p y = .ok x ∧ UBig.rem (.dec w) dbg p y = .ok [] := by
  obtain ⟨p, h1, h2⟩ := mul_short_exact (.dec w) dbg x y m n hx hy (.inr hl)
  have hd := div_short_decimal_exact_partial dbg w p y _ n h2 hy h0 hl hf
  obtain ⟨q, h3, h4⟩ := tot_iff.mp hd.div
  obtain ⟨r, h5, h6⟩ := tot_iff.mp hd.rem
  rw [Nat.mul_div_cancel _ (by omega)] at h4
  rw [Nat.mul_mod_left] at h6
  exact ⟨p, h1, by rw [h3, h4.unique hx], by rw [h5, h6.unique (rep_zero _)]⟩

/-- C41, refuted for binary types: the product of `radix - 1` and `radix^2 / 2 + radix - 1`, divided by
the latter, is zero. -/
theorem mul_div_binary_wrong (w : Width) :
    let b := (DType.bin w).radix
    Rep b [b - 1] (b - 1) ∧ Rep b [b - 1, b / 2] (b ^ 2 / 2 + b - 1) ∧
    UBig.mul (.bin w) dbg [b - 1] [b - 1, b / 2] = .ok [1, b / 2 - 2, b / 2] ∧
    UBig.div (.bin w) dbg [1, b / 2 - 2, b / 2] [b - 1, b / 2] = .ok [] := by
  cases w <;> cases dbg <;> decide +kernel

/-! ## The hypotheses can be met -/

/-- A product of 25-digit numbers, associated both ways. -/
example :
    let x := List.replicate 25 77
    (UBig.mul (.dec .w8) true x x >>= fun p => UBig.mul (.dec .w8) true p x) =
      (UBig.mul (.dec .w8) true x x >>= fun p => UBig.mul (.dec .w8) true x p) ∧
    (UBig.mul (.dec .w8) true x x >>= fun p => UBig.mul (.dec .w8) true p x).toOption.isSome = true := by
  decide +kernel
example : UBig.shl (.bin .w8) true [1, 2] 13 = .ok [0, 32, 64] ∧
    UBig.shr (.bin .w8) true [0, 32, 64] 13 = .ok [1, 2] := by decide +kernel
example : UBig.div (.bin .w8) true [255, 255, 255] [0, 64] = .ok [255, 3] ∧
    UBig.shr (.bin .w8) true [255, 255, 255] 14 = .ok [255, 3] ∧ Rep 256 [0, 64] (2 ^ 14) := by
  decide +kernel
example : UBig.pow (.dec .w8) true [7] 5 = .ok [7, 68, 1] ∧ UBig.pow (.dec .w8) true [7] 3 = .ok [43, 3] ∧
    UBig.pow (.dec .w8) true [7] 2 = .ok [49] ∧ UBig.mul (.dec .w8) true [43, 3] [49] = .ok [7, 68, 1] ∧
    (7 : Nat) ^ (3 + 2) < (DType.dec .w8).radix ^ 2262 := by decide +kernel
/-- A divisor of three digits that fits when scaled. -/
example : ScaleFits 100 [3, 98, 60] :=
  scaleFits_of (s := 0) ⟨60, rfl, by norm_num, by norm_num⟩ (by decide)

end Babs.Props
