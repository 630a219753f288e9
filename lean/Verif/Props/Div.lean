import Verif.Proofs.DivTie
import Verif.Proofs.ProductOk
import Verif.Props.Word

/-!
# C16-C20: division of big numbers
-/

namespace Babs.Props

variable (t : DType) (dbg : Bool)

/-! ## Specification -/

/-- `s` doublings make the leading digit of `y` as large as a digit can be.  This is the amount by
which the code scales a division. -/
def Scale (b : Nat) (y : List Nat) (s : Nat) : Prop :=
  ∃ d, y.getLast? = some d ∧ d * 2 ^ s < b ∧ b ≤ d * 2 ^ (s + 1)

/-- The scaled divisor has as many digits as the divisor. -/
def ScaleFits (b : Nat) (y : List Nat) : Prop :=
  ∀ s, Scale b y s → val b y * 2 ^ s < b ^ y.length

/-- In the scaled division of `m`, a number of `nnum` digits, no partial remainder has the same leading
digit as the scaled divisor. -/
def NoTie (b m nnum : Nat) (y : List Nat) : Prop :=
  ∀ s, Scale b y s → ∀ i, i < nnum - y.length →
    (m * 2 ^ s / b ^ (i + 1)) % (val b y * 2 ^ s) / b ^ (y.length - 1)
      < val b y * 2 ^ s / b ^ (y.length - 1)

/-- All digits of the scaled divisor but the leading one are zero. -/
def ScaledTopOnly (b : Nat) (y : List Nat) : Prop :=
  ∀ s, Scale b y s → b ^ (y.length - 1) ∣ val b y * 2 ^ s

/-- No tie occurs in the division of `m`, a number of `nnum` digits, by a divisor of 20 or more digits,
which is done recursively in blocks. -/
def NoBlockTie (b m nnum : Nat) (y : List Nat) : Prop :=
  ∀ s, Scale b y s → BlocksTieFree b m nnum (val b y) y.length s

/-- The division of `m`, a number of `nnum` digits, by a divisor of 20 or more digits meets nothing that
can cause a panic, if the products for which `M` holds do not panic. -/
def NoBlockPanic (M : Nat → Nat → Bool) (b m nnum : Nat) (y : List Nat) : Prop :=
  ∀ s, Scale b y s → BlocksSafe M b m nnum (val b y) y.length s

/-- The four forms of the division of `m`, stored as `x`, by `n`, stored as `y`, give the quotient and
remainder in normal form, unless there is a panic for a reason in `E`: `x / y`, `x % y`,
`x.div_assign_big(y)` and `x.rem_assign_big(y)`. -/
structure DivisionExact (E : Panic → Prop) (x y : List Nat) (m n : Nat) : Prop where
  div : ReturnsOr E (UBig.div t dbg x y) fun z => Rep t.radix z (m / n)
  rem : ReturnsOr E (UBig.rem t dbg x y) fun z => Rep t.radix z (m % n)
  divAssign : ReturnsOr E (UBig.divAssign t dbg x y) fun r =>
    Rep t.radix r.1 (m / n) ∧ ∃ z, r.2 = .ok z ∧ Rep t.radix z (m % n)
  remAssign : ReturnsOr E (UBig.remAssign t dbg x y) fun r => Rep t.radix r.1 (m % n) ∧ r.2 = .ok ()

/-! ## Helpers -/

theorem divisionExact_of {x y : List Nat} {m n : Nat} (hx : Rep t.radix x m) (hy : Rep t.radix y n)
    (hn : n ≠ 0) (H : y.length ≤ x.length → DivGood (t.ops dbg) t.radix m x.length y) :
    DivisionExact t dbg (fun p => (p = .index ∨ p = .unwrap) ∧ 20 ≤ y.length ∧
      ¬ NoBlockPanic (productOk t.radix) t.radix m x.length y) x y m n := by
  have e : ∀ p, bzFail p ∧ 20 ≤ y.length ∧ ¬ SafeDiv t.radix m x.length y →
      (p = .index ∨ p = .unwrap) ∧ 20 ≤ y.length ∧
        ¬ NoBlockPanic (productOk t.radix) t.radix m x.length y :=
    fun p h => ⟨h.1, h.2.1, fun z => h.2.2 fun s d h1 h2 h3 => z s ⟨d, h1, h2, h3⟩⟩
  exact ⟨((divOp_spec (ops_lawful t dbg) hx hy hn H).mono fun _ h => h.1).weaken e,
    ((remOp_spec (ops_lawful t dbg) hx hy hn H).mono fun _ h => h.1).weaken e,
    ((divAssignBig_spec (ops_lawful t dbg) hx hy hn H).mono fun _ h => h.1).weaken e,
    ((remAssignBig_spec (ops_lawful t dbg) hx hy hn H).mono fun _ h => h.1).weaken e⟩

theorem DivisionExact.weaken {t : DType} {dbg : Bool} {E E' : Panic → Prop} {x y : List Nat}
    {m n : Nat} (h : DivisionExact t dbg E x y m n) (hE : ∀ p, E p → E' p) :
    DivisionExact t dbg E' x y m n :=
  ⟨Sp.weaken h.div hE, Sp.weaken h.rem hE, Sp.weaken h.divAssign hE, Sp.weaken h.remAssign hE⟩

theorem scaleFits_fit {b : Nat} {y : List Nat} (h : ScaleFits b y) :
    ∀ s d, y.getLast? = some d → d * 2 ^ s < b → b ≤ d * 2 ^ (s + 1) →
      val b y * 2 ^ s < b ^ y.length :=
  fun s d h1 h2 h3 => h s ⟨d, h1, h2, h3⟩

/-! ## When the conditions hold -/

/-- Products that meet no bad difference do not panic. -/
theorem noBlockPanic_productOk {d m nnum : Nat} {y : List Nat}
    (h : NoBlockPanic (mulSafe t.radix d) t.radix m nnum y) :
    NoBlockPanic (productOk t.radix) t.radix m nnum y := fun s h1 k h2 i h3 =>
  bzSafe_weaken _ _ _ _ (ops_lawful t false).pos
    (fun _ _ _ _ h => productOk_of_mulSafe (ops_lawful t false) h) (h s h1 k h2 i h3)

/-- There is at most one scale. -/
theorem Scale.unique {b : Nat} {y : List Nat} {s s' : Nat} (h : Scale b y s) (h' : Scale b y s') :
    s = s' := by
  obtain ⟨d, h1, h2, h3⟩ := h
  obtain ⟨d', h1', h2', h3'⟩ := h'
  have : d = d' := by rw [h1] at h1'; simpa using h1'
  subst this
  rcases Nat.lt_trichotomy s s' with h | h | h
  · have h4 : 2 ^ (s + 1) ≤ 2 ^ s' := Nat.pow_le_pow_right (by omega) h
    have h5 := Nat.mul_le_mul_left d h4
    omega
  · exact h
  · have h4 : 2 ^ (s' + 1) ≤ 2 ^ s := Nat.pow_le_pow_right (by omega) h
    have h5 := Nat.mul_le_mul_left d h4
    omega

/-- It is enough to look at one scale. -/
theorem scaleFits_of {b : Nat} {y : List Nat} {s : Nat} (h : Scale b y s)
    (hf : val b y * 2 ^ s < b ^ y.length) : ScaleFits b y := by
  intro s' h'
  rw [h'.unique h]; exact hf

/-- It is enough to look at one scale. -/
theorem noTie_of {b m nnum : Nat} {y : List Nat} {s : Nat} (h : Scale b y s)
    (hf : ∀ i, i < nnum - y.length → (m * 2 ^ s / b ^ (i + 1)) % (val b y * 2 ^ s) / b ^ (y.length - 1)
      < val b y * 2 ^ s / b ^ (y.length - 1)) : NoTie b m nnum y := by
  intro s' h'
  rw [h'.unique h]; exact hf

/-- The scaled divisor fits if its leading digit leaves room for the carry. -/
theorem scaleFits_of_top {b : Nat} {v : List Nat} {d : Nat} (hd : Digs b (v ++ [d]))
    (h : ∀ s, d * 2 ^ s < b → b ≤ d * 2 ^ (s + 1) → (d + 1) * 2 ^ s ≤ b) :
    ScaleFits b (v ++ [d]) := by
  rintro s ⟨d', h1, h2, h3⟩
  have := getLast_snoc_eq h1
  subst this
  have h4 := h s h2 h3
  rw [digs_append] at hd
  have h5 := val_lt hd.1
  rw [val_snoc, List.length_append, List.length_singleton, pow_succ]
  have h6 : (val b v + b ^ v.length * d') * 2 ^ s < (b ^ v.length * (d' + 1)) * 2 ^ s := by
    apply Nat.mul_lt_mul_of_pos_right _ (by positivity)
    have : b ^ v.length * (d' + 1) = b ^ v.length * d' + b ^ v.length := by ring
    omega
  calc (val b v + b ^ v.length * d') * 2 ^ s < (b ^ v.length * (d' + 1)) * 2 ^ s := h6
    _ = b ^ v.length * ((d' + 1) * 2 ^ s) := by ring
    _ ≤ _ := Nat.mul_le_mul_left _ h4

/-- C18: binary divisors can always be scaled. -/
theorem scaleFits_binary (w : Width) (y : List Nat) (n : Nat) (hy : Rep (DType.bin w).radix y n) :
    ScaleFits (DType.bin w).radix y := by
  by_cases hne : y = []
  · subst hne
    rintro s ⟨d, h1, -⟩
    simp at h1
  obtain ⟨v, d, rfl⟩ : ∃ v d, y = v ++ [d] :=
    ⟨y.dropLast, y.getLast hne, (List.dropLast_concat_getLast _).symm⟩
  have hc := canon_snoc.mp hy.canon
  apply scaleFits_of_top hy.digs
  intro s h1 _
  have hr : (DType.bin w).radix = 2 ^ w.bits := rfl
  rw [hr] at h1 ⊢
  have h2 : 2 ^ s ≤ d * 2 ^ s := Nat.le_mul_of_pos_left _ (by omega)
  have h3 : s < w.bits := (Nat.pow_lt_pow_iff_right (by omega : 1 < 2)).mp (by omega)
  obtain ⟨k, hk⟩ : ∃ k, w.bits = s + k := ⟨w.bits - s, by omega⟩
  rw [hk, pow_add, Nat.mul_comm (2 ^ s)] at h1 ⊢
  have h4 := Nat.lt_of_mul_lt_mul_right h1
  exact Nat.mul_le_mul_right _ h4

/-- A partial remainder is below a divisor with zeros after its leading digit. -/
theorem tie_free_of_dvd {b k y : Nat} (hb : 0 < b) (hy : 0 < y) (h : b ^ k ∣ y) (a : Nat) :
    a % y / b ^ k < y / b ^ k := by
  obtain ⟨f, rfl⟩ := h
  have hP : 0 < b ^ k := Nat.pow_pos hb
  rw [Nat.mul_div_cancel_left _ hP, Nat.div_lt_iff_lt_mul hP, Nat.mul_comm f]
  exact Nat.mod_lt _ hy

/-- No tie can occur if all digits of the scaled divisor but the leading one are zero. -/
theorem noTie_of_topOnly {b m nnum : Nat} {y : List Nat} (hb : 0 < b) (hy : 0 < val b y)
    (h : ScaledTopOnly b y) : NoTie b m nnum y :=
  fun s hs _ _ => tie_free_of_dvd hb (Nat.mul_pos hy (by positivity)) (h s hs) _

theorem bzTieFree_of_dvd {b : Nat} (hb : 2 ≤ b) (k : Nat) :
    ∀ n a y, 0 < y → b ^ (n - 1) ∣ y → BzTieFree b k n a y := by
  induction k with
  | zero => intro n a y _ _; trivial
  | succ k ih =>
    intro n a y hy hd
    rw [BzTieFree]
    split
    · exact fun i _ => tie_free_of_dvd (by omega) hy hd _
    · have hP : 0 < b ^ (n / 2) := Nat.pow_pos (by omega)
      have e : n - 1 = n / 2 + (n - 1 - n / 2) := by omega
      obtain ⟨c, rfl⟩ := hd
      have hc : 0 < c := Nat.pos_of_ne_zero (by rintro rfl; simp at hy)
      have hq : b ^ (n - 1) * c / b ^ (n / 2) = b ^ (n - 1 - n / 2) * c := by
        conv_lhs => rw [e, pow_add, Nat.mul_assoc, Nat.mul_div_cancel_left _ hP]
      have h1 : 0 < b ^ (n - 1 - n / 2) * c := Nat.mul_pos (Nat.pow_pos (by omega)) hc
      have h2 : b ^ (n / 2 - 1) ∣ b ^ (n - 1 - n / 2) * c :=
        Dvd.dvd.mul_right (pow_dvd_pow b (by omega)) c
      simp only [hq]
      exact ⟨fun _ => ih _ _ _ h1 h2, fun _ => ih _ _ _ h1 h2⟩

/-- The same for the division in blocks. -/
theorem noBlockTie_of_topOnly {b m nnum : Nat} {y : List Nat} (hb : 2 ≤ b) (hy : 0 < val b y)
    (h : ScaledTopOnly b y) : NoBlockTie b m nnum y := by
  intro s hs n hn i _
  have hle : y.length ≤ n := by obtain ⟨e, -, -, h, -⟩ := hn; exact h
  have hpos : 0 < y.length := by
    apply List.length_pos_iff.mpr
    rintro rfl; simp at hy
  apply bzTieFree_of_dvd hb
  · exact Nat.mul_pos (Nat.mul_pos hy (by positivity)) (Nat.pow_pos (by omega))
  · rw [show n - 1 = (y.length - 1) + (n - y.length) by omega, pow_add]
    exact Nat.mul_dvd_mul_right (h s hs) _

theorem bzSafe_of_dvd {b d : Nat} (hb : 2 ≤ b) (k : Nat) :
    ∀ n a y, n < k → 0 < n → a < y * b ^ n → b ^ (n - 1) ∣ y → bzSafe (mulSafe b (d + 1)) b k n a y = true := by
  induction k with
  | zero => intro n a y h; omega
  | succ k ih =>
    intro n a y hk hn ha hd
    rw [bzSafe]
    have hP1 : 0 < b ^ (n - 1) := Nat.pow_pos (by omega)
    obtain ⟨c, rfl⟩ := hd
    split
    · rw [decide_eq_true_eq, Nat.mul_div_cancel_left _ hP1,
        Nat.div_lt_iff_lt_mul (Nat.pow_pos (by omega))]
      rwa [show 2 * n - 1 = (n - 1) + n by omega, pow_add, ← Nat.mul_assoc, Nat.mul_comm c]
    · have hP : 0 < b ^ (n / 2) := Nat.pow_pos (by omega)
      have e : n - 1 = n / 2 + (n - 1 - n / 2) := by omega
      have hq : b ^ (n - 1) * c / b ^ (n / 2) = b ^ (n - 1 - n / 2) * c := by
        conv_lhs => rw [e, pow_add, Nat.mul_assoc, Nat.mul_div_cancel_left _ hP]
      have hr : b ^ (n - 1) * c % b ^ (n / 2) = 0 := by
        rw [e, pow_add, Nat.mul_assoc, Nat.mul_mod_right]
      have h2 : b ^ (n / 2 - 1) ∣ b ^ (n - 1 - n / 2) * c :=
        Dvd.dvd.mul_right (pow_dvd_pow b (by omega)) c
      have h0 : ∀ x, mulSafe b (d + 1) x 0 = true := by
        intro x; rw [mulSafe, if_pos (Or.inr (by simp [size]))]
      simp only [hq, hr, h0, Bool.and_true]
      have key : ∀ a', (if a' / b ^ (n / 2) / b ^ (n / 2) < b ^ (n - 1 - n / 2) * c then
          bzSafe (mulSafe b (d + 1)) b k (n / 2) (a' / b ^ (n / 2)) (b ^ (n - 1 - n / 2) * c) else true)
          = true := by
        intro a'
        split
        next h => exact ih _ _ _ (by omega) (by omega) ((Nat.div_lt_iff_lt_mul hP).mp h) h2
        · rfl
      rw [key, key]; rfl

/-- The same for panics. -/
theorem noBlockPanic_of_topOnly {b m nnum d : Nat} {y : List Nat} (hb : 2 ≤ b) (hy : 0 < val b y)
    (h : ScaledTopOnly b y) : NoBlockPanic (mulSafe b (d + 1)) b m nnum y := by
  intro s hs n hn i _
  have hle : y.length ≤ n := by obtain ⟨e, -, -, h, -⟩ := hn; exact h
  have hpos : 0 < y.length := by
    apply List.length_pos_iff.mpr
    rintro rfl; simp at hy
  apply bzSafe_of_dvd hb _ _ _ _ (by omega) (by omega)
  · exact Nat.mod_lt _ (Nat.mul_pos (Nat.mul_pos (Nat.mul_pos hy (by positivity))
      (Nat.pow_pos (by omega))) (Nat.pow_pos (by omega)))
  · rw [show n - 1 = (y.length - 1) + (n - y.length) by omega, pow_add]
    exact Nat.mul_dvd_mul_right (h s hs) _

/-! ## C17, C18: exactness -/

/-- C17 (in part): division by a nonzero number of any length.  The quotient and remainder are exact
whenever they are returned, provided that the scaled divisor fits and, for binary types, that no tie
occurs.  There can be a panic only for divisors of 20 digits or more, from an index out of bounds
(`div_bz_panics`) or an unwrapped error; and not if the division satisfies `NoBlockPanic`
(`div_panics_exactly` says that otherwise it does panic).  Missing: divisors that do not fit
(`div_scale_wrong`) and ties (`div_tie_wrong`). -/
theorem div_exact_partial (x y : List Nat) (m n : Nat) (hx : Rep t.radix x m)
    (hy : Rep t.radix y n) (hn : n ≠ 0) (hf : ScaleFits t.radix y)
    (ht : (∃ w, t = .dec w) ∨ if y.length < 20 then NoTie t.radix m x.length y
      else NoBlockTie t.radix m x.length y) :
    DivisionExact t dbg (fun p => (p = .index ∨ p = .unwrap) ∧ 20 ≤ y.length ∧
      ¬ NoBlockPanic (productOk t.radix) t.radix m x.length y) x y m n := by
  refine divisionExact_of t dbg hx hy hn fun _ => ⟨fun _ => scaleFits_fit hf, ?_, ?_⟩
  · rintro _ hl
    rcases ht with ⟨w, rfl⟩ | h
    · exact Or.inl (dec_tieLaw w dbg)
    · rw [if_pos hl] at h
      exact Or.inr fun s d h1 h2 h3 i hi => h s ⟨d, h1, h2, h3⟩ i hi
  · intro hl
    rcases ht with ⟨w, rfl⟩ | h
    · exact Or.inl (dec_tieLaw w dbg)
    · rw [if_neg (by omega)] at h
      refine Or.inr fun s d h1 h2 h3 => ?_
      have := h s ⟨d, h1, h2, h3⟩
      rwa [hy.val_eq] at this ⊢

/-- C18, C17 (in part): division by a nonzero number of fewer than 20 digits is exact and does not
panic, for a dividend of any length, provided that the scaled divisor fits and, for binary types, that
no tie occurs. -/
theorem div_short_exact_partial (x y : List Nat) (m n : Nat) (hx : Rep t.radix x m)
    (hy : Rep t.radix y n) (hn : n ≠ 0) (hl : y.length < 20) (hf : ScaleFits t.radix y)
    (ht : (∃ w, t = .dec w) ∨ NoTie t.radix m x.length y) :
    DivisionExact t dbg (fun _ => False) x y m n := by
  refine (div_exact_partial t dbg x y m n hx hy hn hf (ht.imp_right fun h => ?_)).weaken
    (fun p h => by omega)
  rw [if_pos hl]; exact h

/-- C18: for decimal types only the scaling matters. -/
theorem div_short_decimal_exact_partial (w : Width) (x y : List Nat) (m n : Nat)
    (hx : Rep (DType.dec w).radix x m) (hy : Rep (DType.dec w).radix y n) (hn : n ≠ 0)
    (hl : y.length < 20) (hf : ScaleFits (DType.dec w).radix y) :
    DivisionExact (.dec w) dbg (fun _ => False) x y m n :=
  div_short_exact_partial _ dbg x y m n hx hy hn hl hf (Or.inl ⟨w, rfl⟩)

/-- C18: for binary types only ties matter. -/
theorem div_short_binary_exact_partial (w : Width) (x y : List Nat) (m n : Nat)
    (hx : Rep (DType.bin w).radix x m) (hy : Rep (DType.bin w).radix y n) (hn : n ≠ 0)
    (hl : y.length < 20) (ht : NoTie (DType.bin w).radix m x.length y) :
    DivisionExact (.bin w) dbg (fun _ => False) x y m n :=
  div_short_exact_partial _ dbg x y m n hx hy hn hl (scaleFits_binary w y n hy) (Or.inr ht)

/-- C17: division by a nonzero number of one digit is always exact. -/
theorem div_one_digit_exact (x y : List Nat) (m n : Nat) (hx : Rep t.radix x m)
    (hy : Rep t.radix y n) (hn : n ≠ 0) (hl : y.length ≤ 1) :
    DivisionExact t dbg (fun _ => False) x y m n :=
  (divisionExact_of t dbg hx hy hn fun _ => ⟨by omega, by omega, by omega⟩).weaken
    (fun p h => by omega)

/-- C17: division is exact and does not panic, for dividends and divisors of any length, if all digits of
the scaled divisor but the leading one are zero. -/
theorem div_top_only_exact (x y : List Nat) (m n : Nat) (hx : Rep t.radix x m)
    (hy : Rep t.radix y n) (hn : n ≠ 0) (hf : ScaleFits t.radix y) (h : ScaledTopOnly t.radix y) :
    DivisionExact t dbg (fun _ => False) x y m n := by
  have hb := (ops_lawful t dbg).base
  have h0 : 0 < val t.radix y := by rw [hy.val_eq]; omega
  refine (div_exact_partial t dbg x y m n hx hy hn hf (Or.inr ?_)).weaken fun p hp =>
    hp.2.2 (noBlockPanic_productOk t (d := 1) (noBlockPanic_of_topOnly (by omega) h0 h))
  split
  · exact noTie_of_topOnly (by omega) h0 h
  · exact noBlockTie_of_topOnly (by omega) h0 h

/-- C17: division by a digit times a power of the radix is exact, for all types and sizes. -/
theorem div_radix_power_exact (x : List Nat) (m k d : Nat) (hx : Rep t.radix x m) (hd : d < t.radix)
    (h0 : d ≠ 0) :
    DivisionExact t dbg (fun _ => False) x (List.replicate k 0 ++ [d]) m (d * t.radix ^ k) := by
  have hb := (ops_lawful t dbg).pos
  have hv : val t.radix (List.replicate k 0 ++ [d]) = t.radix ^ k * d := by
    rw [val_zeros_append]; simp
  apply div_top_only_exact t dbg x _ m _ hx
  · refine ⟨by simp [digs_replicate hb, hd], canon_snoc.mpr h0, ?_⟩
    rw [hv, Nat.mul_comm]
  · exact Nat.mul_ne_zero h0 (Nat.pow_pos hb).ne'
  · rintro s ⟨d', h1, h2, h3⟩
    have := getLast_snoc_eq h1
    subst this
    rw [hv, List.length_append, List.length_replicate, List.length_singleton, pow_succ, Nat.mul_assoc]
    exact Nat.mul_lt_mul_of_pos_left h2 (Nat.pow_pos hb)
  · rintro s -
    rw [hv, List.length_append, List.length_replicate, List.length_singleton, Nat.add_sub_cancel,
      Nat.mul_assoc]
    exact dvd_mul_right _ _

/-- C17 (in part): binary division by numbers of 20 digits or more is exact if it returns and no tie
occurs. -/
theorem div_long_binary_exact_partial (w : Width) (x y : List Nat) (m n : Nat)
    (hx : Rep (DType.bin w).radix x m) (hy : Rep (DType.bin w).radix y n) (hn : n ≠ 0)
    (hl : 20 ≤ y.length) (ht : NoBlockTie (DType.bin w).radix m x.length y) :
    DivisionExact (.bin w) dbg (fun p => p = .index ∨ p = .unwrap) x y m n :=
  (div_exact_partial _ dbg x y m n hx hy hn (scaleFits_binary w y n hy)
    (Or.inr (by rw [if_neg (by omega)]; exact ht))).weaken fun _ h => h.1

/-- C17: for binary types, division of a number by one of the same length is exact, below 20
digits. -/
theorem div_same_length_exact (w : Width) (x y : List Nat) (m n : Nat)
    (hx : Rep (DType.bin w).radix x m) (hy : Rep (DType.bin w).radix y n) (hn : n ≠ 0)
    (hl : y.length < 20) (he : x.length ≤ y.length) :
    DivisionExact (.bin w) dbg (fun _ => False) x y m n :=
  div_short_binary_exact_partial dbg w x y m n hx hy hn hl fun _ _ i hi => by omega

/-- C17: division by a longer number gives quotient zero. -/
theorem div_longer_exact (x y : List Nat) (m n : Nat) (hx : Rep t.radix x m) (hy : Rep t.radix y n)
    (hl : x.length < y.length) : DivisionExact t dbg (fun _ => False) x y m n := by
  have hB := (ops_lawful t dbg).pos
  have hne : y ≠ [] := by rintro rfl; simp at hl
  have hn : n ≠ 0 := by have := hy.canon.pos hB hne; rw [hy.val_eq] at this; omega
  have hlt : m < n := by
    rw [← hx.val_eq, ← hy.val_eq]
    have h1 := val_lt hx.digs
    have h2 := hy.canon.ge hB hne
    have h3 : t.radix ^ x.length ≤ t.radix ^ (y.length - 1) := Nat.pow_le_pow_right hB (by omega)
    omega
  have hd : UBig.divAssign t dbg x y = .ok ([], .ok x) := by
    unfold UBig.divAssign divAssignBig
    simp only [hl, if_true, ubigNew_rep hx, ok_bind, pure_eq_ok]
  have hr : UBig.remAssign t dbg x y = .ok (x, .ok ()) := by
    unfold UBig.remAssign remAssignBig
    simp only [show ¬ y.length ≤ x.length by omega, if_false, pure_eq_ok]
  have h0 : Rep t.radix [] (m / n) := by rw [Nat.div_eq_of_lt hlt]; exact rep_nil
  have h1 : Rep t.radix x (m % n) := by rw [Nat.mod_eq_of_lt hlt]; exact hx
  refine ⟨?_, ?_, ?_, ?_⟩
  · unfold UBig.div divOp; rw [show divAssignBig _ _ _ _ = _ from hd]; exact h0
  · unfold UBig.rem remOp; rw [show remAssignBig _ _ _ _ = _ from hr]; exact h1
  · rw [hd]; exact ⟨h0, x, rfl, h1⟩
  · rw [hr]; exact ⟨h1, rfl⟩

/-- C17 (in part), C34: decimal division by numbers of any length.  If the scaled divisor fits, the
quotient and remainder are exact whenever they are returned; only for divisors of 20 digits or more can
there be a panic, from an index out of bounds (`div_bz_panics`) or an unwrapped error. -/
theorem div_decimal_exact_partial (w : Width) (x y : List Nat) (m n : Nat)
    (hx : Rep (DType.dec w).radix x m) (hy : Rep (DType.dec w).radix y n) (hn : n ≠ 0)
    (hf : ScaleFits (DType.dec w).radix y) :
    DivisionExact (.dec w) dbg (fun p => (p = .index ∨ p = .unwrap) ∧ 20 ≤ y.length) x y m n :=
  (div_exact_partial _ dbg x y m n hx hy hn hf (Or.inl ⟨w, rfl⟩)).weaken fun _ h => ⟨h.1, h.2.1⟩

/-- C17: the defining equation of division: with the quotient and remainder of `div_assign_big` one has
`x = q * y + r` and `r < y`. -/
theorem divisionExact_equation {E : Panic → Prop} {x y : List Nat} {m n : Nat} (hn : n ≠ 0)
    (h : DivisionExact t dbg E x y m n) :
    ReturnsOr E (UBig.divAssign t dbg x y) fun r => ∃ z, r.2 = .ok z ∧
      m = val t.radix r.1 * n + val t.radix z ∧ val t.radix z < n := by
  refine Sp.mono h.divAssign ?_
  rintro ⟨q, r⟩ ⟨h1, z, h2, h3⟩
  refine ⟨z, h2, ?_, ?_⟩
  · rw [h1.val_eq, h3.val_eq, Nat.mul_comm, Nat.div_add_mod]
  · rw [h3.val_eq]; exact Nat.mod_lt _ (by omega)

/-! ## C17: where division is not exact -/

/-- C17, refuted for binary types: a tie makes the quotient zero.  With `b` the radix, the true
quotient of `b^3 / 2` by `b^2 / 2 + b - 1` is `b - 2`; the result is zero, in debug and release builds.
The divisor has two digits. -/
theorem div_tie_wrong (w : Width) :
    let b := (DType.bin w).radix
    let x := [0, 0, b / 2]
    let y := [b - 1, b / 2]
    Rep b x (b ^ 3 / 2) ∧ Rep b y (b ^ 2 / 2 + b - 1) ∧
    (b ^ 3 / 2) / (b ^ 2 / 2 + b - 1) = b - 2 ∧ UBig.div (.bin w) dbg x y = .ok [] := by
  cases w <;> cases dbg <;> decide +kernel

/-- C17, refuted for binary types, also for a divisor of three digits (schoolbook division). -/
theorem div_tie_wrong_long (w : Width) :
    let b := (DType.bin w).radix
    let x := [0, 0, 0, b / 2]
    let y := [b - 1, b - 1, b / 2]
    Rep b x (b ^ 4 / 2) ∧ Rep b y (b ^ 3 / 2 + b ^ 2 - 1) ∧
    (b ^ 4 / 2) / (b ^ 3 / 2 + b ^ 2 - 1) = b - 2 ∧ UBig.div (.bin w) dbg x y = .ok [] := by
  cases w <;> cases dbg <;> decide +kernel

/-- C17, refuted for decimal types: the divisor `199 = [99, 1]` does not fit when scaled by 64; the
quotient `10000 / 199 = 50` is returned as 233. -/
theorem div_scale_wrong :
    Rep 100 [0, 0, 1] 10000 ∧ Rep 100 [99, 1] 199 ∧ ¬ ScaleFits 100 [99, 1] ∧
    UBig.div (.dec .w8) dbg [0, 0, 1] [99, 1] = .ok [33, 2] := by
  refine ⟨by decide, by decide, ?_, by cases dbg <;> decide +kernel⟩
  intro h
  exact absurd (h 6 ⟨1, rfl, by decide, by decide⟩) (by decide)

/-- C17, C33: for a decimal divisor of three digits that does not fit when scaled, a debug build
panics and a release build returns a wrong quotient: `1000000 / 19999 = 50` is returned as 228. -/
theorem div_scale_wrong_long :
    Rep 100 [0, 0, 0, 1] 1000000 ∧ Rep 100 [99, 99, 1] 19999 ∧
    Panics (UBig.div (.dec .w8) true [0, 0, 0, 1] [99, 99, 1]) .debugAssert ∧
    UBig.div (.dec .w8) false [0, 0, 0, 1] [99, 99, 1] = .ok [28, 2] := by
  decide +kernel

/-- Dividend and divisor of 30 and 20 digits, with the same leading digit. -/
def bzWitnessNum (b : Nat) : List Nat := List.replicate 20 0 ++ [4] ++ List.replicate 8 0 ++ [b / 2]
/-- See `bzWitnessNum`. -/
def bzWitnessDen (b : Nat) : List Nat := List.replicate 10 0 ++ [5] ++ List.replicate 8 0 ++ [b / 2]

/-- C17, C34, refuted for divisors of 20 digits: the division panics with an index out of bounds, for
every digit type.  The bound of `div_short_exact_partial` is tight. -/
theorem div_bz_panics :
    Rep t.radix (bzWitnessNum t.radix) (4 * t.radix ^ 20 + t.radix / 2 * t.radix ^ 29) ∧
    Rep t.radix (bzWitnessDen t.radix) (5 * t.radix ^ 10 + t.radix / 2 * t.radix ^ 19) ∧
    (bzWitnessDen t.radix).length = 20 ∧
    Panics (UBig.div t dbg (bzWitnessNum t.radix) (bzWitnessDen t.radix)) .index := by
  rcases t with w | w <;> cases w <;> cases dbg <;> decide +kernel

/-! ## C18: exactly when binary division is exact -/

theorem not_noTie {b m nnum : Nat} {y : List Nat} (h : ¬ NoTie b m nnum y) : HasTie b m nnum y := by
  unfold NoTie at h
  push Not at h
  obtain ⟨s, ⟨d, h1, h2, h3⟩, i, hi, h4⟩ := h
  exact ⟨s, d, h1, h2, h3, i, hi, h4⟩

/-- C18: for binary types and divisors of fewer than 20 digits, the quotient is right if and only if no
tie occurs.  With a tie, the quotient is wrong or the division panics. -/
theorem div_binary_exact_iff (w : Width) (x y : List Nat) (m n : Nat)
    (hx : Rep (DType.bin w).radix x m) (hy : Rep (DType.bin w).radix y n) (hn : n ≠ 0)
    (hl : y.length < 20) :
    Returns (UBig.div (.bin w) dbg x y) (fun z => Rep (DType.bin w).radix z (m / n)) ↔
      NoTie (DType.bin w).radix m x.length y := by
  constructor
  · rintro ⟨z, h1, h2⟩
    by_contra h
    have := divOp_tie (dbg := dbg) (ops_lawful (.bin w) dbg) (bin_wrapLaw w dbg) hx hy hn hl
      (scaleFits_fit (scaleFits_binary w y n hy)) (not_noTie h)
    unfold UBig.div at h1
    rw [h1] at this
    exact this h2.val_eq
  · intro h
    have := (div_short_binary_exact_partial dbg w x y m n hx hy hn hl h).div
    cases hd : UBig.div (.bin w) dbg x y with
    | error p => rw [hd] at this; exact this.elim
    | ok z => rw [hd] at this; exact ⟨z, rfl, this⟩

/-- A number has as many digits as it needs. -/
theorem Rep.pow_le {b m : Nat} {x : List Nat} (hb : 0 < b) (h : Rep b x m) (h0 : m ≠ 0) :
    b ^ (x.length - 1) ≤ m := by
  rw [← h.val_eq]
  exact h.canon.ge hb (by rintro rfl; have := h.val_eq; simp at this; omega)

/-- The scaled divisor is at least half of the largest number of its length. -/
theorem scaled_ge {b : Nat} {y : List Nat} {s : Nat} (hs : Scale b y s) :
    b ^ y.length ≤ 2 * (val b y * 2 ^ s) := by
  obtain ⟨d, h1, h2, h3⟩ := hs
  have hne : y ≠ [] := by rintro rfl; simp at h1
  obtain ⟨v, d', rfl⟩ : ∃ v d, y = v ++ [d] :=
    ⟨y.dropLast, y.getLast hne, (List.dropLast_concat_getLast _).symm⟩
  have := getLast_snoc_eq h1
  subst this
  have h4 : b ^ v.length * b ≤ b ^ v.length * (d * 2 ^ (s + 1)) := Nat.mul_le_mul_left _ h3
  have h5 : 2 * ((val b v + b ^ v.length * d) * 2 ^ s)
      = 2 * (val b v * 2 ^ s) + b ^ v.length * (d * 2 ^ (s + 1)) := by rw [pow_succ]; ring
  rw [val_snoc, List.length_append, List.length_singleton, pow_succ, h5]
  omega

/-- There is a scale. -/
theorem exists_scale (w : Width) {y : List Nat} {n : Nat} (hy : Rep (DType.bin w).radix y n)
    (hn : n ≠ 0) : ∃ s, Scale (DType.bin w).radix y s ∧ s < w.bits := by
  have hne : y ≠ [] := by rintro rfl; have := hy.val_eq; simp at this; omega
  obtain ⟨v, d, rfl⟩ : ∃ v d, y = v ++ [d] :=
    ⟨y.dropLast, y.getLast hne, (List.dropLast_concat_getLast _).symm⟩
  have hc := canon_snoc.mp hy.canon
  obtain ⟨s, -, h2, h3⟩ := (ops_lawful (.bin w) false).maxShift d (by omega) (hy.digs d (by simp))
  refine ⟨s, ⟨d, by simp, h2, h3⟩, ?_⟩
  have hr : (DType.bin w).radix = 2 ^ w.bits := rfl
  rw [hr] at h2
  have h4 : 2 ^ s ≤ d * 2 ^ s := Nat.le_mul_of_pos_left _ (by omega)
  exact (Nat.pow_lt_pow_iff_right (by omega : 1 < 2)).mp (by omega)

/-- The digits of the scaled divisor after the first are zero if the divisor is a digit times a power
of two. -/
theorem scaled_dvd (w : Width) {y : List Nat} {f j : Nat}
    (hy : Rep (DType.bin w).radix y (f * 2 ^ j)) (hf : f < (DType.bin w).radix) (hn : f * 2 ^ j ≠ 0) :
    ScaledTopOnly (DType.bin w).radix y := by
  intro s hs
  have hr : (DType.bin w).radix = 2 ^ w.bits := rfl
  have hlen : 0 < y.length := by
    apply List.length_pos_iff.mpr
    rintro rfl
    exact hn (by have := hy.val_eq; rw [← this]; rfl)
  have h1 := scaled_ge hs
  rw [hy.val_eq] at h1 ⊢
  rw [hr] at h1 hf ⊢
  obtain ⟨k, hk⟩ : ∃ k, y.length = k + 1 := ⟨y.length - 1, by omega⟩
  rw [hk] at h1 ⊢
  rw [Nat.add_sub_cancel, ← pow_mul]
  have e : 2 * (f * 2 ^ j * 2 ^ s) = f * 2 ^ (j + s + 1) := by rw [pow_succ, pow_add]; ring
  rw [e, ← pow_mul, Nat.mul_add, Nat.mul_one, pow_add] at h1
  have h2 : w.bits * k < j + s + 1 := by
    apply (Nat.pow_lt_pow_iff_right (by omega : 1 < 2)).mp
    have h3 : f * 2 ^ (j + s + 1) < 2 ^ w.bits * 2 ^ (j + s + 1) :=
      Nat.mul_lt_mul_of_pos_right hf (by positivity)
    have h4 : 2 ^ (w.bits * k) * 2 ^ w.bits < 2 ^ (j + s + 1) * 2 ^ w.bits := by
      rw [Nat.mul_comm (2 ^ (j + s + 1))]; omega
    exact Nat.lt_of_mul_lt_mul_right h4
  have h5 : f * 2 ^ j * 2 ^ s = f * 2 ^ (j + s) := by rw [pow_add]; ring
  rw [h5]
  exact Dvd.dvd.mul_left (pow_dvd_pow 2 (by omega)) f

/-- C17: binary division by the product of a digit and a power of two is exact and does not panic, for
dividends and divisors of any length. -/
theorem div_binary_digit_pow2_exact (w : Width) (x y : List Nat) (m f j : Nat)
    (hx : Rep (DType.bin w).radix x m) (hy : Rep (DType.bin w).radix y (f * 2 ^ j))
    (hf : f < (DType.bin w).radix) (hn : f * 2 ^ j ≠ 0) :
    DivisionExact (.bin w) dbg (fun _ => False) x y m (f * 2 ^ j) :=
  div_top_only_exact _ dbg x y m _ hx hy hn (scaleFits_binary w y _ hy) (scaled_dvd w hy hf hn)

/-- C18: the binary divisors of fewer than 20 digits by which every number is divided correctly are the
products of a digit and a power of two.  For every other divisor there is a dividend, with one digit more
than the divisor, whose quotient is wrong or is not returned. -/
theorem div_binary_always_exact_iff (w : Width) (y : List Nat) (n : Nat)
    (hy : Rep (DType.bin w).radix y n) (hn : n ≠ 0) (hl : y.length < 20) :
    (∀ x m, Rep (DType.bin w).radix x m → x.length ≤ y.length + 1 →
      Returns (UBig.div (.bin w) dbg x y) fun z => Rep (DType.bin w).radix z (m / n)) ↔
    ∃ f j, f < (DType.bin w).radix ∧ n = f * 2 ^ j := by
  have hb := (ops_lawful (.bin w) dbg).pos
  constructor
  · intro h
    by_contra hcon
    push Not at hcon
    obtain ⟨s, hs, hsw⟩ := exists_scale w hy hn
    have hlen : 0 < y.length := by
      apply List.length_pos_iff.mpr
      rintro rfl; have := hy.val_eq; simp at this; omega
    obtain ⟨k, hk⟩ : ∃ k, y.length = k + 1 := ⟨y.length - 1, by omega⟩
    have hr : (DType.bin w).radix = 2 ^ w.bits := rfl
    have hfit := scaleFits_binary w y n hy s hs
    have hge := scaled_ge hs
    have hpl := Rep.pow_le hb hy hn
    rw [hy.val_eq, hk] at hfit hge
    rw [hk, Nat.add_sub_cancel] at hpl
    have hBk : 0 < (DType.bin w).radix ^ k := pow_pos hb _
    have hw8 : 8 ≤ w.bits := by cases w <;> simp [Width.bits]
    -- the dividend
    have hF : n * 2 ^ s / (DType.bin w).radix ^ k < (DType.bin w).radix := by
      rw [Nat.div_lt_iff_lt_mul hBk, Nat.mul_comm (DType.bin w).radix, ← pow_succ]; exact hfit
    have hF0 : 0 < n * 2 ^ s / (DType.bin w).radix ^ k := by
      apply Nat.div_pos _ hBk
      have : n * 1 ≤ n * 2 ^ s := Nat.mul_le_mul_left _ (Nat.one_le_two_pow)
      omega
    have hlt : (DType.bin w).radix ^ k * (n * 2 ^ s / (DType.bin w).radix ^ k) < n * 2 ^ s := by
      have h1 := Nat.mul_div_le (n * 2 ^ s) ((DType.bin w).radix ^ k)
      rcases Nat.lt_or_eq_of_le h1 with h2 | h2
      · exact h2
      · exfalso
        rcases Nat.eq_zero_or_pos k with h0 | h0
        · subst h0
          refine hcon n 0 ?_ (by simp)
          have h3 := val_lt hy.digs
          rw [hy.val_eq, hk] at h3
          simpa using h3
        · have h3 : w.bits * 1 ≤ w.bits * k := Nat.mul_le_mul_left _ h0
          refine hcon _ (w.bits * k - s) hF ?_
          apply Nat.eq_of_mul_eq_mul_right (show 0 < 2 ^ s by positivity)
          conv_lhs => rw [← h2]
          rw [Nat.mul_assoc, ← pow_add, Nat.sub_add_cancel (by omega), pow_mul, ← hr]
          ring
    obtain ⟨F, hFe⟩ : ∃ F, n * 2 ^ s / (DType.bin w).radix ^ k = F := ⟨_, rfl⟩
    rw [hFe] at hF hF0 hlt
    have hm2 : (F * 2 ^ (w.bits - s) * (DType.bin w).radix ^ k) * 2 ^ s
        = (DType.bin w).radix ^ (k + 1) * F := by
      have : 2 ^ (w.bits - s) * 2 ^ s = (DType.bin w).radix := by
        rw [← pow_add, Nat.sub_add_cancel (by omega)]; rfl
      rw [pow_succ]
      calc _ = (DType.bin w).radix ^ k * (2 ^ (w.bits - s) * 2 ^ s) * F := by ring
        _ = _ := by rw [this]
    obtain ⟨m, hm⟩ : ∃ m, F * 2 ^ (w.bits - s) * (DType.bin w).radix ^ k = m := ⟨_, rfl⟩
    rw [hm] at hm2
    -- its digits
    have hpw : (DType.bin w).radix = 2 ^ (w.bits - 1) * 2 := by
      rw [hr, ← pow_succ, Nat.sub_add_cancel (by omega)]
    have hFge : 2 ^ (w.bits - 1) ≤ F := by
      rw [← hFe, Nat.le_div_iff_mul_le hBk]
      rw [pow_succ] at hge
      have e : (DType.bin w).radix ^ k * (DType.bin w).radix
          = 2 * (2 ^ (w.bits - 1) * (DType.bin w).radix ^ k) := by
        conv_lhs => arg 2; rw [hpw]
        ring
      omega
    obtain ⟨G, hG⟩ : ∃ G, F * 2 ^ (w.bits - s) = G := ⟨_, rfl⟩
    rw [hG] at hm
    have hG0 : 0 < G / (DType.bin w).radix := by
      apply Nat.div_pos _ hb
      rw [← hG, hr]
      calc 2 ^ w.bits ≤ 2 ^ (w.bits - 1 + (w.bits - s)) := Nat.pow_le_pow_right (by omega) (by omega)
        _ = 2 ^ (w.bits - 1) * 2 ^ (w.bits - s) := pow_add _ _ _
        _ ≤ _ := Nat.mul_le_mul_right _ hFge
    have hG1 : G / (DType.bin w).radix < (DType.bin w).radix := by
      rw [Nat.div_lt_iff_lt_mul hb, ← hG]
      have h1 : F * 2 ^ (w.bits - s) ≤ F * (DType.bin w).radix :=
        Nat.mul_le_mul_left _ (by rw [hr]; exact Nat.pow_le_pow_right (by omega) (by omega))
      have h2 := Nat.mul_lt_mul_of_pos_right hF hb
      omega
    have hx : Rep (DType.bin w).radix
        (List.replicate k 0 ++ [G % (DType.bin w).radix, G / (DType.bin w).radix]) m := by
      refine ⟨by simp [digs_replicate hb, Nat.mod_lt _ hb, hG1], ?_, ?_⟩
      · rw [show ∀ a c : Nat, List.replicate k 0 ++ [a, c] = (List.replicate k 0 ++ [a]) ++ [c] by simp]
        exact canon_snoc.mpr (by omega)
      · rw [val_zeros_append, ← hm]
        simp only [val_cons, val_nil, Nat.mul_zero, Nat.add_zero, Nat.mod_add_div]
        ring
    have hxl : (List.replicate k 0 ++ [G % (DType.bin w).radix, G / (DType.bin w).radix]).length
        = k + 2 := by simp
    have hret := h _ m hx (by rw [hxl, hk])
    rw [div_binary_exact_iff dbg w _ y m n hx hy hn hl] at hret
    have hno := hret s hs 0 (by rw [hxl, hk]; omega)
    rw [hm2, hy.val_eq, hk, Nat.zero_add, pow_one, Nat.add_sub_cancel, hFe, pow_succ,
      Nat.mul_assoc, Nat.mul_comm (DType.bin w).radix, ← Nat.mul_assoc, Nat.mul_div_cancel _ hb,
      Nat.mod_eq_of_lt hlt, Nat.mul_div_cancel_left _ hBk] at hno
    exact lt_irrefl _ hno
  · rintro ⟨f, j, hf, rfl⟩ x m hx _
    rw [div_binary_exact_iff dbg w x y m _ hx hy hn hl]
    exact noTie_of_topOnly hb (by rw [hy.val_eq]; omega) (scaled_dvd w hy hf hn)

/-- Both sides of `div_binary_always_exact_iff` can hold: `3 * 2^15 = 98304 = [0, 128, 1]`. -/
example : ∀ x m, Rep (DType.bin .w8).radix x m → x.length ≤ 4 →
    Returns (UBig.div (.bin .w8) dbg x [0, 128, 1]) fun z => Rep (DType.bin .w8).radix z (m / 98304) :=
  (div_binary_always_exact_iff dbg .w8 [0, 128, 1] 98304 (by decide) (by decide) (by decide)).mpr
    ⟨3, 15, by decide, by decide⟩

/-- Both sides of `div_binary_always_exact_iff` can fail: `257 = [1, 1]`. -/
example : ¬ ∀ x m, Rep (DType.bin .w8).radix x m → x.length ≤ 3 →
    Returns (UBig.div (.bin .w8) dbg x [1, 1]) fun z => Rep (DType.bin .w8).radix z (m / 257) := by
  intro h
  obtain ⟨f, j, hf, he⟩ :=
    (div_binary_always_exact_iff dbg .w8 [1, 1] 257 (by decide) (by decide) (by decide)).mp h
  have hf : f < 256 := hf
  cases j with
  | zero => omega
  | succ j => rw [pow_succ, ← Nat.mul_assoc] at he; omega

/-! ## C16: decimal division by a word above the radix -/

theorem decRadix_sq (w : Width) : 2 ^ w.bits < w.decRadix * w.decRadix := by
  cases w <;> decide

theorem divPairAssign_spec {D : DigitOps} {B : Nat} (L : Lawful D B) (T : TieLaw D B) {x : List Nat}
    {m yl yh : Nat} (hx : Rep B x m) (hl : yl < B) (hh : yh < B) (h0 : 0 < yh)
    (hf : ScaleFits B [yl, yh]) :
    ∃ q a c, divPairAssign D x yl yh = .ok (q, .ok (a, c)) ∧ Rep B q (m / (yl + B * yh)) ∧
      a < B ∧ c < B ∧ a + B * c = m % (yl + B * yh) := by
  have hB := L.pos
  have hy : B ≤ yl + B * yh := by
    have : B * 1 ≤ B * yh := Nat.mul_le_mul_left _ h0
    omega
  unfold divPairAssign
  match x, hx with
  | [], hx =>
    have hm : m = 0 := by have := hx.val_eq; simpa using this.symm
    subst hm
    refine ⟨[], 0, 0, by simp [divAssignDigitPair, show yh ≠ 0 by omega], ?_, hB, hB, by simp⟩
    rw [Nat.zero_div]; exact rep_nil
  | [d], hx =>
    have hm : m = d := by have := hx.val_eq; simpa using this.symm
    subst hm
    have hd : m < B := hx.digs m (by simp)
    refine ⟨[], m, 0, by simp [divAssignDigitPair, show yh ≠ 0 by omega], ?_, hd, hB, ?_⟩
    · rw [Nat.div_eq_of_lt (by omega)]; exact rep_nil
    · rw [Nat.mod_eq_of_lt (by omega)]; simp
  | d :: e :: l, hx =>
    obtain ⟨r, nd, a, c, a1, a2, a3, b1, b2, b3, b4, a6, a7, a8⟩ :=
      divAssignDigitPair_spec L (d :: e :: l) hx.digs (by simp) hl hh h0
        ⟨scaleFits_fit hf, Or.inl T⟩
    rw [hx.val_eq] at b3 b4
    refine ⟨r.take nd, a, c, by rw [a1]; rfl, ⟨a3.take _, a8, ?_⟩, b1, b2, b4⟩
    rw [val_take_zeros a7, b3]

/-- C16 (in part): division of a decimal number by a word of at least the radix, for a word that fits
when it is scaled.  Missing: words that do not fit, where `divWord_large_wrong` shows that the result can
be wrong. -/
theorem divRemWord_large_exact_partial (w : Width) (x : List Nat) (m n : Nat)
    (hx : Rep w.decRadix x m) (h1 : w.decRadix ≤ n) (h2 : n < 2 ^ w.bits)
    (hf : ∀ s, n / w.decRadix * 2 ^ s < w.decRadix → w.decRadix ≤ n / w.decRadix * 2 ^ (s + 1) →
      n * 2 ^ s < w.decRadix ^ 2) :
    Returns (UBig.divWord (.dec w) dbg x n) (fun z => Rep w.decRadix z (m / n)) ∧
    Returns (UBig.remWord (.dec w) dbg x n) (fun z => Rep w.decRadix z (m % n)) ∧
    Returns (UBig.remWordAssign (.dec w) dbg x n) (fun z => Rep w.decRadix z (m % n)) := by
  have L : Lawful ((DType.dec w).ops dbg) w.decRadix := ops_lawful (.dec w) dbg
  have T : TieLaw ((DType.dec w).ops dbg) w.decRadix := dec_tieLaw w dbg
  have hB := L.pos
  have hn : n % w.decRadix + w.decRadix * (n / w.decRadix) = n := Nat.mod_add_div _ _
  have hq : n / w.decRadix < w.decRadix := by
    rw [Nat.div_lt_iff_lt_mul hB]
    exact lt_trans h2 (decRadix_sq w)
  have hq0 : 0 < n / w.decRadix := Nat.div_pos h1 hB
  have hfit : ScaleFits w.decRadix [n % w.decRadix, n / w.decRadix] := by
    rintro s ⟨d, e1, e2, e3⟩
    have : d = n / w.decRadix := by simpa using e1.symm
    subst this
    have := hf s e2 e3
    have hv : val w.decRadix [n % w.decRadix, n / w.decRadix] = n := by simpa using hn
    rw [hv]; exact this
  obtain ⟨q, a, c, p1, p2, p3, p4, p5⟩ := divPairAssign_spec L T hx (Nat.mod_lt n hB) hq hq0 hfit
  rw [hn] at p2 p5
  have hr : Returns (remWordDec ((DType.dec w).ops dbg) w.decRadix x n)
      (fun z => Rep w.decRadix z (m % n)) := by
    unfold remWordDec
    rw [if_neg (by omega), p1, ok_bind]
    refine ⟨_, rfl, ?_⟩
    rw [← p5]
    by_cases hc : c = 0
    · subst hc
      by_cases ha : a = 0
      · subst ha; simpa using rep_nil
      · simpa [ha] using rep_singleton p3 ha
    · simpa [hc] using rep_pair p3 p4 hc
  refine ⟨?_, hr, hr⟩
  refine ⟨q, ?_, p2⟩
  unfold UBig.divWord divWordDec
  simp only []
  rw [if_neg (by omega), p1, ok_bind]
  rfl

/-- C16: for the smallest type the words that fit are known: all but those from 157 to 199. -/
theorem divRemWord_dec8_exact_partial (x : List Nat) (m n : Nat) (hx : Rep 100 x m) (h1 : 100 ≤ n)
    (h2 : n < 256) (h3 : n ≤ 156 ∨ 200 ≤ n) :
    Returns (UBig.divWord (.dec .w8) dbg x n) (fun z => Rep 100 z (m / n)) ∧
    Returns (UBig.remWord (.dec .w8) dbg x n) (fun z => Rep 100 z (m % n)) ∧
    Returns (UBig.remWordAssign (.dec .w8) dbg x n) (fun z => Rep 100 z (m % n)) := by
  refine divRemWord_large_exact_partial dbg .w8 x m n hx h1 h2 ?_
  intro s e1 e2
  have hr : Width.w8.decRadix = 100 := rfl
  rw [hr] at e1 e2 ⊢
  have hs : s < 7 := by
    by_contra h
    have h4 : 2 ^ 7 ≤ 2 ^ s := Nat.pow_le_pow_right (by omega) (by omega)
    have h5 : 1 * 2 ^ s ≤ n / 100 * 2 ^ s := Nat.mul_le_mul_right _ (by omega)
    omega
  have hs' : s = 0 ∨ s = 1 ∨ s = 2 ∨ s = 3 ∨ s = 4 ∨ s = 5 ∨ s = 6 := by omega
  rcases hs' with rfl | rfl | rfl | rfl | rfl | rfl | rfl <;> omega

/-- C16, refuted: `10000 / 199 = 50` with remainder 50, but the results are 233 and 39. -/
theorem divWord_large_wrong :
    Rep 100 [0, 0, 1] 10000 ∧ UBig.divWord (.dec .w8) dbg [0, 0, 1] 199 = .ok [33, 2] ∧
    UBig.remWord (.dec .w8) dbg [0, 0, 1] 199 = .ok [39] := by
  cases dbg <;> decide +kernel

/-- C16, refuted for every word in the missing range of `divRemWord_dec8_exact_partial`: the quotient
of 10000 is wrong. -/
theorem divWord_dec8_wrong (n : Nat) (h1 : 157 ≤ n) (h2 : n ≤ 199) :
    ¬ Returns (UBig.divWord (.dec .w8) dbg [0, 0, 1] n) (fun z => Rep 100 z (10000 / n)) := by
  have key : ∀ d : Bool, ∀ i, i < 43 → ∀ z, UBig.divWord (.dec .w8) d [0, 0, 1] (157 + i) = .ok z →
      val 100 z ≠ 10000 / (157 + i) := by
    have h : ∀ d : Bool, ∀ i, i < 43 →
        (match UBig.divWord (.dec .w8) d [0, 0, 1] (157 + i) with
        | .ok z => val 100 z != 10000 / (157 + i)
        | .error _ => true) = true := by
      intro d; cases d <;> decide +kernel
    intro d i hi z hz
    have := h d i hi
    rw [hz] at this
    simpa using this
  rintro ⟨z, hz1, hz2⟩
  obtain ⟨i, rfl⟩ : ∃ i, n = 157 + i := ⟨n - 157, by omega⟩
  exact key dbg i (by omega) z hz1 hz2.val_eq

/-! ## C19, C20: division by zero -/

/-- C19: division by zero is reported, as an error or as a panic of the operators. -/
theorem div_zero_reported (x : List Nat) :
    Returns (UBig.divAssign t dbg x []) (fun r => r.2 = .error .divisionByZero) ∧
    Returns (UBig.remAssign t dbg x []) (fun r => r.2 = .error .divisionByZero) ∧
    Panics (UBig.div t dbg x []) .explicit ∧ Panics (UBig.rem t dbg x []) .explicit := by
  have h : ∀ q, divBig (t.ops dbg) dbg x [] q = .ok (x, q, .error .divisionByZero) := by
    intro q
    simp [divBig, divBigWithWork, divBigWithWorkGen]
  refine ⟨⟨_, by simp [UBig.divAssign, divAssignBig, h]; rfl, rfl⟩,
    ⟨_, by simp [UBig.remAssign, remAssignBig, h]; rfl, rfl⟩, ?_, ?_⟩
  · simp [Panics, UBig.div, divOp, divAssignBig, h]; rfl
  · simp [Panics, UBig.rem, remOp, remAssignBig, h]; rfl

/-- C19: division by a number other than zero does not report an error, and leaves no error to the
operators; this holds also where the result is wrong. -/
theorem div_nonzero_ok (x y : List Nat) (m n : Nat) (hx : Rep t.radix x m) (hy : Rep t.radix y n)
    (hn : n ≠ 0) :
    ReturnsOr (fun _ => True) (UBig.divAssign t dbg x y) (fun r => ∃ z, r.2 = .ok z) ∧
    ReturnsOr (fun _ => True) (UBig.remAssign t dbg x y) (fun r => r.2 = .ok ()) := by
  have hne : y ≠ [] := by rintro rfl; have := hy.val_eq; simp at this; omega
  constructor
  · unfold UBig.divAssign divAssignBig
    simp only []
    by_cases hl : x.length < y.length
    · rw [if_pos hl]
      exact Sp.bind sp_true fun a _ => Sp.pure ⟨a, rfl⟩
    · rw [if_neg hl]
      refine Sp.bind (divBig_ok x y hy.canon hne (by omega)) ?_
      rintro ⟨a, b, r⟩ ⟨p, hp⟩
      simp only at hp
      subst hp
      exact Sp.bind sp_true fun a _ => Sp.pure ⟨a, rfl⟩
  · unfold UBig.remAssign remAssignBig
    simp only []
    by_cases hl : x.length < y.length
    · rw [if_neg (by omega)]
      exact Sp.pure rfl
    · rw [if_pos (by omega)]
      refine Sp.bind (divBig_ok x y hy.canon hne (by omega)) ?_
      rintro ⟨a, b, r⟩ ⟨p, hp⟩
      simp only at hp
      subst hp
      exact Sp.pure rfl

/-- C20: when `rem_assign_big` fails, the dividend is unchanged.  It fails only for the divisor
zero. -/
theorem rem_zero_unchanged (x : List Nat) :
    UBig.remAssign t dbg x [] = .ok (x, .error .divisionByZero) := by
  simp [UBig.remAssign, remAssignBig, divBig, divBigWithWork, divBigWithWorkGen]

/-- C20, refuted for `div_assign_big`: when it fails, the dividend has been replaced by one digit more
than it had, all of them zero.  This is not in normal form, and loses the number. -/
theorem div_zero_destroys (x : List Nat) :
    UBig.divAssign t dbg x [] = .ok (List.replicate (x.length + 1) 0, .error .divisionByZero) := by
  simp [UBig.divAssign, divAssignBig, divBig, divBigWithWork, divBigWithWorkGen]

/-- C20: the zeros left are not a number in normal form, not even zero. -/
theorem div_zero_destroys_not_normalised (x : List Nat) (m : Nat) :
    ¬ Rep t.radix (List.replicate (x.length + 1) 0) m := by
  intro h
  have := h.canon
  rw [List.replicate_succ', canon_snoc] at this
  exact this rfl

/-! ## Examples: the hypotheses can be met -/

/-- A decimal divisor of three digits, scaled by 8. -/
example : ScaleFits 100 [34, 56, 9] :=
  scaleFits_of (s := 3) ⟨9, rfl, by decide, by decide⟩ (by decide)

example : DivisionExact (.dec .w8) true (fun _ => False) [12, 34, 56, 78, 90] [34, 56, 9]
    9078563412 95634 :=
  div_short_decimal_exact_partial true .w8 _ _ _ _ (by decide) (by decide) (by decide) (by decide)
    (scaleFits_of (s := 3) ⟨9, rfl, by decide, by decide⟩ (by decide))

/-- A binary division by three digits without a tie, scaled by 4. -/
example : NoTie 256 (256 ^ 5 - 1) 5 [1, 200, 37] :=
  noTie_of (s := 2) ⟨37, rfl, by decide, by decide⟩ (by decide)

example : DivisionExact (.bin .w8) true (fun _ => False) [255, 255, 255, 255, 255] [1, 200, 37]
    (256 ^ 5 - 1) 2476033 :=
  div_short_binary_exact_partial true .w8 _ _ _ _ (by decide) (by decide) (by decide) (by decide)
    (noTie_of (s := 2) ⟨37, rfl, by decide, by decide⟩ (by decide))

/-- Division by `3 * 2^244`, a number of 31 digits of 8 bits. -/
example : DivisionExact (.bin .w8) false (fun _ => False) (List.replicate 100 255)
    (List.replicate 30 0 ++ [48]) (256 ^ 100 - 1) (3 * 2 ^ 244) :=
  div_binary_digit_pow2_exact false .w8 _ _ _ 3 244 (by decide +kernel) (by decide +kernel) (by decide)
    (by decide)

/-- Decimal division by `2 * 100^25`. -/
example : DivisionExact (.dec .w8) true (fun _ => False) (List.replicate 60 99)
    (List.replicate 25 0 ++ [2]) (100 ^ 60 - 1) (2 * 100 ^ 25) :=
  div_radix_power_exact (.dec .w8) true _ _ 25 2 (by decide +kernel) (by decide) (by decide)

/-- A finite number of partial remainders decides it. -/
theorem longTieFree_of {b n a y : Nat}
    (h : ∀ i, i < n - 1 → a / b ^ (i + 1) % y / b ^ (n - 1) < y / b ^ (n - 1)) : LongTieFree b n a y :=
  fun i hi => h i (by omega)

/-- A binary division of 30 by 20 digits without a tie. -/
example : NoBlockTie 256 (val 256 (List.replicate 30 5)) 30 (List.replicate 20 255) := by
  intro s hs n hn i hi
  have hs0 : s = 0 := hs.unique ⟨255, rfl, by decide, by decide⟩
  subst hs0
  have hn0 : n = 20 := hn.unique ⟨0, by decide, fun e' he => by omega, by decide, by decide, by decide⟩
  subst hn0
  have hi0 : i = 0 := by
    have : (30 - (List.replicate 20 255).length) / 20 = 0 := by decide
    omega
  subst hi0
  rw [BzTieFree, if_neg (by decide)]
  refine ⟨fun _ => ?_, fun _ => ?_⟩
  all_goals
    rw [BzTieFree, if_pos (by decide)]
    exact longTieFree_of (by decide +kernel)

/-- The division returns. -/
example : (UBig.div (.bin .w8) true (List.replicate 30 5) (List.replicate 20 255)).toOption
    = some (List.replicate 10 5) := by decide +kernel

/-- A decimal division by 20 digits, which returns. -/
example : ScaleFits 100 (List.replicate 20 77) :=
  scaleFits_of (s := 0) ⟨77, rfl, by decide, by decide⟩ (by decide)

example : UBig.div (.dec .w8) true (List.replicate 31 54) (List.replicate 20 77)
    = .ok [12, 70, 98, 12, 70, 98, 12, 70, 98, 12, 70] := by decide +kernel

/-- The words 12207 and 12208 are the last that fits and the first that does not, for 16 bits. -/
example : ∀ s, 12207 / 10000 * 2 ^ s < 10000 → 10000 ≤ 12207 / 10000 * 2 ^ (s + 1) →
    12207 * 2 ^ s < 10000 ^ 2 := by
  intro s h1 h2
  have : s = 13 := Scale.unique (b := 10000) (y := [1])
    ⟨1, rfl, by simpa using h1, by simpa using h2⟩ ⟨1, rfl, by decide, by decide⟩
  subst this
  decide

end Babs.Props
