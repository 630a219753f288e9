import Verif.Props.Decimal

/-!
# A test for the conditions of `toDecimal_iff`

The conditions are about numbers, and can be evaluated by the kernel.
-/

namespace Babs.Props

open Babs UBig

/-- The factor `2 ^ s` by which the divisor `n`, of `len` digits of `c` bits, is scaled. -/
def scaleOf (b c n len : Nat) : Nat := c - 1 - Nat.log2 (n / b ^ (len - 1))

/-- The number of digits to which a divisor of `len` digits is extended. -/
def blockLen (len : Nat) : Nat :=
  let p := 2 ^ Nat.clog 2 ((len + 19) / 20)
  (len + p - 1) / p * p

/-- A test of the blocks `i < j` of the scaled dividend `a`, for the scaled divisor `y` of `k` digits. -/
def blocksTest (b k a y : Nat) : Nat → Bool
  | 0 => true
  | j + 1 =>
    tieFree b (k + 1) k (a / b ^ (j * k) % (y * b ^ k)) y &&
      bzSafe (productOk b) b (k + 1) k (a / b ^ (j * k) % (y * b ^ k)) y && blocksTest b k a y j

/-- A test for `DivRight`, for digits of `c` bits. -/
def divTest (b c m n : Nat) : Bool :=
  let len := size b n
  let s := scaleOf b c n len
  if len < 20 then
    decide (∀ i, i < size b m - len → (m * 2 ^ s / b ^ (i + 1)) % (n * 2 ^ s) / b ^ (len - 1)
      < n * 2 ^ s / b ^ (len - 1))
  else
    let k := blockLen len
    blocksTest b k (m * 2 ^ s * b ^ (k - len)) (n * 2 ^ s * b ^ (k - len)) ((size b m - len) / k + 1)

/-- A test for `EverySplit` and `padded`. -/
def splitTest (b c r : Nat) (e : Nat → Nat) : Nat → Nat → Bool
  | 0, _ => true
  | k + 1, m =>
    if size b m < 16 then true
    else
      let u := 2 ^ e (size b m)
      divTest b c m (r ^ u) && decide (r ^ (u - 1) ≤ m % r ^ u) && splitTest b c r e k (m % r ^ u) &&
        splitTest b c r e k (m / r ^ u)

theorem blockLen_spec {len : Nat} (h : 20 ≤ len) : IsBlockLen len (blockLen len) := by
  unfold blockLen
  simp only []
  generalize he : Nat.clog 2 ((len + 19) / 20) = e
  have hp : 0 < 2 ^ e := Nat.two_pow_pos e
  have key : ∀ e', (len + 19) / 20 ≤ 2 ^ e' ↔ len ≤ 20 * 2 ^ e' := by
    intro e'
    rw [← Nat.lt_succ_iff, Nat.div_lt_iff_lt_mul (by omega)]
    omega
  refine ⟨e, (key e).mp ?_, fun e' he' => ?_, ?_, ?_, Nat.dvd_mul_left _ _⟩
  · rw [← he]; exact Nat.le_pow_clog (by omega) _
  · by_contra hc
    have := (Nat.clog_le_iff_le_pow (b := 2) (by omega)).mpr ((key e').mpr (by omega))
    omega
  · have := Nat.div_add_mod (len + 2 ^ e - 1) (2 ^ e)
    have := Nat.mod_lt (len + 2 ^ e - 1) hp
    rw [Nat.mul_comm]
    omega
  · have := Nat.div_mul_le_self (len + 2 ^ e - 1) (2 ^ e)
    omega

theorem getLast_of_rep {b : Nat} {y : List Nat} {n : Nat} (hb : 2 ≤ b) (hy : Rep b y n) (h0 : n ≠ 0) :
    y.getLast? = some (n / b ^ (y.length - 1)) ∧ n / b ^ (y.length - 1) < b ∧ n / b ^ (y.length - 1) ≠ 0 := by
  rcases List.eq_nil_or_concat y with rfl | ⟨v, d, rfl⟩
  · have := hy.val_eq; simp at this; omega
  · rw [List.concat_eq_append] at hy ⊢
    have hd := hy.digs
    rw [digs_append] at hd
    have h1 := val_lt hd.1
    have hP : 0 < b ^ v.length := Nat.pow_pos (by omega)
    have e : n / b ^ ((v ++ [d]).length - 1) = d := by
      rw [← hy.val_eq, val_append]
      simp only [List.length_append, List.length_singleton, Nat.add_sub_cancel, val_cons, val_nil,
        Nat.mul_zero, Nat.add_zero]
      rw [Nat.add_mul_div_left _ _ hP, Nat.div_eq_of_lt h1, Nat.zero_add]
    have hc := hy.canon
    rw [e]
    refine ⟨by simp, by simpa using hd.2, ?_⟩
    unfold Canon at hc
    rintro rfl
    simp at hc

theorem scaleOf_spec {c n : Nat} {y : List Nat} (hc : 1 ≤ c) (hy : Rep (2 ^ c) y n) (h0 : n ≠ 0) :
    Scale (2 ^ c) y (scaleOf (2 ^ c) c n y.length) := by
  have hb : 2 ≤ 2 ^ c := by
    calc 2 = 2 ^ 1 := rfl
      _ ≤ 2 ^ c := Nat.pow_le_pow_right (by omega) hc
  obtain ⟨h1, h2, h3⟩ := getLast_of_rep hb hy h0
  unfold scaleOf
  generalize n / (2 ^ c) ^ (y.length - 1) = d at *
  have e1 : 2 ^ Nat.log2 d ≤ d := Nat.log2_self_le h3
  have e2 : d < 2 ^ (Nat.log2 d + 1) := Nat.lt_log2_self
  have e3 : Nat.log2 d < c := (Nat.log2_lt h3).mpr h2
  refine ⟨d, h1, ?_, ?_⟩
  · calc d * 2 ^ (c - 1 - Nat.log2 d) < 2 ^ (Nat.log2 d + 1) * 2 ^ (c - 1 - Nat.log2 d) :=
        Nat.mul_lt_mul_of_pos_right e2 (Nat.two_pow_pos _)
      _ = 2 ^ c := by rw [← pow_add]; congr 1; omega
  · calc 2 ^ c = 2 ^ Nat.log2 d * 2 ^ (c - 1 - Nat.log2 d + 1) := by rw [← pow_add]; congr 1; omega
      _ ≤ _ := Nat.mul_le_mul_right _ e1

theorem blocksTest_spec {b k a y : Nat} (j : Nat) (h : blocksTest b k a y j = true) (i : Nat) (hi : i < j) :
    tieFree b (k + 1) k (a / b ^ (i * k) % (y * b ^ k)) y = true ∧
      bzSafe (productOk b) b (k + 1) k (a / b ^ (i * k) % (y * b ^ k)) y = true := by
  induction j with
  | zero => omega
  | succ j ih =>
    rw [blocksTest, Bool.and_eq_true, Bool.and_eq_true] at h
    by_cases e : i = j
    · subst e; exact h.1
    · exact ih h.2 (by omega)

theorem divTest_spec {c m n : Nat} (hc : 1 ≤ c) (h0 : n ≠ 0) (h : divTest (2 ^ c) c m n = true) :
    DivRight (2 ^ c) m n := by
  have hb : 2 ≤ 2 ^ c := by
    calc 2 = 2 ^ 1 := rfl
      _ ≤ 2 ^ c := Nat.pow_le_pow_right (by omega) hc
  intro y hy
  have hs := scaleOf_spec hc hy h0
  have hl : size (2 ^ c) n = y.length := size_rep hb hy
  unfold divTest at h
  simp only [] at h
  rw [hl] at h
  have hv := hy.val_eq
  split at h
  next h20 =>
    rw [if_pos h20]
    refine noTie_of hs ?_
    rw [hv]
    exact of_decide_eq_true h
  next h20 =>
    rw [if_neg h20]
    have hk := blockLen_spec (len := y.length) (by omega)
    have key := blocksTest_spec _ h
    constructor
    · refine noBlockTie_of hs hk fun i hi => ?_
      rw [hv]
      exact (key i hi).1
    · refine noBlockPanic_of hs hk fun i hi => ?_
      rw [hv]
      exact (key i hi).2

theorem splitTest_spec {c r : Nat} {e : Nat → Nat} (hc : 1 ≤ c) (hr : 0 < r) (k : Nat) :
    ∀ m, splitTest (2 ^ c) c r e k m = true →
      EverySplit (DivRight (2 ^ c)) (2 ^ c) r e k m ∧ padded (2 ^ c) r e k m = true := by
  induction k with
  | zero => intro m _; exact ⟨trivial, rfl⟩
  | succ k ih =>
    intro m h
    rw [splitTest] at h
    rw [EverySplit, padded]
    by_cases h16 : size (2 ^ c) m < 16
    · rw [if_pos h16]
      exact ⟨fun h => absurd h (by omega), rfl⟩
    · rw [if_neg h16] at h ⊢
      simp only [Bool.and_eq_true] at h ⊢
      obtain ⟨⟨⟨h1, h2⟩, h3⟩, h4⟩ := h
      obtain ⟨i1, i2⟩ := ih _ h3
      obtain ⟨i3, i4⟩ := ih _ h4
      exact ⟨fun _ => ⟨divTest_spec hc (Nat.pow_pos hr).ne' h1, i1, i3⟩, ⟨⟨h2, i2⟩, i4⟩⟩

end Babs.Props
