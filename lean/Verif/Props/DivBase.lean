import Verif.Model.DivBase
import Verif.Proofs.Lawful

/-!
# C46: the benchmarked divisions by 10^19
-/

namespace Babs.Props

open DivBase

variable (dbg : Bool)

theorem correct_ok {n q : Nat} (h1 : n / 10 ^ 19 ≤ q) (h2 : q ≤ n / 10 ^ 19 + 2) (hq : q < 2 ^ 33) :
    correct dbg n q = .ok (n / 10 ^ 19, n / 10 ^ 19 * 10 ^ 19) := by
  have hc : q = n / 10 ^ 19 ∨ q = n / 10 ^ 19 + 1 ∨ q = n / 10 ^ 19 + 2 := by omega
  unfold correct
  simp only [radix]
  norm_num at *
  rw [mulW_ok (by norm_num; omega), ok_bind]
  rcases hc with rfl | rfl | rfl
  · rw [if_neg (by omega)]
  · rw [if_pos (by omega), subW_ok (by omega), ok_bind, subW_ok (by omega), ok_bind, if_neg (by omega)]
    simp only [Except.ok.injEq, Prod.mk.injEq]
    omega
  · rw [if_pos (by omega), subW_ok (by omega), ok_bind, subW_ok (by omega), ok_bind, if_pos (by omega),
      subW_ok (by omega), ok_bind, subW_ok (by omega), ok_bind]
    simp only [Except.ok.injEq, Prod.mk.injEq]
    omega

/-- C46: multiplication by the inverse, as in `div_rem_base`, gives quotient and remainder by `10 ^ 19`. -/
theorem mulInvBase_exact (n : Nat) (hn : n < 10 ^ 38) :
    mulInvBase dbg n = .ok (n / 10 ^ 19, n % 10 ^ 19) :=
  divRemBase_ok (dbg := dbg) (by norm_num at hn ⊢; omega)

/-- C46: the same with three multiplications. -/
theorem mulInvBase2_exact (n : Nat) (hn : n < 10 ^ 38) :
    mulInvBase2 dbg n = .ok (n / 10 ^ 19, n % 10 ^ 19) := by
  have hsplit : n &&& 0xffffffffffffffff = n % 2 ^ 64 := Nat.and_two_pow_sub_one_eq_mod n 64
  have hdm := Nat.div_add_mod n (2 ^ 64)
  have hl : n % 2 ^ 64 < 2 ^ 64 := Nat.mod_lt _ (by norm_num)
  unfold mulInvBase2
  simp only [radix]
  rw [addW_ok (by norm_num), ok_bind, hsplit, shrW_ok (by norm_num), ok_bind]
  generalize n / 2 ^ 64 = h at *
  generalize n % 2 ^ 64 = l at *
  norm_num at hl hdm hn
  rw [addW_ok (by norm_num; omega), ok_bind, mulW_ok (by norm_num; omega), ok_bind,
    mulW_ok (by norm_num; omega), ok_bind, mulW_ok (by norm_num; omega), ok_bind,
    subW_ok (by omega), ok_bind, subW_ok (by omega), ok_bind, shrW_ok (by norm_num), ok_bind,
    addW_ok (by norm_num; omega), ok_bind, shrW_ok (by norm_num), ok_bind,
    addW_ok (by norm_num; omega), ok_bind, shrW_ok (by norm_num), ok_bind]
  have hq : (2126764793255865396 * h + ((11918280793837635165 + 2126764793255865396) * (l + h)
      - 11918280793837635165 * l - 2126764793255865396 * h + 11918280793837635165 * l / 2 ^ 64) / 2 ^ 64)
        / 2 ^ 60 = n / 10000000000000000000 := by
    norm_num
    omega
  rw [hq]
  norm_num
  rw [mulW_ok (by norm_num; omega), ok_bind, subW_ok (by omega), ok_bind,
    castW_ok (by norm_num; omega), castW_ok (by norm_num; omega)]
  congr 2
  omega

/-- C46: the division operator. -/
theorem divOpBase_exact (n : Nat) (hn : n < 10 ^ 38) :
    divOpBase n = .ok (n / 10 ^ 19, n % 10 ^ 19) := by
  unfold divOpBase
  simp only [radix]
  norm_num at *
  rw [divW_ok (by omega), ok_bind, remW_ok (by omega), ok_bind, castW_ok (by norm_num; omega),
    castW_ok (by norm_num; omega)]

/-- C46: long division with two digits of 32 bits. -/
theorem divLongBase_exact (n : Nat) (hn : n < 10 ^ 38) :
    divLongBase dbg n = .ok (n / 10 ^ 19, n % 10 ^ 19) := by
  have hsplit : n &&& 0xffffffff = n % 2 ^ 32 := Nat.and_two_pow_sub_one_eq_mod n 32
  unfold divLongBase
  simp only [radix]
  rw [shrW_ok (by norm_num), ok_bind, shrW_ok (by norm_num), ok_bind, shrW_ok (by norm_num), ok_bind,
    castW_ok (by norm_num at *; omega), divW_ok (by norm_num), ok_bind,
    correct_ok dbg (by norm_num at *; omega) (by norm_num at *; omega) (by norm_num at *; omega), ok_bind]
  simp only []
  rw [subW_ok (by norm_num at *; omega), ok_bind, shlW_ok (by norm_num) (by norm_num at *; omega),
    ok_bind, hsplit, mul_or_eq_add (by norm_num at *; omega), shrW_ok (by norm_num), ok_bind,
    castW_ok (by norm_num at *; omega), divW_ok (by norm_num), ok_bind,
    correct_ok dbg (by norm_num at *; omega) (by norm_num at *; omega) (by norm_num at *; omega), ok_bind]
  simp only []
  rw [subW_ok (by norm_num at *; omega), ok_bind, shlW_ok (by norm_num) (by norm_num at *; omega),
    ok_bind, mul_or_eq_add (by norm_num at *; omega), castW_ok (by norm_num at *; omega), pure_eq_ok]
  norm_num at *
  constructor <;> omega

/-- C46: the `div` instruction gives the same for all `u128`, and raises a fault exactly if the quotient
does not fit in a word. -/
theorem divqBase_exact (n : Nat) (hn : n < 2 ^ 128) :
    divqBase n = if n < 10 ^ 19 * 2 ^ 64 then some (n / 10 ^ 19, n % 10 ^ 19) else none := by
  have e : castW 64 (n / 2 ^ 64) * 2 ^ 64 + castW 64 n = n := by
    unfold castW
    rw [Nat.mod_eq_of_lt (a := n / 2 ^ 64) (by omega)]
    omega
  unfold divqBase divq
  simp only [e, radix]
  by_cases h : n < 10 ^ 19 * 2 ^ 64
  · rw [if_pos h, if_neg (by omega)]; norm_num
  · rw [if_neg h, if_pos (by omega)]

/-- C46: so the benchmark prints the same line for each of the routines, whatever the numbers are. -/
theorem testDivBase_agree (nums : List Nat) (hn : ∀ n ∈ nums, n < 10 ^ 38) :
    testDivBase (mulInvBase dbg) nums = testDivBase divOpBase nums ∧
    testDivBase (mulInvBase2 dbg) nums = testDivBase divOpBase nums ∧
    testDivBase (divLongBase dbg) nums = testDivBase divOpBase nums := by
  have key : ∀ (f : Nat → R (Nat × Nat)), (∀ n, n < 10 ^ 38 → f n = divOpBase n) →
      ∀ (l : List Nat) (acc : Nat × Nat), (∀ n ∈ l, n < 10 ^ 38) →
      l.foldlM (m := R) (fun (accQ, accR) n => do
        let (q, r) ← f n
        return (accQ ^^^ q, accR ^^^ r)) acc =
      l.foldlM (m := R) (fun (accQ, accR) n => do
        let (q, r) ← divOpBase n
        return (accQ ^^^ q, accR ^^^ r)) acc := by
    intro f hf l
    induction l with
    | nil => intro acc _; rfl
    | cons n l ih =>
      intro acc h
      rw [List.foldlM_cons, List.foldlM_cons]
      simp only [hf n (h n (List.mem_cons_self ..))]
      congr 1
      funext a
      exact ih a fun k hk => h k (List.mem_cons_of_mem _ hk)
  exact ⟨key _ (fun n h => by rw [mulInvBase_exact dbg n h, divOpBase_exact n h]) nums _ hn,
    key _ (fun n h => by rw [mulInvBase2_exact dbg n h, divOpBase_exact n h]) nums _ hn,
    key _ (fun n h => by rw [divLongBase_exact dbg n h, divOpBase_exact n h]) nums _ hn⟩

/-- C32: the comment on `div_rem_base` is right that an exponent of 188 would suffice instead of 192
for all numbers below `10 ^ 38`; and 187 would not. -/
theorem inverse_exponent_188 :
    (∀ n < 10 ^ 38, n * ((2 ^ 188 + 10 ^ 19 - 1) / 10 ^ 19) / 2 ^ 188 = n / 10 ^ 19) ∧
    ∃ n < 10 ^ 38, n * ((2 ^ 187 + 10 ^ 19 - 1) / 10 ^ 19) / 2 ^ 187 ≠ n / 10 ^ 19 := by
  constructor
  · intro n hn
    norm_num at *
    omega
  · exact ⟨10 ^ 38 - 1, by norm_num, by norm_num⟩

/-- Numbers for which the instruction raises a fault, and the largest for which it does not. -/
example : divqBase (10 ^ 19 * 2 ^ 64) = none ∧ (divqBase (10 ^ 19 * 2 ^ 64 - 1)).isSome := by decide +kernel
example : testDivBase divOpBase [10 ^ 38 - 1, 12345678901234567890123] ≠ .ok (0, 0) := by decide +kernel

/-- Some numbers at the bounds. -/
example : ∀ n ∈ [0, 10 ^ 19 - 1, 10 ^ 19, 10 ^ 38 - 1],
    mulInvBase true n = divOpBase n ∧ mulInvBase2 true n = divOpBase n ∧ divLongBase true n = divOpBase n := by
  decide +kernel

/-- A bound is needed: for larger numbers a debug build panics. -/
example : mulInvBase2 true (2 ^ 128 - 1) = .error .overflow := by decide +kernel

end Babs.Props
