import Verif.Props.Unnormalised
import Verif.Props.Mul

/-!
# C61: the contracts of `Ord`, `Zero` and `One`

The laws that the traits of the standard library and of `num_traits` require of every value of the type, so
also of values with leading zeros (C43).
-/

namespace Babs.Props

open Babs

variable (t : DType) (dbg : Bool)

theorem lexCmp_eq_iff (a b : List Nat) : lexCmp a b = .eq ↔ a = b := by
  induction a generalizing b with
  | nil => cases b <;> simp [lexCmp]
  | cons x a ih => cases b <;> simp [lexCmp, Ordering.then_eq_eq, ih]

theorem lexCmp_trans {a b c : List Nat} (h1 : lexCmp a b = .lt) (h2 : lexCmp b c = .lt) : lexCmp a c = .lt := by
  induction a generalizing b c with
  | nil =>
    cases b with
    | nil => cases h1
    | cons y b =>
      cases c with
      | nil => cases h2
      | cons z c => rfl
  | cons x a ih =>
    cases b with
    | nil => cases h1
    | cons y b =>
      cases c with
      | nil => cases h2
      | cons z c =>
        rw [lexCmp, Ordering.then_eq_lt, Nat.compare_eq_lt, Nat.compare_eq_eq] at h1 h2 ⊢
        rcases h1 with h1 | ⟨rfl, h1⟩
        · rcases h2 with h2 | ⟨rfl, -⟩ <;> omega
        · rcases h2 with h2 | ⟨rfl, h2⟩
          · exact Or.inl h2
          · exact Or.inr ⟨rfl, ih h1 h2⟩

/-- C61, `Ord` and `Eq`: exactly one of less, equal and greater, the same seen from the other side; equal only
if the two are identical; and transitive.  This is so for all lists, with leading zeros or not, so that sorting
and searching are always well defined. -/
theorem cmp_contract (x y z : List Nat) :
    UBig.cmp y x = (UBig.cmp x y).swap ∧ (UBig.cmp x y = .eq ↔ x = y) ∧
    (UBig.cmp x y = .eq ↔ UBig.eq x y = true) ∧
    (UBig.cmp x y = .lt → UBig.cmp y z = .lt → UBig.cmp x z = .lt) ∧
    (UBig.cmp x y = .gt → UBig.cmp y z = .gt → UBig.cmp x z = .gt) := by
  have hswap : ∀ x y, UBig.cmp y x = (UBig.cmp x y).swap := by
    intro x y
    unfold UBig.cmp cmpBig
    rw [Ordering.swap_then, Nat.compare_swap, lexCmp_swap]
  have heq : UBig.cmp x y = .eq ↔ x = y := by
    unfold UBig.cmp cmpBig
    rw [Ordering.then_eq_eq, lexCmp_eq_iff, Nat.compare_eq_eq, List.reverse_inj]
    exact ⟨fun h => h.2, fun h => ⟨by rw [h], h⟩⟩
  have hlt : ∀ x y z, UBig.cmp x y = .lt → UBig.cmp y z = .lt → UBig.cmp x z = .lt := by
    intro x y z h1 h2
    unfold UBig.cmp cmpBig at h1 h2 ⊢
    rw [Ordering.then_eq_lt, Nat.compare_eq_lt, Nat.compare_eq_eq] at h1 h2 ⊢
    rcases h1 with h1 | ⟨e1, h1⟩
    · rcases h2 with h2 | ⟨e2, -⟩ <;> omega
    · rcases h2 with h2 | ⟨e2, h2⟩
      · omega
      · exact Or.inr ⟨by omega, lexCmp_trans h1 h2⟩
  have hgt : ∀ x y, UBig.cmp x y = .gt ↔ UBig.cmp y x = .lt := by
    intro x y
    rw [hswap y x]
    cases UBig.cmp y x <;> simp
  refine ⟨hswap x y, heq, by rw [heq]; simp [UBig.eq], hlt x y z, ?_⟩
  rw [hgt, hgt, hgt]
  exact fun h1 h2 => hlt z y x h2 h1

/-- C61: what the comparison compares, for numbers with leading zeros: first the numbers of digits, then the
values. -/
theorem cmp_any (x y : List Nat) (m n : Nat) (hx : Stores t.radix x m) (hy : Stores t.radix y n) :
    UBig.cmp x y = (compare x.length y.length).then (compare m n) := by
  rcases Nat.lt_trichotomy x.length y.length with h | h | h
  · unfold UBig.cmp cmpBig
    rw [Nat.compare_eq_lt.mpr h]; rfl
  · unfold UBig.cmp
    rw [cmpBig_same_length hx.1 hy.1 h, hx.2, hy.2, h, Nat.compare_eq_eq.mpr rfl]; rfl
  · unfold UBig.cmp cmpBig
    rw [Nat.compare_eq_gt.mpr h]; rfl

/-- C61: so it is the order of the numbers exactly if the one with more digits is the larger one. -/
theorem cmp_numeric_iff (x y : List Nat) (m n : Nat) (hx : Stores t.radix x m) (hy : Stores t.radix y n) :
    UBig.cmp x y = compare m n ↔
      (x.length < y.length → m < n) ∧ (y.length < x.length → n < m) := by
  rw [cmp_any t x y m n hx hy]
  rcases Nat.lt_trichotomy x.length y.length with h | h | h
  · rw [Nat.compare_eq_lt.mpr h]
    show Ordering.lt = _ ↔ _
    rw [eq_comm, Nat.compare_eq_lt]
    omega
  · rw [Nat.compare_eq_eq.mpr h]
    show compare m n = _ ↔ _
    simp [h]
  · rw [Nat.compare_eq_gt.mpr h]
    show Ordering.gt = _ ↔ _
    rw [eq_comm, Nat.compare_eq_gt]
    omega

/-- C61, refuted beyond normal form, for every type: `5 - 5` with a word is not equal to zero but greater,
and `radix ^ 2 - (radix ^ 2 - 1)` is greater than 2. -/
theorem cmp_unnormalised_wrong :
    UBig.subWord t dbg [5] 5 = .ok [0] ∧ UBig.cmp [0] [] = .gt ∧
    UBig.sub t dbg [0, 0, 1] [t.radix - 1, t.radix - 1] = .ok [1, 0] ∧ UBig.cmp [1, 0] [2] = .gt := by
  rcases t with w | w <;> cases w <;> cases dbg <;> decide +kernel

/-- C61: a sequence in the order of the comparison is one in the order of the numbers. -/
theorem sorted_numeric (xs : List (List Nat)) (ms : List Nat)
    (h : List.Forall₂ (Rep t.radix) xs ms) :
    xs.Pairwise (fun x y => UBig.cmp x y ≠ .gt) ↔ ms.Pairwise (· ≤ ·) := by
  induction h with
  | nil => simp
  | @cons x m xs ms hx hxs ih =>
    rw [List.pairwise_cons, List.pairwise_cons, ih]
    refine and_congr_left fun _ => ?_
    clear ih
    rename_i hp
    clear hp
    induction hxs with
    | nil => simp
    | @cons y n ys ns hy _ ih =>
      rw [List.forall_mem_cons, List.forall_mem_cons, ih, cmp_numeric t x y m n hx hy]
      refine and_congr_left fun _ => ?_
      rw [ne_eq, Nat.compare_eq_gt]
      omega

/-- C61: there is only one way to sort, also with leading zeros. -/
theorem sorted_unique (xs ys : List (List Nat)) (h : xs.Perm ys)
    (hx : xs.Pairwise fun x y => UBig.cmp x y ≠ .gt) (hy : ys.Pairwise fun x y => UBig.cmp x y ≠ .gt) :
    xs = ys := by
  refine h.eq_of_pairwise (fun a b _ _ h1 h2 => ?_) hx hy
  have h3 := (cmp_contract a b []).1
  have h4 := (cmp_contract a b []).2.1
  cases e : UBig.cmp a b with
  | lt => rw [e] at h3; exact absurd h3 h2
  | eq => exact h4.mp e
  | gt => exact absurd e h1

/-- C61, `Zero`: zero is neutral for addition, for all lists. -/
theorem add_zero_neutral (x : List Nat) : UBig.add t dbg x [] = .ok x ∧ UBig.add t dbg [] x = .ok x := by
  constructor
  · unfold UBig.add addBig addAtOffset
    cases x with
    | nil => rfl
    | cons a x =>
      simp only [List.length_cons, List.length_nil]
      rw [if_neg (by omega), if_pos (by omega)]
      simp [onSlice, slice, addAssignBig, zipDigits, assertR, ok_bind]
  · rfl

/-- C61, `One`: one is neutral for multiplication of normalised numbers; the product with one brings other
numbers into normal form. -/
theorem mul_one_neutral (x : List Nat) (m : Nat) (hx : Stores t.radix x m) :
    Returns (UBig.mul t dbg x ubigOne) (fun z => Rep t.radix z m ∧ (Canon x → z = x)) ∧
    Returns (UBig.mul t dbg ubigOne x) (fun z => Rep t.radix z m ∧ (Canon x → z = x)) := by
  have L := ops_lawful t dbg
  have hb := L.base
  have h1 : Stores t.radix ubigOne 1 := by
    refine ⟨?_, by simp [ubigOne, val]⟩
    intro d hd
    simp [ubigOne] at hd
    omega
  have hc : ∀ {z}, Rep t.radix z m → Canon x → z = x := by
    intro z hz cx
    exact (hz.iff_eq ⟨hx.1, cx, hx.2⟩).mpr rfl
  constructor
  · obtain ⟨z, hz, hr⟩ := tot_iff.mp ((mulBig_digs_spec (dbg := dbg) L (T := True) hx.1 hx.2 h1.1 h1.2
      (fun _ => by simp [MulP, ubigOne])).weaken fun _ h => h.2 trivial)
    rw [Nat.mul_one] at hr
    exact ⟨z, hz, hr, hc hr⟩
  · obtain ⟨z, hz, hr⟩ := tot_iff.mp ((mulBig_digs_spec (dbg := dbg) L (T := True) h1.1 h1.2 hx.1 hx.2
      (fun _ => by simp [MulP, ubigOne])).weaken fun _ h => h.2 trivial)
    rw [Nat.one_mul] at hr
    exact ⟨z, hz, hr, hc hr⟩

/-! ## Examples -/

/-- `cmp_any` and `cmp_numeric_iff` apply to numbers with leading zeros. -/
example : Stores (DType.dec .w8).radix [5, 0] 5 ∧ Stores (DType.dec .w8).radix [7] 7 ∧
    UBig.cmp [5, 0] [7] = .gt := by
  unfold Stores
  decide

/-- Three numbers in order. -/
example : List.Forall₂ (Rep (DType.dec .w8).radix) [[], [7], [5, 1]] [0, 7, 105] := by
  refine .cons ?_ (.cons ?_ (.cons ?_ .nil)) <;> decide

/-- One times a number with leading zeros. -/
example : UBig.mul (.dec .w8) true [5, 0] ubigOne = .ok [5] := by decide +kernel

end Babs.Props
