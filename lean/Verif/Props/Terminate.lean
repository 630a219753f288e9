import Verif.Proofs.FuelDec
import Verif.Proofs.FuelEq
import Verif.Proofs.WorkSize
import Verif.Model.Fibo
import Verif.Props.Client
import Verif.Props.DecimalLong

/-!
# C48: every operation comes to an end

The recursive algorithms of the crate (Karatsuba and Toom-Cook multiplication, Burnikel-Ziegler division,
powers, conversion to decimal) have no explicit bound for the depth of the recursion.  In the model they have a
budget, and using it up is the outcome `noFuel`.  Here: no operation uses up its budget, whatever lists of
digits it is given; the recursion is at most logarithmically deep; a larger budget changes nothing; and the
functions satisfy the equations of the code, in which there is no budget.
-/

namespace Babs.Props

open UBig

variable (t : DType) (dbg : Bool)

/-- The recursion comes to an end (with a value or with a panic). -/
def Terminates {α : Type} (x : R α) : Prop := x ≠ .error .noFuel

/-! ## All operations -/

/-- C48: multiplication. -/
theorem mul_terminates (x y : List Nat) : Terminates (mul t dbg x y) := (mulBig_nf (ops_nf t dbg) x y).ne

/-- C48: squares. -/
theorem square_terminates (x : List Nat) : Terminates (UBig.square t dbg x) := (square_nf (ops_nf t dbg) x).ne

/-- C48: powers. -/
theorem pow_terminates (x : List Nat) (n : Nat) : Terminates (UBig.pow t dbg x n) :=
  (pow_nf (ops_nf t dbg) x n).ne

/-- C48: division and remainder, also by zero. -/
theorem div_terminates (x y : List Nat) :
    Terminates (div t dbg x y) ∧ Terminates (rem t dbg x y) ∧ Terminates (divAssign t dbg x y) ∧
    Terminates (remAssign t dbg x y) :=
  ⟨(divOp_nf (ops_nf t dbg) x y).ne, (remOp_nf (ops_nf t dbg) x y).ne,
    (divAssignBig_nf (ops_nf t dbg) x y).ne, (remAssignBig_nf (ops_nf t dbg) x y).ne⟩

theorem nf_add (x y : List Nat) : Nf (add t dbg x y) := addBig_nf (ops_nf t dbg) x y

theorem nf_sub (x y : List Nat) : Nf (sub t dbg x y) := subBig_nf (ops_nf t dbg) x y

theorem nf_mul (x y : List Nat) : Nf (mul t dbg x y) := mulBig_nf (ops_nf t dbg) x y

theorem nf_shl (x : List Nat) (n : Nat) : Nf (shl t dbg x n) := by
  unfold shl
  cases t with
  | bin w => exact shlBin_nf (ops_nf _ _) ..
  | dec w => exact shlDec_nf (ops_nf _ _) ..

theorem nf_shr (x : List Nat) (n : Nat) : Nf (shr t dbg x n) := by
  unfold shr
  cases t with
  | bin w => exact shrBin_nf (ops_nf _ _) ..
  | dec w => exact shrDec_nf (ops_nf _ _) ..

theorem nf_addWord (x : List Nat) (n : Nat) : Nf (addWord t dbg x n) := by
  unfold addWord
  cases t with
  | bin w => exact addDigit_nf (ops_nf _ _) ..
  | dec w => exact addWordDec_nf (ops_nf _ _) ..

/-- C48: shifts; a decimal number is shifted by multiplying it by a power of two. -/
theorem shift_terminates (x : List Nat) (n : Nat) :
    Terminates (shl t dbg x n) ∧ Terminates (shr t dbg x n) := ⟨(nf_shl t dbg x n).ne, (nf_shr t dbg x n).ne⟩

theorem nf_parseScaled (base scale : Nat) (parts : List (List Char)) (x : List Nat) :
    Nf (parseScaled t dbg base scale parts x) := by
  induction parts generalizing x with
  | nil => exact Nf.triv
  | cons p ps ih =>
    unfold parseScaled
    split
    · exact Nf.triv
    · exact Nf.bind (mulAddDigit_nf (ops_nf _ _) ..) fun _ => ih _

/-- C48: parsing. -/
theorem fromStr_terminates (s : List Char) : Terminates (fromStr t dbg s) := by
  have key : Nf (fromStr t dbg s) := by
    have hn : ∀ r, Nf (newOfChunks r) := by
      intro r
      cases r with
      | error e => exact Nf.triv
      | ok ds => exact Nf.bind (ubigNew_nf ..) fun _ => Nf.pure
    unfold fromStr
    split
    · exact Nf.triv
    · split
      · exact hn _
      · exact nf_parseScaled ..
      · exact nf_parseScaled ..
      · exact hn _
  exact key.ne

theorem nf_fibWork (k n : Nat) (h : n < k) : Nf (fibWork t dbg k n) := by
  induction k generalizing n with
  | zero => omega
  | succ k ih =>
    unfold fibWork
    dsimp only
    by_cases h0 : n = 0
    · rw [if_pos h0]
      exact Nf.pure
    · rw [if_neg h0]
      refine Nf.bind (ih _ (by omega)) fun _ => ?_
      repeat' first
        | exact Nf.pure
        | exact nf_add ..
        | exact nf_sub ..
        | exact nf_mul ..
        | exact nf_shl ..
        | refine Nf.bind ?_ fun _ => ?_
        | refine Nf.ite ?_ ?_

/-- C48: the program that computes Fibonacci numbers. -/
theorem fibonacci_terminates (n : Nat) : Terminates (fibonacci t dbg n) := by
  have key : Nf (fibonacci t dbg n) := by
    unfold fibonacci
    by_cases h0 : n = 0
    · rw [if_pos h0]
      exact Nf.pure
    · rw [if_neg h0]
      repeat' first
        | exact Nf.pure
        | exact nf_add ..
        | exact nf_sub ..
        | exact nf_mul ..
        | exact nf_shl ..
        | exact nf_fibWork _ _ _ _ (by omega)
        | refine Nf.bind ?_ fun _ => ?_
        | refine Nf.ite ?_ ?_
  exact key.ne

theorem nf_op (xs : List (List Nat)) (o : Op) : Nf (o.run t dbg xs) := by
  have h := ops_nf t dbg
  cases o <;> unfold Op.run <;> dsimp only
  case word => exact Nf.triv
  case text s =>
    refine Nf.bind ⟨fromStr_terminates t dbg s⟩ fun r => ?_
    cases r with
    | error e => exact Nf.throw nofun
    | ok x => exact Nf.pure
  case add => exact nf_add ..
  case sub => exact nf_sub ..
  case mul => exact nf_mul ..
  case div => exact divOp_nf h ..
  case rem => exact remOp_nf h ..
  case square => exact square_nf h ..
  case pow => exact pow_nf h ..
  case shl => exact nf_shl ..
  case shr => exact nf_shr ..
  case addWord => exact nf_addWord ..
  case subWord =>
    unfold subWord
    cases t with
    | bin w => exact subDigit_nf h ..
    | dec w => exact subWordDec_nf h ..
  case mulWord =>
    unfold mulWord
    cases t with
    | bin w => exact mulDigit_nf h ..
    | dec w => exact mulWordDec_nf h ..
  case divWord =>
    unfold divWord
    cases t with
    | bin w => exact divDigit_nf h ..
    | dec w => exact divWordDec_nf h ..
  case remWord =>
    unfold remWord
    cases t with
    | bin w => exact remDigitOp_nf h ..
    | dec w => exact remWordDec_nf h ..

/-- C48: any client made of finitely many operations, starting from any lists of digits. -/
theorem client_terminates (c : Client) (xs : List (List Nat)) : Terminates (c.run t dbg xs) := by
  have key : Nf (c.run t dbg xs) := by
    induction c generalizing xs with
    | done a => exact Nf.triv
    | op o k ih => exact Nf.bind (nf_op t dbg xs o) fun _ => ih _
    | cmp a b k ih => exact ih _ _
    | isZero a k ih => exact ih _ _
  exact key.ne

/-! ## The recursion is not deep -/

/-- C48: for factors of up to `16 * 2 ^ k` digits, the recursion of the multiplication is at most `k` levels
deep (`k + 1` calls), whatever the buffers. -/
theorem mul_depth (k : Nat) (x y product work : List Nat) (hx : x.length ≤ 16 * 2 ^ k)
    (hy : y.length ≤ 16 * 2 ^ k) :
    Terminates (mulBigIntoWithWork (t.ops dbg) dbg (k + 1) x y product work) :=
  (mulBigIntoWithWork_nf (ops_nf t dbg) k x y product work hx hy).ne

/-- C48: the same for squares. -/
theorem square_depth (k : Nat) (x sq work : List Nat) (hx : x.length ≤ 16 * 2 ^ k) :
    Terminates (squareIntoWithWork (t.ops dbg) dbg (k + 1) x sq work) :=
  (squareIntoWithWork_nf (ops_nf t dbg) k x sq work hx).ne

/-- C48: the same for divisions, where the number of digits of the denominator counts. -/
theorem div_depth (k : Nat) (x y quot work : List Nat) (hy : y.length ≤ 16 * 2 ^ k) :
    Terminates (divBz2n1n (t.ops dbg) dbg (divBigLeaf (t.ops dbg) dbg) (k + 1) x y quot work) :=
  (divBz2n1n_nf (ops_nf t dbg) (divBigLeaf_nf (ops_nf t dbg)) k x y quot work hy).ne

/-- For instance, numbers of 1000 digits need six levels. -/
example (x : List Nat) (h : x.length = 1000) (p q : List Nat) :
    Terminates (mulBigIntoWithWork (t.ops dbg) dbg 7 x x p q) :=
  mul_depth t dbg 6 x x p q (by rw [h]; decide) (by rw [h]; decide)

/-- The bound is not far from the truth: a multiplication of 20-digit numbers does recurse. -/
example : ¬ Terminates (mulBigIntoWithWork ((DType.bin .w8).ops true) true 1 (List.replicate 20 1)
    (List.replicate 20 1) (List.replicate 40 0) (List.replicate 100 0)) := by
  unfold Terminates
  decide +kernel

/-- C48: more than the needed budget changes nothing. -/
theorem budget_irrelevant (k m : Nat) (hm : k ≤ m) (x y a b : List Nat)
    (hx : x.length ≤ 16 * 2 ^ k) (hy : y.length ≤ 16 * 2 ^ k) :
    mulBigIntoWithWork (t.ops dbg) dbg (m + 1) x y a b = mulBigIntoWithWork (t.ops dbg) dbg (k + 1) x y a b ∧
    squareIntoWithWork (t.ops dbg) dbg (m + 1) x a b = squareIntoWithWork (t.ops dbg) dbg (k + 1) x a b ∧
    divBz2n1n (t.ops dbg) dbg (divBigLeaf (t.ops dbg) dbg) (m + 1) x y a b =
      divBz2n1n (t.ops dbg) dbg (divBigLeaf (t.ops dbg) dbg) (k + 1) x y a b :=
  ⟨(mulBigIntoWithWork_eq (ops_nf t dbg) (max_le hx hy) hm).symm,
    (squareIntoWithWork_eq (ops_nf t dbg) hx hm).symm, (divBz2n1n_eq (ops_nf t dbg) hy hm).symm⟩

/-! ## The equations of the code -/

/-- C48: the multiplication used by the model satisfies the equation of `mul_big_into_with_work`
(`src/ubig/mul.rs:153-179`), which calls itself through Karatsuba and Toom-Cook without a budget. -/
theorem mul_equation (x y product work : List Nat) :
    mulRec (t.ops dbg) dbg x y product work =
      (if x = [] ∨ y = [] then pure (product, work, 0)
      else do
        assertR (decide (x.length + y.length ≤ product.length))
        if 128 ≤ x.length ∧ 128 ≤ y.length then
          mulToom3Into (t.ops dbg) dbg (mulRec (t.ops dbg) dbg) x y product work
        else if 20 ≤ x.length ∧ 20 ≤ y.length then
          mulKaratsubaInto (t.ops dbg) dbg (mulRec (t.ops dbg) dbg) x y product work
        else
          let (product, n) ← mulBigLongInto (t.ops dbg) x y product
          return (product, work, n)) := by
  have h := ops_nf t dbg
  have hb := fun a b c d => below_mulRec (dbg := dbg) h (max x.length y.length) a b c d
  refine Below.eq ?_ (mulBigIntoWithWork_nf h _ x y product work
    (le_trans (le_max_left _ y.length) (le_fuel _)) (le_trans (le_max_right x.length _) (le_fuel _)))
  unfold mulRec mulFuel
  rw [mulBigIntoWithWork]
  below (hb ..)
  exact Below.ite (mulToom3Into_below hb ..)
    (Below.ite (mulKaratsubaInto_below hb ..) Below.refl)

/-- C48: the same for `square_into_with_work` (`src/ubig/mul.rs:219-244`). -/
theorem square_equation (x sq work : List Nat) :
    squareRec (t.ops dbg) dbg x sq work =
      (if x = [] then pure (sq, work, 0)
      else do
        assertR (decide (2 * x.length ≤ sq.length))
        if 128 ≤ x.length then
          squareToom3Into (t.ops dbg) dbg (squareRec (t.ops dbg) dbg) x sq work
        else if 20 ≤ x.length then
          squareKaratsubaInto (t.ops dbg) dbg (squareRec (t.ops dbg) dbg) x sq work
        else
          let (sq, n) ← squareLongInto (t.ops dbg) dbg x sq
          return (sq, work, n)) := by
  have h := ops_nf t dbg
  have hb := fun a b c => below_squareRec (dbg := dbg) h x.length a b c
  refine Below.eq ?_ (squareIntoWithWork_nf h _ x sq work (le_fuel _))
  unfold squareRec mulFuel
  rw [squareIntoWithWork]
  below (hb ..)
  exact Below.ite (squareToom3Into_below hb ..)
    (Below.ite (squareKaratsubaInto_below hb ..) Below.refl)

/-- C48: the public multiplication (`src/ubig/mul.rs:117-147`) in terms of this function. -/
theorem mulInto_equation (x y product : List Nat) :
    mulBigInto (t.ops dbg) dbg x y product =
      (if x = [] ∨ y = [] then pure (product, 0)
      else do
        assertR (decide (x.length + y.length ≤ product.length))
        if 128 ≤ x.length ∧ 128 ≤ y.length then
          let (product, _, n) ← mulToom3Into (t.ops dbg) dbg (mulRec (t.ops dbg) dbg) x y product
            (List.replicate (toom3WorkSize (max x.length y.length)) 0)
          return (product, n)
        else if 20 ≤ x.length ∧ 20 ≤ y.length then
          let (product, _, n) ← mulKaratsubaInto (t.ops dbg) dbg (mulRec (t.ops dbg) dbg) x y product
            (List.replicate (karatsubaWorkSize (max x.length y.length)) 0)
          return (product, n)
        else mulBigLongInto (t.ops dbg) x y product) := by
  have h := ops_nf t dbg
  have hb := fun a b c d => below_mulRec (dbg := dbg) h (mulFuel (max x.length y.length)) a b c d
  refine Below.eq ?_ (mulBigInto_nf h x y product)
  unfold mulBigInto
  below (hb ..)
  exact Below.ite (Below.bind (mulToom3Into_below hb ..) fun _ => Below.refl)
    (Below.ite (Below.bind (mulKaratsubaInto_below hb ..) fun _ => Below.refl) Below.refl)

/-- C48: the public squaring (`src/ubig/mul.rs:184-213`) likewise. -/
theorem squareInto_equation (x sq : List Nat) :
    squareInto (t.ops dbg) dbg x sq =
      (if x = [] then pure (sq, 0)
      else do
        assertR (decide (2 * x.length ≤ sq.length))
        if 128 ≤ x.length then
          let (sq, _, n) ← squareToom3Into (t.ops dbg) dbg (squareRec (t.ops dbg) dbg) x sq
            (List.replicate (toom3WorkSize x.length) 0)
          return (sq, n)
        else if 20 ≤ x.length then
          let (sq, _, n) ← squareKaratsubaInto (t.ops dbg) dbg (squareRec (t.ops dbg) dbg) x sq
            (List.replicate (karatsubaWorkSize x.length) 0)
          return (sq, n)
        else squareLongInto (t.ops dbg) dbg x sq) := by
  have h := ops_nf t dbg
  have hb := fun a b c => below_squareRec (dbg := dbg) h (mulFuel x.length) a b c
  refine Below.eq ?_ (squareInto_nf h x sq)
  unfold squareInto
  below (hb ..)
  exact Below.ite (Below.bind (squareToom3Into_below hb ..) fun _ => Below.refl)
    (Below.ite (Below.bind (squareKaratsubaInto_below hb ..) fun _ => Below.refl) Below.refl)

theorem leaf_eq (x y quot work : List Nat) (h : y.length < 20) :
    divBigLeaf (t.ops dbg) dbg x y quot work = divBigWithWork (t.ops dbg) dbg x y quot work := by
  unfold divBigLeaf divBigWithWork divBigWithWorkGen
  have hc : y.length < bzCutoff := h
  simp only [hc, if_true]

/-- C48: the recursive division satisfies the equation of `div_big_bz_2n_n` (`src/ubig/div/bz.rs:70-95`),
which calls itself through `div_big_bz_3n_2n` and, for small denominators, `div_big_with_work`. -/
theorem div_equation (num den quot work : List Nat) :
    divRec (t.ops dbg) dbg num den quot work = (do
      let n := den.length
      debugAssertR dbg (decide (n < 20 ∨ n % 2 = 0))
      debugAssertR dbg (decide (num.length = 2 * n))
      debugAssertR dbg (decide (quot.length = n))
      debugAssertR dbg (decide ((← (t.ops dbg).maxShift (← getR den (n - 1))) = 0))
      if n < 20 then
        let nnum ← dropLeadingZeros num num.length
        let (num', quot, work, r) ← divBigWithWork (t.ops dbg) dbg (← slice num 0 nnum) den quot work
        let (nquot, nrem) ← unwrapR r
        return (num' ++ num.drop nnum, quot, work, nquot, nrem)
      else
        let hn := n / 2
        let (numHigh, quotHigh, work, _, _) ← divBz3n2n (t.ops dbg) dbg (divRec (t.ops dbg) dbg)
          (← slice num hn num.length) den (← slice quot hn quot.length) work
        let num := num.take hn ++ numHigh
        let quot := quot.take hn ++ quotHigh
        let (numLow, quotLow, work, _, _) ← divBz3n2n (t.ops dbg) dbg (divRec (t.ops dbg) dbg)
          (← slice num 0 (3 * hn)) den (← slice quot 0 hn) work
        let num := numLow ++ num.drop (3 * hn)
        let quot := quotLow ++ quot.drop hn
        return (num, quot, work, ← dropLeadingZeros quot n, ← dropLeadingZeros num n)) := by
  have h := ops_nf t dbg
  have hb := fun a b c d => below_divRec (dbg := dbg) h den.length a b c d
  refine Below.eq ?_ (divBz2n1n_nf h (divBigLeaf_nf h) _ num den quot work (le_fuel _))
  unfold divRec
  rw [divBz2n1n]
  dsimp only
  refine Below.bind Below.refl fun _ => Below.bind Below.refl fun _ => Below.bind Below.refl fun _ =>
    Below.bind Below.refl fun _ => Below.bind Below.refl fun _ => Below.bind Below.refl fun _ => ?_
  by_cases hc : den.length < 20
  · rw [if_pos (show den.length < bzCutoff from hc), if_pos hc]
    refine Below.bind Below.refl fun _ => Below.bind Below.refl fun _ => ?_
    rw [leaf_eq t dbg _ _ _ _ hc]
    exact Below.refl
  · rw [if_neg (show ¬ den.length < bzCutoff from hc), if_neg hc]
    refine Below.bind Below.refl fun _ => Below.bind Below.refl fun _ => ?_
    refine Below.bind (divBz3n2n_below hb ..) fun _ => ?_
    refine Below.bind Below.refl fun _ => Below.bind Below.refl fun _ => ?_
    exact Below.bind (divBz3n2n_below hb ..) fun _ => Below.refl

/-- C48: the scratch sizes of the code (`src/ubig/mul/karatsuba.rs:20-31`, `src/ubig/mul/toom3.rs:20-32`)
satisfy the equations of their loops. -/
theorem workSize_equation (n : Nat) :
    karatsubaWorkSize n =
      (if 20 ≤ n then 2 * ((n + 1) / 2) + karatsubaWorkSize ((n + 1) / 2) else 0) ∧
    toom3WorkSize n =
      if 128 ≤ n then 6 * ((n + 2) / 3) + 10 + toom3WorkSize ((n + 2) / 3 + 2)
      else karatsubaWorkSize n := by
  constructor
  · unfold karatsubaWorkSize
    cases n with
    | zero => rfl
    | succ n =>
      rw [karatsubaWorkGo]
      unfold karatsubaCutoff
      split_ifs with h
      · rw [karatsubaWorkGo_fuel n ((n + 1 + 1) / 2) _ (by omega) (le_refl _)]
      · rfl
  · unfold toom3WorkSize
    cases n with
    | zero => rfl
    | succ n =>
      rw [toom3WorkGo]
      unfold toom3Cutoff
      split_ifs with h
      · rw [toom3WorkGo_fuel n ((n + 1 + 2) / 3 + 2) _ (by omega) (le_refl _)]
      · rfl

/-! ## Conversion to decimal -/

theorem nf_buildSmall (w : Width) (l res : List Nat) : Nf (buildSmall dbg w l res) := by
  induction l with
  | nil => exact Nf.triv
  | cons d l ih =>
    unfold buildSmall
    exact Nf.bind ih fun _ => Nf.bind (nf_shl ..) fun _ => Nf.bind (nf_shl ..) fun _ => nf_addWord ..

theorem split_lt' (w : Width) {n : Nat} (hn : 16 ≤ n) :
    (DType.dec w).radix ^ 2 ^ splitExp w n < (DType.bin w).radix ^ (n - 1) ∧ splitExp w n ≠ 0 := by
  have he : splitExp w n ≠ 0 := by
    intro h
    have := (splitExp_le w n 0).mp (by omega)
    cases w <;> simp [places, Width.bytes] at this <;> omega
  refine ⟨?_, he⟩
  rw [decRadix_eq, binRadix_eq, ← pow_mul]
  refine lt_of_lt_of_le (Nat.pow_lt_pow_right (by omega) (Nat.lt_succ_self _)) (pow10_le ?_)
  obtain ⟨e, he⟩ := Nat.exists_eq_succ_of_ne_zero he
  have := lt_of_lt_splitExp w (n := n) (e := e) (by omega)
  rw [he, pow_succ]
  cases w <;> simp only [places, Width.bytes] at * <;> omega

theorem scale_length (w : Width) {n : Nat} (hn : 16 ≤ n) {s : List Nat}
    (hs : Rep (DType.bin w).radix s ((DType.dec w).radix ^ 2 ^ splitExp w n)) :
    2 ≤ s.length ∧ s.length < n := by
  have hB := (ops_lawful (.bin w) true).base
  obtain ⟨h1, h2⟩ := split_lt' w hn
  have h3 := size_rep (by omega) hs
  have h4 := size_le (by omega) h1
  refine ⟨?_, by omega⟩
  have h5 := val_lt hs.digs
  rw [hs.val_eq] at h5
  by_contra hc
  have h6 : (DType.bin w).radix ^ s.length ≤ (DType.bin w).radix ^ 1 :=
    Nat.pow_le_pow_right (by omega) (by omega)
  have h7 : (DType.dec w).radix ^ 2 ≤ (DType.dec w).radix ^ 2 ^ splitExp w n := by
    refine Nat.pow_le_pow_right (by cases w <;> decide) ?_
    have := Nat.pow_le_pow_right (n := 2) (by omega) (Nat.one_le_iff_ne_zero.mpr h2)
    omega
  have h8 : (DType.bin w).radix ^ 1 < (DType.dec w).radix ^ 2 := by cases w <;> decide
  omega

theorem nf_buildDecimal (w : Width) (scales : List (List Nat))
    (hs : ∀ n s, 16 ≤ n → scales[splitExp w n]? = some s → 2 ≤ s.length ∧ s.length < n) :
    ∀ (k : Nat) (x : List Nat), x.length < k → Nf (buildDecimal dbg w scales k x) := by
  intro k
  induction k with
  | zero => intro x hx; omega
  | succ k ih =>
    intro x hx
    unfold buildDecimal
    dsimp only
    split_ifs with h0 h16
    · exact Nf.pure
    · exact Nf.bind (getR_nf ..) fun _ => nf_buildSmall ..
    · rw [scaleRounds_eq]
      have hn : 16 ≤ x.length := by unfold toDecDivCutoff at h16; omega
      rcases h1 : scales[splitExp w x.length]? with _ | s
      · exact ⟨nofun⟩
      · obtain ⟨h3, h4⟩ := hs _ s hn h1
        refine Nf.bind' (P := fun a => a = s) Nf.triv (fun a e => by injection e with e; exact e.symm) ?_
        rintro s rfl
        refine Nf.bind' (divAssignBig_nf (ops_nf _ _) ..) (Len.ok (divAssignBig_len x s h4)) ?_
        rintro ⟨high, r⟩ h5
        dsimp only at h5 ⊢
        cases r with
        | error e => exact ⟨nofun⟩
        | ok low =>
          have h6 := h5 low rfl
          refine Nf.bind' (P := fun a => a = low) Nf.triv
            (fun a e => by injection e with e; exact e.symm) ?_
          rintro low rfl
          exact Nf.bind (ih _ (by omega)) fun _ => Nf.bind (ih _ (by omega)) fun _ => Nf.pure

theorem nf_makeScales (w : Width) (k : Nat) : ∀ s, Nf (makeScales dbg w k s) := by
  induction k with
  | zero => exact fun _ => Nf.triv
  | succ k ih =>
    intro s
    unfold makeScales
    exact Nf.bind ⟨square_terminates _ dbg _⟩ fun _ => Nf.bind (ih _) fun _ => Nf.pure

/-- The conversion comes to an end if the powers that it divides by have the right length. -/
theorem nf_toDecimal (w : Width) (x : List Nat)
    (H : ∀ l, makeScales dbg w (splitExp w x.length) (ofWord (.bin w) w.decRadix) = .ok l →
      ∀ n s, 16 ≤ n → l[splitExp w n]? = some s → 2 ≤ s.length ∧ s.length < n) :
    Nf (toDecimal dbg w x) := by
  unfold toDecimal
  split_ifs with h
  · exact nf_buildDecimal dbg w [] (fun n s _ h => by simp at h) _ _ (by omega)
  · dsimp only
    rw [scaleRounds_eq]
    exact Nf.bind' (nf_makeScales ..) H fun l hl => nf_buildDecimal dbg w l hl _ _ (by omega)

/-- C48 (in part): the conversion to decimal comes to an end if the powers of the decimal radix that it
divides by are computed correctly, whether or not the divisions are right.  Missing: numbers for which a
square is wrong. -/
theorem toDecimal_terminates_partial (w : Width) (x : List Nat)
    (hsq : ∀ i, i < splitExp w x.length → SquareReturned dbg (.bin w) ((DType.dec w).radix ^ 2 ^ i)) :
    Terminates (toDecimal dbg w x) := by
  refine (nf_toDecimal dbg w x fun l hl n s hn hs => ?_).ne
  obtain ⟨l', h1, h2, h3⟩ := makeScales_spec dbg w (splitExp w x.length)
    (ofWord (.bin w) w.decRadix) 0
    (by rw [pow_zero, pow_one]; exact ofWord_exact (.bin w) w.decRadix (by cases w <;> decide))
    fun i _ hi s hs => by
      have := hsq i (by omega) s hs
      rwa [← pow_mul, ← pow_succ] at this
  rw [hl] at h1
  cases h1
  have hi : splitExp w n < l.length := (List.getElem?_eq_some_iff.mp hs).1
  obtain ⟨s', h4, h5⟩ := h3 _ (by omega : splitExp w n ≤ splitExp w x.length)
  rw [hs] at h4
  cases h4
  exact scale_length w hn (by simpa using h5)

/-- C48 (in part): so it does for all lists of up to 20409 digits. -/
theorem toDecimal_upto20409_terminates_partial (w : Width) (hw : w ≠ .w8) (x : List Nat)
    (hl : x.length ≤ 20409) : Terminates (toDecimal dbg w x) :=
  toDecimal_terminates_partial dbg w x fun i hi =>
    squareReturned_upto13 dbg w hw i (lt_of_lt_of_le hi
      (le_trans (splitExp_mono w hl) (by rw [splitExp_le]; cases w <;> decide)))

/-- The scales are the first one, and its successive squares. -/
theorem makeScales_chain (w : Width) (k : Nat) : ∀ {s : List Nat} {l : List (List Nat)},
    makeScales dbg w k s = .ok l → l[0]? = some s ∧
      ∀ i b, l[i + 1]? = some b → ∃ a, l[i]? = some a ∧ UBig.square (.bin w) dbg a = .ok b := by
  induction k with
  | zero =>
    rintro s l h
    cases h
    exact ⟨rfl, fun i b h => by simp at h⟩
  | succ k ih =>
    intro s l h
    unfold makeScales at h
    rcases hq : UBig.square (.bin w) dbg s with e | q
    · rw [hq] at h; cases h
    rcases hm : makeScales dbg w k q with e | m
    · rw [hq, ok_bind, hm] at h; cases h
    rw [hq, ok_bind, hm] at h
    cases h
    obtain ⟨h1, h2⟩ := ih hm
    refine ⟨rfl, fun i b hb => ?_⟩
    rw [List.getElem?_cons_succ] at hb
    cases i with
    | zero =>
      rw [h1] at hb
      cases hb
      exact ⟨s, rfl, hq⟩
    | succ i =>
      obtain ⟨a, h3, h4⟩ := h2 i b hb
      exact ⟨a, h3, h4⟩

attribute [local irreducible] scale13 scale14

/-- C48: the conversion of numbers with digits of eight bits comes to an end, whatever their length.  The
numbers it divides by have the right length, although some of them are wrong, and it panics before it
can divide by others. -/
theorem toDecimal_w8_terminates (x : List Nat) : Terminates (toDecimal dbg .w8 x) := by
  refine (nf_toDecimal dbg .w8 x fun l hl n s hn hs => ?_).ne
  obtain ⟨h0, h1⟩ := makeScales_chain dbg .w8 _ hl
  have hrep : ∀ i, i ≤ 12 → ∀ s, l[i]? = some s → Rep 256 s (100 ^ 2 ^ i) := by
    intro i
    induction i with
    | zero =>
      intro _ s hs
      rw [h0] at hs
      cases hs
      exact ofWord_exact (.bin .w8) 100 (by decide)
    | succ i ih =>
      intro hi s hs
      obtain ⟨a, ha, hq⟩ := h1 i s hs
      have hi' : i ∈ List.range 12 := List.mem_range.mpr (by omega)
      obtain ⟨z, hz, hr⟩ := squareReturned_of dbg (.bin .w8)
        ⟨20, 20, mulSafe_scales .w8 i hi', squareFresh_scales .w8 i hi'⟩ a (ih (by omega) a ha)
      rw [hq] at hz
      cases hz
      rw [← pow_mul, ← pow_succ] at hr
      exact hr
  have h13 : ∀ s, l[13]? = some s → s = dig 256 6804 scale13 := by
    intro s hs
    obtain ⟨a, ha, hq⟩ := h1 12 s hs
    rw [scale12_eq (hrep 12 (by omega) a ha)] at hq
    exact Except.ok.inj (hq.symm.trans (P.square_eval (t := .bin .w8) scale13_eval dbg))
  have h14 : ∀ s, l[14]? = some s → s = dig 256 13607 scale14 := by
    intro s hs
    obtain ⟨a, ha, hq⟩ := h1 13 s hs
    rw [h13 a ha] at hq
    exact Except.ok.inj (hq.symm.trans (P.square_eval (t := .bin .w8) scale14_eval dbg))
  have h15 : ∀ i, 15 ≤ i → l[i]? = none := by
    intro i hi
    have : l[15]? = none := by
      rcases hs : l[15]? with _ | s
      · rfl
      · obtain ⟨a, ha, hq⟩ := h1 14 s hs
        rw [h14 a ha] at hq
        exact nomatch hq.symm.trans (P.square_eval_unwrap (t := .bin .w8) scale15_eval dbg)
    rw [List.getElem?_eq_none_iff] at this ⊢
    omega
  by_cases h12 : splitExp .w8 n ≤ 12
  · exact scale_length .w8 hn (hrep _ h12 s hs)
  have hlt := lt_of_lt_splitExp .w8 (n := n) (e := splitExp .w8 n - 1) (by omega)
  simp only [places, Width.bytes] at hlt
  obtain h | h | h : splitExp .w8 n = 13 ∨ splitExp .w8 n = 14 ∨ 15 ≤ splitExp .w8 n := by omega
  · rw [h] at hs hlt
    rw [h13 s hs, dig_length]
    omega
  · rw [h] at hs hlt
    rw [h14 s hs, dig_length]
    omega
  · rw [h15 _ h] at hs
    cases hs

/-- C48: hence printing comes to an end, for all decimal types and for digits of eight bits. -/
theorem display_terminates (f : FmtFlags) (x : List Nat) (ht : t = .bin .w8 ∨ ∃ w, t = .dec w) :
    Terminates (display t dbg f x) := by
  rcases ht with rfl | ⟨w, rfl⟩
  · have : Nf (display (.bin .w8) dbg f x) :=
      Nf.bind ⟨toDecimal_w8_terminates dbg x⟩ fun _ => Nf.pure
    exact this.ne
  · exact nofun

/-- C48 (in part): and so it does for the other types, for lists of up to 20409 digits. -/
theorem display_terminates_partial (f : FmtFlags) (x : List Nat) (hl : x.length ≤ 20409) :
    Terminates (display t dbg f x) := by
  cases t with
  | dec w => exact display_terminates (.dec w) dbg f x (Or.inr ⟨w, rfl⟩)
  | bin w =>
    by_cases hw : w = .w8
    · exact display_terminates (.bin w) dbg f x (Or.inl (by rw [hw]))
    · have : Nf (display (.bin w) dbg f x) :=
        Nf.bind ⟨toDecimal_upto20409_terminates_partial dbg w hw x hl⟩ fun _ => Nf.pure
      exact this.ne

end Babs.Props
