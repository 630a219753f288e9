import Verif.Proofs.FuelRec

/-!
# Helper lemmas: more fuel does not change a result

`Below x y`: `x` has run out of fuel or is equal to `y`.
-/

namespace Babs

/-- Out of fuel, or the same. -/
structure Below {α : Type} (x y : R α) : Prop where
  or : x = .error .noFuel ∨ x = y

theorem Below.refl {α : Type} {x : R α} : Below x x := ⟨.inr rfl⟩

theorem Below.trans {α : Type} {x y z : R α} (h : Below x y) (k : Below y z) : Below x z := by
  rcases h.or with h | h
  · exact ⟨.inl h⟩
  · exact h ▸ k

theorem Below.eq {α : Type} {x y : R α} (h : Below x y) (hx : Nf x) : x = y :=
  h.or.resolve_left hx.ne

theorem Below.bind {α β : Type} {x y : R α} {f g : α → R β} (h : Below x y)
    (hf : ∀ a, Below (f a) (g a)) : Below (x >>= f) (y >>= g) := by
  rcases h.or with h | h
  · subst h
    exact ⟨.inl rfl⟩
  · subst h
    cases x with
    | error e => exact Below.refl
    | ok a => exact hf a

theorem Below.ite {α : Type} {c : Prop} [Decidable c] {x y u v : R α} (h : Below x u) (k : Below y v) :
    Below (if c then x else y) (if c then u else v) := by
  split
  · exact h
  · exact k

/-- Steps through two programs that differ in a function only. -/
macro "below" h:term : tactic => `(tactic|
  repeat' first
    | with_reducible exact Below.refl
    | with_reducible exact $h
    | with_reducible refine Below.bind ?_ fun _ => ?_
    | with_reducible refine Below.ite ?_ ?_)

variable {D : DigitOps} {dbg : Bool}

theorem mulKaratsubaInto_below {f g : MulFn} (h : ∀ a b c d, Below (f a b c d) (g a b c d))
    (a b c d : List Nat) :
    Below (mulKaratsubaInto D dbg f a b c d) (mulKaratsubaInto D dbg g a b c d) := by
  unfold mulKaratsubaInto
  below (h ..)

theorem mulToom3Into_below {f g : MulFn} (h : ∀ a b c d, Below (f a b c d) (g a b c d))
    (a b c d : List Nat) :
    Below (mulToom3Into D dbg f a b c d) (mulToom3Into D dbg g a b c d) := by
  unfold mulToom3Into
  below (h ..)

theorem squareKaratsubaInto_below {f g : SquareFn} (h : ∀ a b c, Below (f a b c) (g a b c))
    (a b c : List Nat) :
    Below (squareKaratsubaInto D dbg f a b c) (squareKaratsubaInto D dbg g a b c) := by
  unfold squareKaratsubaInto
  below (h ..)

theorem squareToom3Into_below {f g : SquareFn} (h : ∀ a b c, Below (f a b c) (g a b c))
    (a b c : List Nat) :
    Below (squareToom3Into D dbg f a b c) (squareToom3Into D dbg g a b c) := by
  unfold squareToom3Into
  below (h ..)

theorem divBz3n2n_below {f g : DivFn} (h : ∀ a b c d, Below (f a b c d) (g a b c d))
    (a b c d : List Nat) :
    Below (divBz3n2n D dbg f a b c d) (divBz3n2n D dbg g a b c d) := by
  unfold divBz3n2n
  below (h ..)

theorem mulBigIntoWithWork_succ (k : Nat) (a b c d : List Nat) :
    Below (mulBigIntoWithWork D dbg k a b c d) (mulBigIntoWithWork D dbg (k + 1) a b c d) := by
  induction k generalizing a b c d with
  | zero => exact ⟨.inl rfl⟩
  | succ k ih =>
    rw [mulBigIntoWithWork, mulBigIntoWithWork]
    below (by first | exact mulToom3Into_below ih .. | exact mulKaratsubaInto_below ih ..)

theorem squareIntoWithWork_succ (k : Nat) (a b c : List Nat) :
    Below (squareIntoWithWork D dbg k a b c) (squareIntoWithWork D dbg (k + 1) a b c) := by
  induction k generalizing a b c with
  | zero => exact ⟨.inl rfl⟩
  | succ k ih =>
    rw [squareIntoWithWork, squareIntoWithWork]
    below (by first | exact squareToom3Into_below ih .. | exact squareKaratsubaInto_below ih ..)

theorem divBz2n1n_succ {leaf : DivResFn} (k : Nat) (a b c d : List Nat) :
    Below (divBz2n1n D dbg leaf k a b c d) (divBz2n1n D dbg leaf (k + 1) a b c d) := by
  induction k generalizing a b c d with
  | zero => exact ⟨.inl rfl⟩
  | succ k ih =>
    rw [divBz2n1n, divBz2n1n]
    below (divBz3n2n_below ih ..)

theorem mulBigIntoWithWork_mono {k m : Nat} (h : k ≤ m) (a b c d : List Nat) :
    Below (mulBigIntoWithWork D dbg k a b c d) (mulBigIntoWithWork D dbg m a b c d) := by
  induction h with
  | refl => exact Below.refl
  | step _ ih => exact ih.trans (mulBigIntoWithWork_succ ..)

theorem squareIntoWithWork_mono {k m : Nat} (h : k ≤ m) (a b c : List Nat) :
    Below (squareIntoWithWork D dbg k a b c) (squareIntoWithWork D dbg m a b c) := by
  induction h with
  | refl => exact Below.refl
  | step _ ih => exact ih.trans (squareIntoWithWork_succ ..)

theorem divBz2n1n_mono {leaf : DivResFn} {k m : Nat} (h : k ≤ m) (a b c d : List Nat) :
    Below (divBz2n1n D dbg leaf k a b c d) (divBz2n1n D dbg leaf m a b c d) := by
  induction h with
  | refl => exact Below.refl
  | step _ ih => exact ih.trans (divBz2n1n_succ ..)

/-! ## With enough fuel the recursion equations of the code hold -/

/-- Any two amounts of fuel give the same product, if both are enough for the lengths. -/
theorem mulBigIntoWithWork_eq (h : NfOps D) {k m : Nat} {a b c d : List Nat}
    (hk : max a.length b.length ≤ 16 * 2 ^ k) (hm : k ≤ m) :
    mulBigIntoWithWork D dbg (k + 1) a b c d = mulBigIntoWithWork D dbg (m + 1) a b c d :=
  (mulBigIntoWithWork_mono (Nat.succ_le_succ hm) a b c d).eq
    (mulBigIntoWithWork_nf h k a b c d (by omega) (by omega))

theorem squareIntoWithWork_eq (h : NfOps D) {k m : Nat} {a b c : List Nat}
    (hk : a.length ≤ 16 * 2 ^ k) (hm : k ≤ m) :
    squareIntoWithWork D dbg (k + 1) a b c = squareIntoWithWork D dbg (m + 1) a b c :=
  (squareIntoWithWork_mono (Nat.succ_le_succ hm) a b c).eq (squareIntoWithWork_nf h k a b c hk)

theorem divBz2n1n_eq (h : NfOps D) {k m : Nat} {a b c d : List Nat}
    (hk : b.length ≤ 16 * 2 ^ k) (hm : k ≤ m) :
    divBz2n1n D dbg (divBigLeaf D dbg) (k + 1) a b c d
      = divBz2n1n D dbg (divBigLeaf D dbg) (m + 1) a b c d :=
  (divBz2n1n_mono (Nat.succ_le_succ hm) a b c d).eq
    (divBz2n1n_nf h (divBigLeaf_nf h) k a b c d hk)

/-- `mul_big_into_with_work` with the fuel that the model gives it. -/
def mulRec (D : DigitOps) (dbg : Bool) : MulFn := fun a b c d =>
  mulBigIntoWithWork D dbg (mulFuel (max a.length b.length)) a b c d

/-- `square_into_with_work` with the fuel that the model gives it. -/
def squareRec (D : DigitOps) (dbg : Bool) : SquareFn := fun a b c =>
  squareIntoWithWork D dbg (mulFuel a.length) a b c

/-- `div_big_bz_2n_n` with the fuel that the model gives it. -/
def divRec (D : DigitOps) (dbg : Bool) : DivFn := fun a b c d =>
  divBz2n1n D dbg (divBigLeaf D dbg) (b.length + 1) a b c d

theorem below_mulRec (h : NfOps D) (k : Nat) (a b c d : List Nat) :
    Below (mulBigIntoWithWork D dbg k a b c d) (mulRec D dbg a b c d) := by
  have e := mulBigIntoWithWork_eq (dbg := dbg) (c := c) (d := d) h
    (le_fuel (max a.length b.length)) (Nat.le_add_right (max a.length b.length) k)
  unfold mulRec mulFuel
  rw [e]
  exact mulBigIntoWithWork_mono (by omega) _ _ _ _

theorem below_squareRec (h : NfOps D) (k : Nat) (a b c : List Nat) :
    Below (squareIntoWithWork D dbg k a b c) (squareRec D dbg a b c) := by
  have e := squareIntoWithWork_eq (dbg := dbg) (b := b) (c := c) h
    (le_fuel a.length) (Nat.le_add_right a.length k)
  unfold squareRec mulFuel
  rw [e]
  exact squareIntoWithWork_mono (by omega) _ _ _

theorem below_divRec (h : NfOps D) (k : Nat) (a b c d : List Nat) :
    Below (divBz2n1n D dbg (divBigLeaf D dbg) k a b c d) (divRec D dbg a b c d) := by
  have e := divBz2n1n_eq (dbg := dbg) (a := a) (c := c) (d := d) h
    (le_fuel b.length) (Nat.le_add_right b.length k)
  unfold divRec
  rw [e]
  exact divBz2n1n_mono (by omega) _ _ _ _

end Babs
