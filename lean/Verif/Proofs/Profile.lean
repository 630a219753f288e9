import Verif.Model.Text
import Verif.Spec

/-!
# Helper lemmas: debug and release builds

`Agree d r`: the debug build `d` does the same as the release build `r`, or it panics because of an
overflow check or a `debug_assert!`.  The relation goes through every function of the model.
-/

namespace Babs

theorem Agree.refl {α : Type} (x : R α) : Agree x x := Or.inl rfl

theorem Agree.bind {α β : Type} {x y : R α} {f g : α → R β} (h : Agree x y)
    (hf : ∀ a, Agree (f a) (g a)) : Agree (x >>= f) (y >>= g) := by
  rcases h with rfl | h | h
  · cases x with
    | error e => exact Or.inl rfl
    | ok a => exact hf a
  · unfold Panics at h
    rw [h]
    exact Or.inr (Or.inl rfl)
  · unfold Panics at h
    rw [h]
    exact Or.inr (Or.inr rfl)

theorem Agree.ite {α : Type} {c : Prop} [Decidable c] {x y x' y' : R α} (h : Agree x y)
    (h' : Agree x' y') : Agree (if c then x else x') (if c then y else y') := by
  split
  · exact h
  · exact h'

/-- One step of a proof of `Agree`: the lemmas about the functions of the model are added to it. -/
syntax "agree_step" : tactic

macro_rules | `(tactic| agree_step) => `(tactic| split)
macro_rules | `(tactic| agree_step) => `(tactic| with_reducible refine Agree.ite ?_ ?_)
macro_rules | `(tactic| agree_step) => `(tactic| with_reducible refine Agree.bind ?_ ?_)
macro_rules | `(tactic| agree_step) => `(tactic| intro _)
macro_rules | `(tactic| agree_step) => `(tactic| with_reducible assumption)
macro_rules | `(tactic| agree_step) => `(tactic| with_reducible exact Agree.refl _)

/-- Prove `Agree` step by step. -/
macro "agree" : tactic => `(tactic| repeat' (first | agree_step | (dsimp only; agree_step)))

/-! ## Machine arithmetic -/

theorem addW_agree (w a b : Nat) : Agree (addW true w a b) (addW false w a b) := by
  unfold addW; refine Agree.ite (Agree.refl _) (Or.inr (Or.inl rfl))
theorem subW_agree (w a b : Nat) : Agree (subW true w a b) (subW false w a b) := by
  unfold subW; refine Agree.ite (Agree.refl _) (Or.inr (Or.inl rfl))
theorem mulW_agree (w a b : Nat) : Agree (mulW true w a b) (mulW false w a b) := by
  unfold mulW; refine Agree.ite (Agree.refl _) (Or.inr (Or.inl rfl))
theorem shlW_agree (w a b : Nat) : Agree (shlW true w a b) (shlW false w a b) := by
  unfold shlW; refine Agree.ite (Agree.refl _) (Or.inr (Or.inl rfl))
theorem shrW_agree (w a b : Nat) : Agree (shrW true w a b) (shrW false w a b) := by
  unfold shrW; refine Agree.ite (Agree.refl _) (Or.inr (Or.inl rfl))
theorem debugAssertR_agree (c : Bool) : Agree (debugAssertR true c) (debugAssertR false c) := by
  cases c
  · exact Or.inr (Or.inr rfl)
  · exact Or.inl rfl

macro_rules | `(tactic| agree_step) => `(tactic| with_reducible exact addW_agree _ _ _)
macro_rules | `(tactic| agree_step) => `(tactic| with_reducible exact subW_agree _ _ _)
macro_rules | `(tactic| agree_step) => `(tactic| with_reducible exact mulW_agree _ _ _)
macro_rules | `(tactic| agree_step) => `(tactic| with_reducible exact shlW_agree _ _ _)
macro_rules | `(tactic| agree_step) => `(tactic| with_reducible exact shrW_agree _ _ _)
macro_rules | `(tactic| agree_step) => `(tactic| with_reducible exact debugAssertR_agree _)

/-! ## Digits -/

/-- The digit operations agree. -/
structure AgreeOps (D E : DigitOps) : Prop where
  max : D.max = E.max
  maxShift : ∀ a, Agree (D.maxShift a) (E.maxShift a)
  inc : ∀ a, Agree (D.inc a) (E.inc a)
  dec : ∀ a, Agree (D.dec a) (E.dec a)
  addCarry : ∀ a b c, Agree (D.addCarry a b c) (E.addCarry a b c)
  subCarry : ∀ a b c, Agree (D.subCarry a b c) (E.subCarry a b c)
  shlCarry : ∀ a b c, Agree (D.shlCarry a b c) (E.shlCarry a b c)
  shrCarry : ∀ a b c, Agree (D.shrCarry a b c) (E.shrCarry a b c)
  doubleCarry : ∀ a b, Agree (D.doubleCarry a b) (E.doubleCarry a b)
  mulCarry : ∀ a b c, Agree (D.mulCarry a b c) (E.mulCarry a b c)
  remCarry : ∀ a b c, Agree (D.remCarry a b c) (E.remCarry a b c)
  divCarry : ∀ a b c, Agree (D.divCarry a b c) (E.divCarry a b c)
  div3Carry : ∀ a b, Agree (D.div3Carry a b) (E.div3Carry a b)
  addProd : ∀ a b c d, Agree (D.addProd a b c d) (E.addProd a b c d)
  subProd : ∀ a b c d, Agree (D.subProd a b c d) (E.subProd a b c d)

theorem binOps_agree (w : Nat) : AgreeOps (binOps true w) (binOps false w) where
  max := rfl
  maxShift a := Agree.refl _
  inc a := Agree.refl _
  dec a := Agree.refl _
  addCarry a b c := Agree.refl _
  subCarry a b c := Agree.refl _
  shlCarry a b c := by simp only [binOps, Bin.shlCarry]; agree
  shrCarry a b c := by simp only [binOps, Bin.shrCarry]; agree
  doubleCarry a b := by simp only [binOps, Bin.doubleCarry]; agree
  mulCarry a b c := by simp only [binOps, Bin.mulCarry]; agree
  remCarry a b c := by simp only [binOps, Bin.remCarry]; agree
  divCarry a b c := by simp only [binOps, Bin.divCarry]; agree
  div3Carry a b := by
    simp only [binOps]
    split
    · simp only [Bin.div3Carry64]; agree
    · simp only [Bin.div3Carry]; agree
  addProd a b c d := by simp only [binOps, Bin.addProd]; agree
  subProd a b c d := by simp only [binOps, Bin.subProd]; agree

theorem decSubCarry_agree (w rx a b : Nat) (c : Bool) :
    Agree (Dec.subCarry true w rx a b c) (Dec.subCarry false w rx a b c) := by
  unfold Dec.subCarry; agree
macro_rules | `(tactic| agree_step) => `(tactic| with_reducible exact decSubCarry_agree _ _ _ _ _)

theorem decOps_agree (w rx : Nat) : AgreeOps (decOps true w rx) (decOps false w rx) where
  max := rfl
  maxShift a := by simp only [decOps, Dec.maxShift]; agree
  inc a := by simp only [decOps, Dec.inc]; agree
  dec a := by simp only [decOps, Dec.dec]; agree
  addCarry a b c := by simp only [decOps, Dec.addCarry]; agree
  subCarry a b c := decSubCarry_agree _ _ _ _ _
  shlCarry a b c := by simp only [decOps, Dec.shlCarry]; agree
  shrCarry a b c := by simp only [decOps, Dec.shrCarry]; agree
  doubleCarry a b := by simp only [decOps, Dec.doubleCarry]; agree
  mulCarry a b c := by simp only [decOps, Dec.mulCarry]; agree
  remCarry a b c := by simp only [decOps, Dec.remCarry]; agree
  divCarry a b c := by simp only [decOps, Dec.divCarry]; agree
  div3Carry a b := by simp only [decOps, Dec.div3Carry]; agree
  addProd a b c d := by simp only [decOps, Dec.addProd]; agree
  subProd a b c d := by simp only [decOps, Dec.subProd]; agree

theorem divRemBase_agree (n : Nat) : Agree (Dec64.divRemBase true n) (Dec64.divRemBase false n) := by
  unfold Dec64.divRemBase; agree
macro_rules | `(tactic| agree_step) => `(tactic| with_reducible exact divRemBase_agree _)

theorem dec64Ops_agree : AgreeOps (dec64Ops true) (dec64Ops false) where
  max := rfl
  maxShift := (decOps_agree 64 Dec64.radix).maxShift
  inc := (decOps_agree 64 Dec64.radix).inc
  dec := (decOps_agree 64 Dec64.radix).dec
  addCarry a b c := by simp only [dec64Ops, Dec64.addCarry]; agree
  subCarry := (decOps_agree 64 Dec64.radix).subCarry
  shlCarry a b c := by simp only [dec64Ops, Dec64.shlCarry]; agree
  shrCarry := (decOps_agree 64 Dec64.radix).shrCarry
  doubleCarry a b := by simp only [dec64Ops, Dec64.doubleCarry]; agree
  mulCarry a b c := by simp only [dec64Ops, Dec64.mulCarry]; agree
  remCarry := (decOps_agree 64 Dec64.radix).remCarry
  divCarry := (decOps_agree 64 Dec64.radix).divCarry
  div3Carry a b := by simp only [dec64Ops, Dec64.div3Carry]; agree
  addProd a b c d := by simp only [dec64Ops, Dec64.addProd]; agree
  subProd a b c d := by simp only [dec64Ops, Dec64.subProd]; agree

theorem ops_agree (t : DType) : AgreeOps (t.ops true) (t.ops false) := by
  rcases t with w | w
  · exact binOps_agree _
  · cases w
    · exact decOps_agree _ _
    · exact decOps_agree _ _
    · exact decOps_agree _ _
    · exact dec64Ops_agree

macro_rules | `(tactic| agree_step) => `(tactic| with_reducible exact AgreeOps.maxShift ‹AgreeOps _ _› ..)
macro_rules | `(tactic| agree_step) => `(tactic| with_reducible exact AgreeOps.inc ‹AgreeOps _ _› ..)
macro_rules | `(tactic| agree_step) => `(tactic| with_reducible exact AgreeOps.dec ‹AgreeOps _ _› ..)
macro_rules | `(tactic| agree_step) => `(tactic| with_reducible exact AgreeOps.addCarry ‹AgreeOps _ _› ..)
macro_rules | `(tactic| agree_step) => `(tactic| with_reducible exact AgreeOps.subCarry ‹AgreeOps _ _› ..)
macro_rules | `(tactic| agree_step) => `(tactic| with_reducible exact AgreeOps.shlCarry ‹AgreeOps _ _› ..)
macro_rules | `(tactic| agree_step) => `(tactic| with_reducible exact AgreeOps.shrCarry ‹AgreeOps _ _› ..)
macro_rules | `(tactic| agree_step) => `(tactic| with_reducible exact AgreeOps.doubleCarry ‹AgreeOps _ _› ..)
macro_rules | `(tactic| agree_step) => `(tactic| with_reducible exact AgreeOps.mulCarry ‹AgreeOps _ _› ..)
macro_rules | `(tactic| agree_step) => `(tactic| with_reducible exact AgreeOps.remCarry ‹AgreeOps _ _› ..)
macro_rules | `(tactic| agree_step) => `(tactic| with_reducible exact AgreeOps.divCarry ‹AgreeOps _ _› ..)
macro_rules | `(tactic| agree_step) => `(tactic| with_reducible exact AgreeOps.div3Carry ‹AgreeOps _ _› ..)
macro_rules | `(tactic| agree_step) => `(tactic| with_reducible exact AgreeOps.addProd ‹AgreeOps _ _› ..)
macro_rules | `(tactic| agree_step) => `(tactic| with_reducible exact AgreeOps.subProd ‹AgreeOps _ _› ..)

/-! ## Loops over digits -/

theorem onSlice_agree {α : Type} {f g : List Nat → R (List Nat × α)} (h : ∀ s, Agree (f s) (g s))
    (l : List Nat) (a b : Nat) : Agree (onSlice l a b f) (onSlice l a b g) := by
  unfold onSlice
  refine Agree.bind (Agree.refl _) fun s => Agree.bind (h s) fun _ => Agree.refl _
macro_rules | `(tactic| agree_step) => `(tactic| with_reducible refine onSlice_agree ?_ _ _ _)

theorem foldDigits_agree {C : Type} {f g : Nat → C → R (Nat × C)} (h : ∀ d c, Agree (f d c) (g d c))
    (l : List Nat) : ∀ c, Agree (foldDigits f l c) (foldDigits g l c) := by
  induction l with
  | nil => intro c; exact Agree.refl _
  | cons d l ih =>
    intro c
    unfold foldDigits
    exact Agree.bind (h _ _) fun a => Agree.bind (ih _) fun _ => Agree.refl _
macro_rules | `(tactic| agree_step) => `(tactic| with_reducible refine foldDigits_agree ?_ _ _)

theorem foldDigitsRev_agree {C : Type} {f g : Nat → C → R (Nat × C)}
    (h : ∀ d c, Agree (f d c) (g d c)) (l : List Nat) :
    ∀ c, Agree (foldDigitsRev f l c) (foldDigitsRev g l c) := by
  induction l with
  | nil => intro c; exact Agree.refl _
  | cons d l ih =>
    intro c
    unfold foldDigitsRev
    exact Agree.bind (ih _) fun a => Agree.bind (h _ _) fun _ => Agree.refl _
macro_rules | `(tactic| agree_step) => `(tactic| with_reducible refine foldDigitsRev_agree ?_ _ _)

theorem readRev_agree {C : Type} {f g : Nat → C → R C} (h : ∀ d c, Agree (f d c) (g d c))
    (l : List Nat) : ∀ c, Agree (readRev f l c) (readRev g l c) := by
  induction l with
  | nil => intro c; exact Agree.refl _
  | cons d l ih =>
    intro c
    unfold readRev
    exact Agree.bind (ih _) fun a => h _ _
macro_rules | `(tactic| agree_step) => `(tactic| with_reducible refine readRev_agree ?_ _ _)

theorem zipDigits_agree {C : Type} {f g : Nat → Nat → C → R (Nat × C)}
    (h : ∀ d e c, Agree (f d e c) (g d e c)) (l : List Nat) :
    ∀ m c, Agree (zipDigits f l m c) (zipDigits g l m c) := by
  induction l with
  | nil => intro m c; exact Agree.refl _
  | cons d l ih =>
    intro m c
    cases m with
    | nil => exact Agree.refl _
    | cons e m =>
      unfold zipDigits
      exact Agree.bind (h _ _ _) fun a => Agree.bind (ih _ _) fun _ => Agree.refl _
macro_rules | `(tactic| agree_step) => `(tactic| with_reducible refine zipDigits_agree ?_ _ _ _)

theorem zipInto_agree {C : Type} {f g : Nat → Nat → C → R (Nat × C)}
    (h : ∀ d e c, Agree (f d e c) (g d e c)) (l : List Nat) :
    ∀ m o c, Agree (zipInto f l m o c) (zipInto g l m o c) := by
  induction l with
  | nil => intro m o c; exact Agree.refl _
  | cons d l ih =>
    intro m o c
    cases m with
    | nil => exact Agree.refl _
    | cons e m =>
      cases o with
      | nil => exact Agree.refl _
      | cons q o =>
        unfold zipInto
        exact Agree.bind (h _ _ _) fun a => Agree.bind (ih _ _ _) fun _ => Agree.refl _
macro_rules | `(tactic| agree_step) => `(tactic| with_reducible refine zipInto_agree ?_ _ _ _ _)

variable {D E : DigitOps}

theorem incAssign_agree (h : AgreeOps D E) (l : List Nat) :
    Agree (incAssign D l) (incAssign E l) := by
  induction l with
  | nil => exact Agree.refl _
  | cons d l ih => unfold incAssign; agree
macro_rules | `(tactic| agree_step) => `(tactic| with_reducible exact incAssign_agree ‹AgreeOps _ _› ..)

theorem addAssignDigit_agree (h : AgreeOps D E) (l : List Nat) (d : Nat) :
    Agree (addAssignDigit D l d) (addAssignDigit E l d) := by
  unfold addAssignDigit; agree
macro_rules | `(tactic| agree_step) => `(tactic| with_reducible exact addAssignDigit_agree ‹AgreeOps _ _› ..)

theorem addAssignBig_agree (h : AgreeOps D E) (a b : List Nat) :
    Agree (addAssignBig D a b) (addAssignBig E a b) := by
  unfold addAssignBig; agree
macro_rules | `(tactic| agree_step) => `(tactic| with_reducible exact addAssignBig_agree ‹AgreeOps _ _› ..)

theorem addBigInto_agree (h : AgreeOps D E) (a b c : List Nat) :
    Agree (addBigInto D a b c) (addBigInto E a b c) := by
  unfold addBigInto; agree
macro_rules | `(tactic| agree_step) => `(tactic| with_reducible exact addBigInto_agree ‹AgreeOps _ _› ..)

theorem decGo_agree (h : AgreeOps D E) (n : Nat) (l : List Nat) :
    Agree (decGo D n l) (decGo E n l) := by
  induction l with
  | nil => exact Agree.refl _
  | cons d l ih =>
    cases l with
    | nil => unfold decGo; agree
    | cons e l => unfold decGo; agree
macro_rules | `(tactic| agree_step) => `(tactic| with_reducible exact decGo_agree ‹AgreeOps _ _› ..)

theorem decAssign_agree (h : AgreeOps D E) (l : List Nat) :
    Agree (decAssign D l) (decAssign E l) := by
  unfold decAssign; agree
macro_rules | `(tactic| agree_step) => `(tactic| with_reducible exact decAssign_agree ‹AgreeOps _ _› ..)

theorem subAssignDigit_agree (h : AgreeOps D E) (l : List Nat) (d : Nat) :
    Agree (subAssignDigit D l d) (subAssignDigit E l d) := by
  unfold subAssignDigit; agree
macro_rules | `(tactic| agree_step) => `(tactic| with_reducible exact subAssignDigit_agree ‹AgreeOps _ _› ..)

theorem subAssignBig_agree (h : AgreeOps D E) (a b : List Nat) :
    Agree (subAssignBig D a b) (subAssignBig E a b) := by
  unfold subAssignBig; agree
macro_rules | `(tactic| agree_step) => `(tactic| with_reducible exact subAssignBig_agree ‹AgreeOps _ _› ..)

theorem subBigInto_agree (h : AgreeOps D E) (a b c : List Nat) :
    Agree (subBigInto D a b c) (subBigInto E a b c) := by
  unfold subBigInto; agree
macro_rules | `(tactic| agree_step) => `(tactic| with_reducible exact subBigInto_agree ‹AgreeOps _ _› ..)

theorem rsubGo_agree (h : AgreeOps D E) (a b : List Nat) (c : Bool) :
    Agree (rsubGo D a b c) (rsubGo E a b c) := by
  unfold rsubGo; agree
macro_rules | `(tactic| agree_step) => `(tactic| with_reducible exact rsubGo_agree ‹AgreeOps _ _› ..)

theorem rsubAssignBig_agree (h : AgreeOps D E) (a b : List Nat) :
    Agree (rsubAssignBig D a b) (rsubAssignBig E a b) := by
  unfold rsubAssignBig; agree
macro_rules | `(tactic| agree_step) => `(tactic| with_reducible exact rsubAssignBig_agree ‹AgreeOps _ _› ..)

theorem subAssignBigAbsSign_agree (h : AgreeOps D E) (a : List Nat) (n : Nat) (b : List Nat) :
    Agree (subAssignBigAbsSign D a n b) (subAssignBigAbsSign E a n b) := by
  unfold subAssignBigAbsSign; agree
macro_rules | `(tactic| agree_step) => `(tactic| with_reducible exact subAssignBigAbsSign_agree ‹AgreeOps _ _› ..)

theorem subBigIntoAbsSign_agree (h : AgreeOps D E) (a b c : List Nat) :
    Agree (subBigIntoAbsSign D true a b c) (subBigIntoAbsSign E false a b c) := by
  unfold subBigIntoAbsSign; agree
macro_rules | `(tactic| agree_step) => `(tactic| with_reducible exact subBigIntoAbsSign_agree ‹AgreeOps _ _› ..)

theorem shlWithin_agree (h : AgreeOps D E) (a : List Nat) (s c : Nat) :
    Agree (shlWithin D a s c) (shlWithin E a s c) := by
  unfold shlWithin; agree
macro_rules | `(tactic| agree_step) => `(tactic| with_reducible exact shlWithin_agree ‹AgreeOps _ _› ..)

theorem shrWithin_agree (h : AgreeOps D E) (a : List Nat) (s c : Nat) :
    Agree (shrWithin D a s c) (shrWithin E a s c) := by
  unfold shrWithin; agree
macro_rules | `(tactic| agree_step) => `(tactic| with_reducible exact shrWithin_agree ‹AgreeOps _ _› ..)

/-! ## Multiplication -/

theorem doubleCarryAssign_agree (h : AgreeOps D E) (a : List Nat) (c : Bool) :
    Agree (doubleCarryAssign D a c) (doubleCarryAssign E a c) := by
  unfold doubleCarryAssign; agree
macro_rules | `(tactic| agree_step) => `(tactic| with_reducible exact doubleCarryAssign_agree ‹AgreeOps _ _› ..)

theorem mulAddAssignDigit_agree (h : AgreeOps D E) (a : List Nat) (s c : Nat) :
    Agree (mulAddAssignDigit D a s c) (mulAddAssignDigit E a s c) := by
  unfold mulAddAssignDigit; agree
macro_rules | `(tactic| agree_step) => `(tactic| with_reducible exact mulAddAssignDigit_agree ‹AgreeOps _ _› ..)

theorem mulDigitGo_agree (h : AgreeOps D E) (f : Nat) (l m : List Nat) (c : Nat) :
    Agree (mulDigitGo D f l m c) (mulDigitGo E f l m c) := by
  induction l generalizing m c with
  | nil => exact Agree.refl _
  | cons d l ih =>
    cases m with
    | nil => exact Agree.refl _
    | cons e m => unfold mulDigitGo; agree; all_goals exact ih ..
macro_rules | `(tactic| agree_step) => `(tactic| with_reducible exact mulDigitGo_agree ‹AgreeOps _ _› ..)

theorem mulDigitInto_agree (h : AgreeOps D E) (l : List Nat) (f : Nat) (m : List Nat) :
    Agree (mulDigitInto D true l f m) (mulDigitInto E false l f m) := by
  unfold mulDigitInto; agree
macro_rules | `(tactic| agree_step) => `(tactic| with_reducible exact mulDigitInto_agree ‹AgreeOps _ _› ..)

theorem mulPairGo_agree (h : AgreeOps D E) (f g : Nat) (l : List Nat) (p c : Nat) (b : Bool) :
    Agree (mulPairGo D f g l p c b) (mulPairGo E f g l p c b) := by
  induction l generalizing p c b with
  | nil => exact Agree.refl _
  | cons d l ih => unfold mulPairGo; agree; all_goals exact ih ..
macro_rules | `(tactic| agree_step) => `(tactic| with_reducible exact mulPairGo_agree ‹AgreeOps _ _› ..)

theorem mulPairAddAssignDigit_agree (h : AgreeOps D E) (l : List Nat) (f g o : Nat) :
    Agree (mulPairAddAssignDigit D l f g o) (mulPairAddAssignDigit E l f g o) := by
  unfold mulPairAddAssignDigit; agree
macro_rules | `(tactic| agree_step) => `(tactic| with_reducible exact mulPairAddAssignDigit_agree ‹AgreeOps _ _› ..)

theorem div3CarryAssign_agree (h : AgreeOps D E) (l : List Nat) (c : Nat) :
    Agree (div3CarryAssign D l c) (div3CarryAssign E l c) := by
  unfold div3CarryAssign; agree
macro_rules | `(tactic| agree_step) => `(tactic| with_reducible exact div3CarryAssign_agree ‹AgreeOps _ _› ..)

theorem addProdRow_agree (h : AgreeOps D E) (f : Nat) (l m : List Nat) (c : Nat) :
    Agree (addProdRow D f l m c) (addProdRow E f l m c) := by
  induction l generalizing m c with
  | nil => exact Agree.refl _
  | cons d l ih =>
    cases m with
    | nil => exact Agree.refl _
    | cons e m => unfold addProdRow; agree; all_goals exact ih ..
macro_rules | `(tactic| agree_step) => `(tactic| with_reducible exact addProdRow_agree ‹AgreeOps _ _› ..)

theorem mulLongGo_agree (h : AgreeOps D E) (l m : List Nat) (o : Nat) (r : List Nat) :
    Agree (mulLongGo D l m o r) (mulLongGo E l m o r) := by
  induction m generalizing o r with
  | nil => exact Agree.refl _
  | cons d m ih => unfold mulLongGo; agree; all_goals exact ih ..
macro_rules | `(tactic| agree_step) => `(tactic| with_reducible exact mulLongGo_agree ‹AgreeOps _ _› ..)

theorem mulBigLongInto_agree (h : AgreeOps D E) (a b c : List Nat) :
    Agree (mulBigLongInto D a b c) (mulBigLongInto E a b c) := by
  unfold mulBigLongInto; agree
macro_rules | `(tactic| agree_step) => `(tactic| with_reducible exact mulBigLongInto_agree ‹AgreeOps _ _› ..)

theorem squareLongGo_agree (h : AgreeOps D E) (a b c : List Nat) :
    Agree (squareLongGo D a b c) (squareLongGo E a b c) := by
  induction b generalizing a c with
  | nil => unfold squareLongGo; exact Agree.refl _
  | cons d b ih => unfold squareLongGo; agree; all_goals exact ih ..
macro_rules | `(tactic| agree_step) => `(tactic| with_reducible exact squareLongGo_agree ‹AgreeOps _ _› ..)

theorem squareDiagGo_agree (h : AgreeOps D E) : ∀ (a b : List Nat) (c : Bool),
    Agree (squareDiagGo D a b c) (squareDiagGo E a b c)
  | [], b, c => by unfold squareDiagGo; exact Agree.refl _
  | d :: a, [], c => by unfold squareDiagGo; exact Agree.refl _
  | d :: a, [e], c => by unfold squareDiagGo; exact Agree.refl _
  | d :: a, e :: f :: b, c => by
    have ih := squareDiagGo_agree h a b
    unfold squareDiagGo; agree; all_goals exact ih _
macro_rules | `(tactic| agree_step) => `(tactic| with_reducible exact squareDiagGo_agree ‹AgreeOps _ _› ..)

theorem squareLongInto_agree (h : AgreeOps D E) (a b : List Nat) :
    Agree (squareLongInto D true a b) (squareLongInto E false a b) := by
  unfold squareLongInto; agree
macro_rules | `(tactic| agree_step) => `(tactic| with_reducible exact squareLongInto_agree ‹AgreeOps _ _› ..)

theorem incIf_agree (h : AgreeOps D E) (c : Bool) (a : List Nat) (n : Nat) :
    Agree (incIf D c a n) (incIf E c a n) := by
  unfold incIf; agree
macro_rules | `(tactic| agree_step) => `(tactic| with_reducible exact incIf_agree ‹AgreeOps _ _› ..)

theorem karatsubaAdd_agree (h : AgreeOps D E) (s : Nat) (a b c : List Nat) (n : Nat) (d : List Nat) :
    Agree (karatsubaAdd D s a b c n d) (karatsubaAdd E s a b c n d) := by
  unfold karatsubaAdd; agree
macro_rules | `(tactic| agree_step) => `(tactic| with_reducible exact karatsubaAdd_agree ‹AgreeOps _ _› ..)

theorem karatsubaSub_agree (h : AgreeOps D E) (s : Nat) (a b c : List Nat) (n : Nat) (d : List Nat) :
    Agree (karatsubaSub D true s a b c n d) (karatsubaSub E false s a b c n d) := by
  unfold karatsubaSub; agree
macro_rules | `(tactic| agree_step) => `(tactic| with_reducible exact karatsubaSub_agree ‹AgreeOps _ _› ..)

theorem karatsubaMid_agree (h : AgreeOps D E) (g : Bool) (s : Nat) (a b c : List Nat) (n : Nat) (d : List Nat) :
    Agree (karatsubaMid D true g s a b c n d) (karatsubaMid E false g s a b c n d) := by
  unfold karatsubaMid; agree
macro_rules | `(tactic| agree_step) => `(tactic| with_reducible exact karatsubaMid_agree ‹AgreeOps _ _› ..)

theorem karatsubaFinish_agree (h : AgreeOps D E) (s n : Nat) (a b : List Nat) :
    Agree (karatsubaFinish D s n a b) (karatsubaFinish E s n a b) := by
  unfold karatsubaFinish; agree
macro_rules | `(tactic| agree_step) => `(tactic| with_reducible exact karatsubaFinish_agree ‹AgreeOps _ _› ..)

/-- Two multiplication functions agree. -/
def AgreeMul (f g : MulFn) : Prop := ∀ a b c d, Agree (f a b c d) (g a b c d)
theorem AgreeMul.app {f g : MulFn} (h : AgreeMul f g) (a b c d : List Nat) : Agree (f a b c d) (g a b c d) := h a b c d
macro_rules | `(tactic| agree_step) => `(tactic| with_reducible exact AgreeMul.app ‹_› ..)
/-- Two squaring functions agree. -/
def AgreeSquare (f g : SquareFn) : Prop := ∀ a b c, Agree (f a b c) (g a b c)
theorem AgreeSquare.app {f g : SquareFn} (h : AgreeSquare f g) (a b c : List Nat) : Agree (f a b c) (g a b c) := h a b c
macro_rules | `(tactic| agree_step) => `(tactic| with_reducible exact AgreeSquare.app ‹_› ..)

theorem mulKaratsubaInto_agree (h : AgreeOps D E) {f g : MulFn} (hm : AgreeMul f g)
    (a b c d : List Nat) :
    Agree (mulKaratsubaInto D true f a b c d) (mulKaratsubaInto E false g a b c d) := by
  unfold mulKaratsubaInto; agree
theorem squareKaratsubaInto_agree (h : AgreeOps D E) {f g : SquareFn} (hm : AgreeSquare f g)
    (a b c : List Nat) :
    Agree (squareKaratsubaInto D true f a b c) (squareKaratsubaInto E false g a b c) := by
  unfold squareKaratsubaInto; agree

theorem toomEval_agree (h : AgreeOps D E) (n : Nat) (a b c d : List Nat) :
    Agree (toomEval D true n a b c d) (toomEval E false n a b c d) := by
  unfold toomEval; agree
macro_rules | `(tactic| agree_step) => `(tactic| with_reducible exact toomEval_agree ‹AgreeOps _ _› ..)

theorem toomR3First_agree (h : AgreeOps D E) (a : List Nat) (n : Nat) (b : List Nat) (m : Nat) (s : Bool) :
    Agree (toomR3First D a n b m s) (toomR3First E a n b m s) := by
  unfold toomR3First; agree
macro_rules | `(tactic| agree_step) => `(tactic| with_reducible exact toomR3First_agree ‹AgreeOps _ _› ..)

theorem toomR1First_agree (h : AgreeOps D E) (a : List Nat) (n : Nat) (b : List Nat) (m : Nat) (s : Bool) :
    Agree (toomR1First D a n b m s) (toomR1First E a n b m s) := by
  unfold toomR1First; agree
macro_rules | `(tactic| agree_step) => `(tactic| with_reducible exact toomR1First_agree ‹AgreeOps _ _› ..)

theorem toomR2First_agree (h : AgreeOps D E) (a b : List Nat) (n : Nat) (s : Bool) :
    Agree (toomR2First D a b n s) (toomR2First E a b n s) := by
  unfold toomR2First; agree
macro_rules | `(tactic| agree_step) => `(tactic| with_reducible exact toomR2First_agree ‹AgreeOps _ _› ..)

theorem toomR3Second_agree (h : AgreeOps D E) (a : List Nat) (n : Nat) (s : Bool) (b : List Nat) (m : Nat) (r : Bool) :
    Agree (toomR3Second D a n s b m r) (toomR3Second E a n s b m r) := by
  unfold toomR3Second; agree
macro_rules | `(tactic| agree_step) => `(tactic| with_reducible exact toomR3Second_agree ‹AgreeOps _ _› ..)

theorem toomR3Last_agree (h : AgreeOps D E) (a b : List Nat) (n : Nat) (s : Bool) :
    Agree (toomR3Last D a b n s) (toomR3Last E a b n s) := by
  unfold toomR3Last; agree
macro_rules | `(tactic| agree_step) => `(tactic| with_reducible exact toomR3Last_agree ‹AgreeOps _ _› ..)

theorem toomR2Last_agree (h : AgreeOps D E) (a b : List Nat) (n : Nat) (c : List Nat) (m : Nat) (s : Bool) :
    Agree (toomR2Last D a b n c m s) (toomR2Last E a b n c m s) := by
  unfold toomR2Last; agree
macro_rules | `(tactic| agree_step) => `(tactic| with_reducible exact toomR2Last_agree ‹AgreeOps _ _› ..)

theorem toomR1Last_agree (h : AgreeOps D E) (a : List Nat) (n : Nat) (b : List Nat) (m : Nat) :
    Agree (toomR1Last D a n b m) (toomR1Last E a n b m) := by
  unfold toomR1Last; agree
macro_rules | `(tactic| agree_step) => `(tactic| with_reducible exact toomR1Last_agree ‹AgreeOps _ _› ..)

theorem toomInterp_agree (h : AgreeOps D E) (a b c : List Nat) (n : Nat) (d : List Nat) (m : Nat) (s : Bool) (e : List Nat) (k : Nat) (r : Bool) :
    Agree (toomInterp D a b c n d m s e k r) (toomInterp E a b c n d m s e k r) := by
  unfold toomInterp; agree
macro_rules | `(tactic| agree_step) => `(tactic| with_reducible exact toomInterp_agree ‹AgreeOps _ _› ..)

theorem toomSquareInterp_agree (h : AgreeOps D E) (a b c : List Nat) (n : Nat) (d : List Nat) (m : Nat) (e : List Nat) (k : Nat) :
    Agree (toomSquareInterp D a b c n d m e k) (toomSquareInterp E a b c n d m e k) := by
  unfold toomSquareInterp; agree
macro_rules | `(tactic| agree_step) => `(tactic| with_reducible exact toomSquareInterp_agree ‹AgreeOps _ _› ..)

theorem toomRecompose_agree (h : AgreeOps D E) (n : Nat) (a b : List Nat) (m : Nat) (c : List Nat) (k : Nat) (d : List Nat) (j : Nat) :
    Agree (toomRecompose D n a b m c k d j) (toomRecompose E n a b m c k d j) := by
  unfold toomRecompose; agree
macro_rules | `(tactic| agree_step) => `(tactic| with_reducible exact toomRecompose_agree ‹AgreeOps _ _› ..)

theorem mulToom3Into_agree (h : AgreeOps D E) {f g : MulFn} (hm : AgreeMul f g)
    (a b c d : List Nat) :
    Agree (mulToom3Into D true f a b c d) (mulToom3Into E false g a b c d) := by
  unfold mulToom3Into; agree
theorem squareToom3Into_agree (h : AgreeOps D E) {f g : SquareFn} (hm : AgreeSquare f g)
    (a b c : List Nat) :
    Agree (squareToom3Into D true f a b c) (squareToom3Into E false g a b c) := by
  unfold squareToom3Into; agree
macro_rules | `(tactic| agree_step) => `(tactic| with_reducible refine mulKaratsubaInto_agree ‹AgreeOps _ _› ?_ ..)
macro_rules | `(tactic| agree_step) => `(tactic| with_reducible refine squareKaratsubaInto_agree ‹AgreeOps _ _› ?_ ..)
macro_rules | `(tactic| agree_step) => `(tactic| with_reducible refine mulToom3Into_agree ‹AgreeOps _ _› ?_ ..)
macro_rules | `(tactic| agree_step) => `(tactic| with_reducible refine squareToom3Into_agree ‹AgreeOps _ _› ?_ ..)

theorem mulBigIntoWithWork_agree (h : AgreeOps D E) (n : Nat) :
    AgreeMul (mulBigIntoWithWork D true n) (mulBigIntoWithWork E false n) := by
  induction n with
  | zero => intro a b c d; exact Agree.refl _
  | succ n ih => intro a b c d; unfold mulBigIntoWithWork; agree
theorem squareIntoWithWork_agree (h : AgreeOps D E) (n : Nat) :
    AgreeSquare (squareIntoWithWork D true n) (squareIntoWithWork E false n) := by
  induction n with
  | zero => intro a b c; exact Agree.refl _
  | succ n ih => intro a b c; unfold squareIntoWithWork; agree
macro_rules | `(tactic| agree_step) => `(tactic| with_reducible exact mulBigIntoWithWork_agree ‹AgreeOps _ _› _)
macro_rules | `(tactic| agree_step) => `(tactic| with_reducible exact squareIntoWithWork_agree ‹AgreeOps _ _› _)
macro_rules | `(tactic| agree_step) => `(tactic| with_reducible exact AgreeMul.app (mulBigIntoWithWork_agree ‹AgreeOps _ _› _) ..)

theorem mulBigInto_agree (h : AgreeOps D E) (a b c : List Nat) :
    Agree (mulBigInto D true a b c) (mulBigInto E false a b c) := by
  unfold mulBigInto; agree
macro_rules | `(tactic| agree_step) => `(tactic| with_reducible exact mulBigInto_agree ‹AgreeOps _ _› ..)

theorem squareInto_agree (h : AgreeOps D E) (a b : List Nat) :
    Agree (squareInto D true a b) (squareInto E false a b) := by
  unfold squareInto; agree
macro_rules | `(tactic| agree_step) => `(tactic| with_reducible exact squareInto_agree ‹AgreeOps _ _› ..)

/-! ## Division -/

theorem remDigit_agree (h : AgreeOps D E) (a : List Nat) (f : Nat) :
    Agree (remDigit D a f) (remDigit E a f) := by
  unfold remDigit; agree
macro_rules | `(tactic| agree_step) => `(tactic| with_reducible exact remDigit_agree ‹AgreeOps _ _› ..)

theorem divAssignDigit_agree (h : AgreeOps D E) (a : List Nat) (f : Nat) :
    Agree (divAssignDigit D a f) (divAssignDigit E a f) := by
  unfold divAssignDigit; agree
macro_rules | `(tactic| agree_step) => `(tactic| with_reducible exact divAssignDigit_agree ‹AgreeOps _ _› ..)

theorem divPairStep_agree (h : AgreeOps D E) (f g d : Nat) (r : Nat × Nat) :
    Agree (divPairStep D f g d r) (divPairStep E f g d r) := by
  unfold divPairStep; agree
macro_rules | `(tactic| agree_step) => `(tactic| with_reducible exact divPairStep_agree ‹AgreeOps _ _› ..)

theorem divAssignDigitPair_agree (h : AgreeOps D E) (a : List Nat) (f g : Nat) :
    Agree (divAssignDigitPair D a f g) (divAssignDigitPair E a f g) := by
  unfold divAssignDigitPair; agree
macro_rules | `(tactic| agree_step) => `(tactic| with_reducible exact divAssignDigitPair_agree ‹AgreeOps _ _› ..)

theorem longFirst_agree (h : AgreeOps D E) (a : List Nat) (n : Nat) (b : List Nat) (m : Nat) (c d : List Nat) :
    Agree (longFirst D true a n b m c d) (longFirst E false a n b m c d) := by
  unfold longFirst; agree
macro_rules | `(tactic| agree_step) => `(tactic| with_reducible exact longFirst_agree ‹AgreeOps _ _› ..)

theorem longStep_agree (h : AgreeOps D E) (a : List Nat) (n m : Nat) (b c d : List Nat) :
    Agree (longStep D true a n m b c d) (longStep E false a n m b c d) := by
  unfold longStep; agree
macro_rules | `(tactic| agree_step) => `(tactic| with_reducible exact longStep_agree ‹AgreeOps _ _› ..)

theorem longLoop_agree (h : AgreeOps D E) (a : List Nat) (n m : Nat) (b c d : List Nat) :
    Agree (longLoop D true a n m b c d) (longLoop E false a n m b c d) := by
  induction m generalizing b c d with
  | zero => exact Agree.refl _
  | succ m ih => unfold longLoop; agree; all_goals exact ih ..
macro_rules | `(tactic| agree_step) => `(tactic| with_reducible exact longLoop_agree ‹AgreeOps _ _› ..)

theorem divBigLongScaled_agree (h : AgreeOps D E) (a : List Nat) (n : Nat) (b c d : List Nat) :
    Agree (divBigLongScaled D true a n b c d) (divBigLongScaled E false a n b c d) := by
  unfold divBigLongScaled; agree
macro_rules | `(tactic| agree_step) => `(tactic| with_reducible exact divBigLongScaled_agree ‹AgreeOps _ _› ..)

theorem divBigLong_agree (h : AgreeOps D E) (a b c d : List Nat) :
    Agree (divBigLong D true a b c d) (divBigLong E false a b c d) := by
  unfold divBigLong; agree
macro_rules | `(tactic| agree_step) => `(tactic| with_reducible exact divBigLong_agree ‹AgreeOps _ _› ..)

theorem bzCorrect_agree (h : AgreeOps D E) (a b : List Nat) (n : Nat) (c d : List Nat) (m : Nat) :
    Agree (bzCorrect D a b n c d m) (bzCorrect E a b n c d m) := by
  induction n generalizing c d m with
  | zero => exact Agree.refl _
  | succ n ih => unfold bzCorrect; agree; all_goals exact ih ..
macro_rules | `(tactic| agree_step) => `(tactic| with_reducible exact bzCorrect_agree ‹AgreeOps _ _› ..)

/-- Two division functions agree. -/
def AgreeDiv (f g : DivFn) : Prop := ∀ a b c d, Agree (f a b c d) (g a b c d)
/-- Two division functions agree. -/
def AgreeDivRes (f g : DivResFn) : Prop := ∀ a b c d, Agree (f a b c d) (g a b c d)
theorem AgreeDiv.app {f g : DivFn} (h : AgreeDiv f g) (a b c d : List Nat) : Agree (f a b c d) (g a b c d) := h a b c d
macro_rules | `(tactic| agree_step) => `(tactic| with_reducible exact AgreeDiv.app ‹_› ..)
theorem AgreeDivRes.app {f g : DivResFn} (h : AgreeDivRes f g) (a b c d : List Nat) : Agree (f a b c d) (g a b c d) := h a b c d
macro_rules | `(tactic| agree_step) => `(tactic| with_reducible exact AgreeDivRes.app ‹_› ..)

theorem divBz3n2n_agree (h : AgreeOps D E) {f g : DivFn} (hm : AgreeDiv f g) (a b c d : List Nat) :
    Agree (divBz3n2n D true f a b c d) (divBz3n2n E false g a b c d) := by
  unfold divBz3n2n
  rw [h.max]
  agree
macro_rules | `(tactic| agree_step) => `(tactic| with_reducible refine divBz3n2n_agree ‹AgreeOps _ _› ?_ ..)

theorem divBz2n1n_agree (h : AgreeOps D E) {f g : DivResFn} (hm : AgreeDivRes f g) (n : Nat) :
    AgreeDiv (divBz2n1n D true f n) (divBz2n1n E false g n) := by
  induction n with
  | zero => intro a b c d; exact Agree.refl _
  | succ n ih => intro a b c d; unfold divBz2n1n; agree

theorem bzBlocks_agree {f g : DivFn} (hm : AgreeDiv f g) (s : List Nat) (n i : Nat)
    (a b c : List Nat) : Agree (bzBlocks f s n i a b c) (bzBlocks g s n i a b c) := by
  induction i generalizing a b c with
  | zero => exact Agree.refl _
  | succ i ih => unfold bzBlocks; agree; all_goals exact ih ..

theorem divBigBz_agree (h : AgreeOps D E) {f g : DivResFn} (hm : AgreeDivRes f g) :
    AgreeDiv (divBigBz D true f) (divBigBz E false g) := by
  intro a b c d
  have hz := fun n => divBz2n1n_agree h hm n
  unfold divBigBz; agree
  exact bzBlocks_agree (hz _) ..

theorem divBigWithWorkGen_agree (h : AgreeOps D E) {f g : DivFn} (hm : AgreeDiv f g) :
    AgreeDivRes (divBigWithWorkGen D true f) (divBigWithWorkGen E false g) := by
  intro a b c d
  unfold divBigWithWorkGen; agree

theorem divBigWithWork_agree (h : AgreeOps D E) :
    AgreeDivRes (divBigWithWork D true) (divBigWithWork E false) :=
  divBigWithWorkGen_agree h (divBigBz_agree h (divBigWithWorkGen_agree h fun _ _ _ _ => Agree.refl _))
macro_rules | `(tactic| agree_step) => `(tactic| with_reducible exact AgreeDivRes.app (divBigWithWork_agree ‹AgreeOps _ _›) ..)

theorem divBig_agree (h : AgreeOps D E) (a b c : List Nat) :
    Agree (divBig D true a b c) (divBig E false a b c) := by
  unfold divBig; agree
macro_rules | `(tactic| agree_step) => `(tactic| with_reducible exact divBig_agree ‹AgreeOps _ _› ..)

/-! ## Numbers -/

theorem addAtOffset_agree (h : AgreeOps D E) (a b : List Nat) (n : Nat) :
    Agree (addAtOffset D a b n) (addAtOffset E a b n) := by
  unfold addAtOffset; agree
macro_rules | `(tactic| agree_step) => `(tactic| with_reducible exact addAtOffset_agree ‹AgreeOps _ _› ..)

theorem addBig_agree (h : AgreeOps D E) (a b : List Nat) :
    Agree (addBig D a b) (addBig E a b) := by
  unfold addBig; agree
macro_rules | `(tactic| agree_step) => `(tactic| with_reducible exact addBig_agree ‹AgreeOps _ _› ..)

theorem addDigit_agree (h : AgreeOps D E) (a : List Nat) (n : Nat) :
    Agree (addDigit D a n) (addDigit E a n) := by
  unfold addDigit; agree
macro_rules | `(tactic| agree_step) => `(tactic| with_reducible exact addDigit_agree ‹AgreeOps _ _› ..)

theorem addWordDec_agree (h : AgreeOps D E) (r : Nat) (a : List Nat) (n : Nat) :
    Agree (addWordDec D r a n) (addWordDec E r a n) := by
  unfold addWordDec; agree
macro_rules | `(tactic| agree_step) => `(tactic| with_reducible exact addWordDec_agree ‹AgreeOps _ _› ..)

theorem subAtOffset_agree (h : AgreeOps D E) (a b : List Nat) (n : Nat) :
    Agree (subAtOffset D a b n) (subAtOffset E a b n) := by
  unfold subAtOffset; agree
macro_rules | `(tactic| agree_step) => `(tactic| with_reducible exact subAtOffset_agree ‹AgreeOps _ _› ..)

theorem subBig_agree (h : AgreeOps D E) (a b : List Nat) :
    Agree (subBig D a b) (subBig E a b) := by
  unfold subBig; agree
macro_rules | `(tactic| agree_step) => `(tactic| with_reducible exact subBig_agree ‹AgreeOps _ _› ..)

theorem subDigit_agree (h : AgreeOps D E) (a : List Nat) (n : Nat) :
    Agree (subDigit D a n) (subDigit E a n) := by
  unfold subDigit; agree
macro_rules | `(tactic| agree_step) => `(tactic| with_reducible exact subDigit_agree ‹AgreeOps _ _› ..)

theorem subWordDec_agree (h : AgreeOps D E) (r : Nat) (a : List Nat) (n : Nat) :
    Agree (subWordDec D r a n) (subWordDec E r a n) := by
  unfold subWordDec; agree
macro_rules | `(tactic| agree_step) => `(tactic| with_reducible exact subWordDec_agree ‹AgreeOps _ _› ..)

theorem mulAddDigit_agree (h : AgreeOps D E) (a : List Nat) (n m : Nat) :
    Agree (mulAddDigit D a n m) (mulAddDigit E a n m) := by
  unfold mulAddDigit; agree
macro_rules | `(tactic| agree_step) => `(tactic| with_reducible exact mulAddDigit_agree ‹AgreeOps _ _› ..)

theorem mulPairAddDigit_agree (h : AgreeOps D E) (a : List Nat) (n m o : Nat) :
    Agree (mulPairAddDigit D a n m o) (mulPairAddDigit E a n m o) := by
  unfold mulPairAddDigit; agree
macro_rules | `(tactic| agree_step) => `(tactic| with_reducible exact mulPairAddDigit_agree ‹AgreeOps _ _› ..)

theorem mulDigit_agree (h : AgreeOps D E) (a : List Nat) (n : Nat) :
    Agree (mulDigit D a n) (mulDigit E a n) := by
  unfold mulDigit; agree
macro_rules | `(tactic| agree_step) => `(tactic| with_reducible exact mulDigit_agree ‹AgreeOps _ _› ..)

theorem mulWordDec_agree (h : AgreeOps D E) (r : Nat) (a : List Nat) (n : Nat) :
    Agree (mulWordDec D r a n) (mulWordDec E r a n) := by
  unfold mulWordDec; agree
macro_rules | `(tactic| agree_step) => `(tactic| with_reducible exact mulWordDec_agree ‹AgreeOps _ _› ..)

theorem mulBig_agree (h : AgreeOps D E) (a b : List Nat) :
    Agree (mulBig D true a b) (mulBig E false a b) := by
  unfold mulBig; agree
macro_rules | `(tactic| agree_step) => `(tactic| with_reducible exact mulBig_agree ‹AgreeOps _ _› ..)

theorem square_agree (h : AgreeOps D E) (a : List Nat) :
    Agree (square D true a) (square E false a) := by
  unfold square; agree
macro_rules | `(tactic| agree_step) => `(tactic| with_reducible exact square_agree ‹AgreeOps _ _› ..)

theorem powLoop_agree (h : AgreeOps D E) (n : Nat) (a b : List Nat) (m : Nat) :
    Agree (powLoop D true n a b m) (powLoop E false n a b m) := by
  induction n generalizing a b m with
  | zero => exact Agree.refl _
  | succ n ih => unfold powLoop; agree; all_goals exact ih ..
macro_rules | `(tactic| agree_step) => `(tactic| with_reducible exact powLoop_agree ‹AgreeOps _ _› ..)

theorem pow_agree (h : AgreeOps D E) (a : List Nat) (n : Nat) :
    Agree (pow D true a n) (pow E false a n) := by
  unfold pow; agree
macro_rules | `(tactic| agree_step) => `(tactic| with_reducible exact pow_agree ‹AgreeOps _ _› ..)

theorem divDigitAssign_agree (h : AgreeOps D E) (a : List Nat) (n : Nat) :
    Agree (divDigitAssign D a n) (divDigitAssign E a n) := by
  unfold divDigitAssign; agree
macro_rules | `(tactic| agree_step) => `(tactic| with_reducible exact divDigitAssign_agree ‹AgreeOps _ _› ..)

theorem divPairAssign_agree (h : AgreeOps D E) (a : List Nat) (n m : Nat) :
    Agree (divPairAssign D a n m) (divPairAssign E a n m) := by
  unfold divPairAssign; agree
macro_rules | `(tactic| agree_step) => `(tactic| with_reducible exact divPairAssign_agree ‹AgreeOps _ _› ..)

theorem divAssignBig_agree (h : AgreeOps D E) (a b : List Nat) :
    Agree (divAssignBig D true a b) (divAssignBig E false a b) := by
  unfold divAssignBig; agree
macro_rules | `(tactic| agree_step) => `(tactic| with_reducible exact divAssignBig_agree ‹AgreeOps _ _› ..)

theorem remAssignBig_agree (h : AgreeOps D E) (a b : List Nat) :
    Agree (remAssignBig D true a b) (remAssignBig E false a b) := by
  unfold remAssignBig; agree
macro_rules | `(tactic| agree_step) => `(tactic| with_reducible exact remAssignBig_agree ‹AgreeOps _ _› ..)

theorem divOp_agree (h : AgreeOps D E) (a b : List Nat) :
    Agree (divOp D true a b) (divOp E false a b) := by
  unfold divOp; agree
macro_rules | `(tactic| agree_step) => `(tactic| with_reducible exact divOp_agree ‹AgreeOps _ _› ..)

theorem remOp_agree (h : AgreeOps D E) (a b : List Nat) :
    Agree (remOp D true a b) (remOp E false a b) := by
  unfold remOp; agree
macro_rules | `(tactic| agree_step) => `(tactic| with_reducible exact remOp_agree ‹AgreeOps _ _› ..)

theorem divDigit_agree (h : AgreeOps D E) (a : List Nat) (n : Nat) :
    Agree (divDigit D a n) (divDigit E a n) := by
  unfold divDigit; agree
macro_rules | `(tactic| agree_step) => `(tactic| with_reducible exact divDigit_agree ‹AgreeOps _ _› ..)

theorem divWordDec_agree (h : AgreeOps D E) (r : Nat) (a : List Nat) (n : Nat) :
    Agree (divWordDec D r a n) (divWordDec E r a n) := by
  unfold divWordDec; agree
macro_rules | `(tactic| agree_step) => `(tactic| with_reducible exact divWordDec_agree ‹AgreeOps _ _› ..)

theorem remDigitAssign_agree (h : AgreeOps D E) (a : List Nat) (n : Nat) :
    Agree (remDigitAssign D a n) (remDigitAssign E a n) := by
  unfold remDigitAssign; agree
macro_rules | `(tactic| agree_step) => `(tactic| with_reducible exact remDigitAssign_agree ‹AgreeOps _ _› ..)

theorem remDigitOp_agree (h : AgreeOps D E) (a : List Nat) (n : Nat) :
    Agree (remDigitOp D a n) (remDigitOp E a n) := by
  unfold remDigitOp; agree
macro_rules | `(tactic| agree_step) => `(tactic| with_reducible exact remDigitOp_agree ‹AgreeOps _ _› ..)

theorem remWordDec_agree (h : AgreeOps D E) (r : Nat) (a : List Nat) (n : Nat) :
    Agree (remWordDec D r a n) (remWordDec E r a n) := by
  unfold remWordDec; agree
macro_rules | `(tactic| agree_step) => `(tactic| with_reducible exact remWordDec_agree ‹AgreeOps _ _› ..)

theorem shlBin_agree (h : AgreeOps D E) (w : Nat) (a : List Nat) (n : Nat) :
    Agree (shlBin D w a n) (shlBin E w a n) := by
  unfold shlBin; agree
macro_rules | `(tactic| agree_step) => `(tactic| with_reducible exact shlBin_agree ‹AgreeOps _ _› ..)

theorem shlDec_agree (h : AgreeOps D E) (m : Nat) (a : List Nat) (n : Nat) :
    Agree (shlDec D true m a n) (shlDec E false m a n) := by
  unfold shlDec; agree
macro_rules | `(tactic| agree_step) => `(tactic| with_reducible exact shlDec_agree ‹AgreeOps _ _› ..)

theorem shrBin_agree (h : AgreeOps D E) (w : Nat) (a : List Nat) (n : Nat) :
    Agree (shrBin D w a n) (shrBin E w a n) := by
  unfold shrBin; agree
macro_rules | `(tactic| agree_step) => `(tactic| with_reducible exact shrBin_agree ‹AgreeOps _ _› ..)

theorem shrDec_agree (h : AgreeOps D E) (m : Nat) (a : List Nat) (n : Nat) :
    Agree (shrDec D m a n) (shrDec E m a n) := by
  unfold shrDec; agree
macro_rules | `(tactic| agree_step) => `(tactic| with_reducible exact shrDec_agree ‹AgreeOps _ _› ..)

end Babs
