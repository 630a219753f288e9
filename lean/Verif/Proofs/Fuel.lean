import Verif.Model.Text
import Verif.Proofs.Basic

/-!
# Helper lemmas: no recursion of the model runs out of fuel

`Nf x`: the computation `x` does not run out of fuel.  The property goes through every function of the
model; the functions with fuel need bounds for the lengths of their operands.
-/

namespace Babs

/-- Does not run out of fuel. -/
structure Nf {α : Type} (x : R α) : Prop where
  ne : x ≠ .error .noFuel

theorem Nf.triv {α : Type} {a : α} : Nf (.ok a : R α) := ⟨nofun⟩

theorem Nf.pure {α : Type} {a : α} : Nf (Pure.pure a : R α) := Nf.triv

theorem Nf.err {α : Type} {p : Panic} (h : p ≠ .noFuel) : Nf (.error p : R α) := by
  refine ⟨fun e => ?_⟩
  injection e
  contradiction

theorem Nf.throw {α : Type} {p : Panic} (h : p ≠ .noFuel) : Nf (MonadExcept.throw p : R α) := Nf.err h

theorem Nf.bind {α β : Type} {x : R α} {f : α → R β} (h : Nf x) (hf : ∀ a, Nf (f a)) :
    Nf (x >>= f) := by
  cases x with
  | error e => exact ⟨fun h' => h.ne (by injection h' with h'; rw [h'])⟩
  | ok a => exact hf a

/-- The same, with what is known about the value. -/
theorem Nf.bind' {α β : Type} {x : R α} {f : α → R β} {P : α → Prop} (h : Nf x)
    (hP : ∀ a, x = .ok a → P a) (hf : ∀ a, P a → Nf (f a)) : Nf (x >>= f) := by
  cases x with
  | error e => exact ⟨fun h' => h.ne (by injection h' with h'; rw [h'])⟩
  | ok a => exact hf a (hP a rfl)

theorem Nf.ite {α : Type} {c : Prop} [Decidable c] {x x' : R α} (h : Nf x) (h' : Nf x') :
    Nf (if c then x else x') := by
  split
  · exact h
  · exact h'

/-- One step of a proof of `Nf`: the lemmas about the functions of the model are added to it. -/
syntax "nf_step" : tactic

macro_rules | `(tactic| nf_step) => `(tactic| split)
macro_rules | `(tactic| nf_step) => `(tactic| with_reducible refine Nf.ite ?_ ?_)
macro_rules | `(tactic| nf_step) => `(tactic| with_reducible refine Nf.bind ?_ ?_)
macro_rules | `(tactic| nf_step) => `(tactic| intro _)
macro_rules | `(tactic| nf_step) => `(tactic| with_reducible assumption)
macro_rules | `(tactic| nf_step) => `(tactic| with_reducible exact Nf.throw (by decide))
macro_rules | `(tactic| nf_step) => `(tactic| with_reducible exact Nf.err (by decide))
macro_rules | `(tactic| nf_step) => `(tactic| with_reducible exact Nf.triv)
macro_rules | `(tactic| nf_step) => `(tactic| with_reducible exact Nf.pure)

/-- Prove `Nf` step by step. -/
macro "nf" : tactic => `(tactic| repeat' (first | nf_step | (dsimp only; nf_step)))

/-! ## Machine arithmetic -/

theorem addW_nf (dbg : Bool) (w a b : Nat) : Nf (addW dbg w a b) := by
  unfold addW; split_ifs <;> first | exact Nf.triv | exact Nf.err (by decide)
macro_rules | `(tactic| nf_step) => `(tactic| with_reducible exact addW_nf ..)
theorem subW_nf (dbg : Bool) (w a b : Nat) : Nf (subW dbg w a b) := by
  unfold subW; split_ifs <;> first | exact Nf.triv | exact Nf.err (by decide)
macro_rules | `(tactic| nf_step) => `(tactic| with_reducible exact subW_nf ..)
theorem mulW_nf (dbg : Bool) (w a b : Nat) : Nf (mulW dbg w a b) := by
  unfold mulW; split_ifs <;> first | exact Nf.triv | exact Nf.err (by decide)
macro_rules | `(tactic| nf_step) => `(tactic| with_reducible exact mulW_nf ..)
theorem shlW_nf (dbg : Bool) (w a b : Nat) : Nf (shlW dbg w a b) := by
  unfold shlW; split_ifs <;> first | exact Nf.triv | exact Nf.err (by decide)
macro_rules | `(tactic| nf_step) => `(tactic| with_reducible exact shlW_nf ..)
theorem shrW_nf (dbg : Bool) (w a b : Nat) : Nf (shrW dbg w a b) := by
  unfold shrW; split_ifs <;> first | exact Nf.triv | exact Nf.err (by decide)
macro_rules | `(tactic| nf_step) => `(tactic| with_reducible exact shrW_nf ..)
theorem divW_nf (a b : Nat) : Nf (divW a b) := by
  unfold divW; split_ifs <;> first | exact Nf.triv | exact Nf.err (by decide)
macro_rules | `(tactic| nf_step) => `(tactic| with_reducible exact divW_nf ..)
theorem remW_nf (a b : Nat) : Nf (remW a b) := by
  unfold remW; split_ifs <;> first | exact Nf.triv | exact Nf.err (by decide)
macro_rules | `(tactic| nf_step) => `(tactic| with_reducible exact remW_nf ..)
theorem assertR_nf (c : Bool) : Nf (assertR c) := by
  unfold assertR; split_ifs <;> first | exact Nf.triv | exact Nf.err (by decide)
macro_rules | `(tactic| nf_step) => `(tactic| with_reducible exact assertR_nf ..)
theorem debugAssertR_nf (dbg c : Bool) : Nf (debugAssertR dbg c) := by
  unfold debugAssertR; split_ifs <;> first | exact Nf.triv | exact Nf.err (by decide)
macro_rules | `(tactic| nf_step) => `(tactic| with_reducible exact debugAssertR_nf ..)
theorem slice_nf (l : List Nat) (a b : Nat) : Nf (slice l a b) := by
  unfold slice; split_ifs <;> first | exact Nf.triv | exact Nf.err (by decide)
macro_rules | `(tactic| nf_step) => `(tactic| with_reducible exact slice_nf ..)
theorem splitAtR_nf (l : List Nat) (k : Nat) : Nf (splitAtR l k) := by
  unfold splitAtR; split_ifs <;> first | exact Nf.triv | exact Nf.err (by decide)
macro_rules | `(tactic| nf_step) => `(tactic| with_reducible exact splitAtR_nf ..)
theorem getR_nf (l : List Nat) (k : Nat) : Nf (getR l k) := by
  unfold getR; split <;> first | exact Nf.triv | exact Nf.err (by decide)
macro_rules | `(tactic| nf_step) => `(tactic| with_reducible exact getR_nf ..)
theorem setR_nf (l : List Nat) (k v : Nat) : Nf (setR l k v) := by
  unfold setR; split_ifs <;> first | exact Nf.triv | exact Nf.err (by decide)
macro_rules | `(tactic| nf_step) => `(tactic| with_reducible exact setR_nf ..)
theorem unwrapR_nf {α : Type} (r : Res α) : Nf (unwrapR r) := by
  cases r
  · exact Nf.err (by decide)
  · exact Nf.triv
macro_rules | `(tactic| nf_step) => `(tactic| with_reducible exact unwrapR_nf ..)
theorem copyInto_nf (l : List Nat) (a b : Nat) (s : List Nat) : Nf (copyInto l a b s) := by
  unfold copyInto; nf
macro_rules | `(tactic| nf_step) => `(tactic| with_reducible exact copyInto_nf ..)
theorem dropLeadingZeros_nf (l : List Nat) (n : Nat) : Nf (dropLeadingZeros l n) := by
  unfold dropLeadingZeros
  induction n with
  | zero => exact Nf.triv
  | succ n ih => unfold dropZerosGo; nf
macro_rules | `(tactic| nf_step) => `(tactic| with_reducible exact dropLeadingZeros_nf ..)
theorem pushCarry_nf (l : List Nat) (n : Nat) (c : Bool) : Nf (pushCarry l n c) := by
  unfold pushCarry; nf
macro_rules | `(tactic| nf_step) => `(tactic| with_reducible exact pushCarry_nf ..)
theorem firstTooLarge_nf (l : List Nat) (n m : Nat) (q : List Nat) : Nf (firstTooLarge l n m q) := by
  unfold firstTooLarge; nf
macro_rules | `(tactic| nf_step) => `(tactic| with_reducible exact firstTooLarge_nf ..)
theorem normalise_nf (l : List Nat) : Nf (normalise l) := by
  unfold normalise; nf
macro_rules | `(tactic| nf_step) => `(tactic| with_reducible exact normalise_nf ..)
theorem ubigNew_nf (l : List Nat) : Nf (ubigNew l) := normalise_nf l
macro_rules | `(tactic| nf_step) => `(tactic| with_reducible exact ubigNew_nf ..)

/-! ## Digits -/

/-- The digit operations nf. -/
structure NfOps (D : DigitOps) : Prop where
  maxShift : ∀ a, Nf (D.maxShift a)
  inc : ∀ a, Nf (D.inc a)
  dec : ∀ a, Nf (D.dec a)
  addCarry : ∀ a b c, Nf (D.addCarry a b c)
  subCarry : ∀ a b c, Nf (D.subCarry a b c)
  shlCarry : ∀ a b c, Nf (D.shlCarry a b c)
  shrCarry : ∀ a b c, Nf (D.shrCarry a b c)
  doubleCarry : ∀ a b, Nf (D.doubleCarry a b)
  mulCarry : ∀ a b c, Nf (D.mulCarry a b c)
  remCarry : ∀ a b c, Nf (D.remCarry a b c)
  divCarry : ∀ a b c, Nf (D.divCarry a b c)
  div3Carry : ∀ a b, Nf (D.div3Carry a b)
  addProd : ∀ a b c d, Nf (D.addProd a b c d)
  subProd : ∀ a b c d, Nf (D.subProd a b c d)

theorem binOps_nf (dbg : Bool) (w : Nat) : NfOps (binOps dbg w) where
  maxShift a := Nf.triv
  inc a := Nf.triv
  dec a := Nf.triv
  addCarry a b c := Nf.triv
  subCarry a b c := Nf.triv
  shlCarry a b c := by simp only [binOps, Bin.shlCarry]; nf
  shrCarry a b c := by simp only [binOps, Bin.shrCarry]; nf
  doubleCarry a b := by simp only [binOps, Bin.doubleCarry]; nf
  mulCarry a b c := by simp only [binOps, Bin.mulCarry]; nf
  remCarry a b c := by simp only [binOps, Bin.remCarry]; nf
  divCarry a b c := by simp only [binOps, Bin.divCarry]; nf
  div3Carry a b := by
    simp only [binOps]
    split
    · simp only [Bin.div3Carry64]; nf
    · simp only [Bin.div3Carry]; nf
  addProd a b c d := by simp only [binOps, Bin.addProd]; nf
  subProd a b c d := by simp only [binOps, Bin.subProd]; nf

theorem decSubCarry_nf (dbg : Bool) (w rx a b : Nat) (c : Bool) :
    Nf (Dec.subCarry dbg w rx a b c) := by
  unfold Dec.subCarry; nf
macro_rules | `(tactic| nf_step) => `(tactic| with_reducible exact decSubCarry_nf ..)

theorem decOps_nf (dbg : Bool) (w rx : Nat) : NfOps (decOps dbg w rx) where
  maxShift a := by simp only [decOps, Dec.maxShift]; nf
  inc a := by simp only [decOps, Dec.inc]; nf
  dec a := by simp only [decOps, Dec.dec]; nf
  addCarry a b c := by simp only [decOps, Dec.addCarry]; nf
  subCarry a b c := decSubCarry_nf ..
  shlCarry a b c := by simp only [decOps, Dec.shlCarry]; nf
  shrCarry a b c := by simp only [decOps, Dec.shrCarry]; nf
  doubleCarry a b := by simp only [decOps, Dec.doubleCarry]; nf
  mulCarry a b c := by simp only [decOps, Dec.mulCarry]; nf
  remCarry a b c := by simp only [decOps, Dec.remCarry]; nf
  divCarry a b c := by simp only [decOps, Dec.divCarry]; nf
  div3Carry a b := by simp only [decOps, Dec.div3Carry]; nf
  addProd a b c d := by simp only [decOps, Dec.addProd]; nf
  subProd a b c d := by simp only [decOps, Dec.subProd]; nf

theorem divRemBase_nf (dbg : Bool) (n : Nat) : Nf (Dec64.divRemBase dbg n) := by
  unfold Dec64.divRemBase; nf
macro_rules | `(tactic| nf_step) => `(tactic| with_reducible exact divRemBase_nf ..)

theorem dec64Ops_nf (dbg : Bool) : NfOps (dec64Ops dbg) where
  maxShift := (decOps_nf dbg 64 Dec64.radix).maxShift
  inc := (decOps_nf dbg 64 Dec64.radix).inc
  dec := (decOps_nf dbg 64 Dec64.radix).dec
  addCarry a b c := by simp only [dec64Ops, Dec64.addCarry]; nf
  subCarry := (decOps_nf dbg 64 Dec64.radix).subCarry
  shlCarry a b c := by simp only [dec64Ops, Dec64.shlCarry]; nf
  shrCarry := (decOps_nf dbg 64 Dec64.radix).shrCarry
  doubleCarry a b := by simp only [dec64Ops, Dec64.doubleCarry]; nf
  mulCarry a b c := by simp only [dec64Ops, Dec64.mulCarry]; nf
  remCarry := (decOps_nf dbg 64 Dec64.radix).remCarry
  divCarry := (decOps_nf dbg 64 Dec64.radix).divCarry
  div3Carry a b := by simp only [dec64Ops, Dec64.div3Carry]; nf
  addProd a b c d := by simp only [dec64Ops, Dec64.addProd]; nf
  subProd a b c d := by simp only [dec64Ops, Dec64.subProd]; nf

theorem ops_nf (t : DType) (dbg : Bool) : NfOps (t.ops dbg) := by
  rcases t with w | w
  · exact binOps_nf _ _
  · cases w
    · exact decOps_nf _ _ _
    · exact decOps_nf _ _ _
    · exact decOps_nf _ _ _
    · exact dec64Ops_nf _

macro_rules | `(tactic| nf_step) => `(tactic| with_reducible exact NfOps.maxShift ‹NfOps _› ..)
macro_rules | `(tactic| nf_step) => `(tactic| with_reducible exact NfOps.inc ‹NfOps _› ..)
macro_rules | `(tactic| nf_step) => `(tactic| with_reducible exact NfOps.dec ‹NfOps _› ..)
macro_rules | `(tactic| nf_step) => `(tactic| with_reducible exact NfOps.addCarry ‹NfOps _› ..)
macro_rules | `(tactic| nf_step) => `(tactic| with_reducible exact NfOps.subCarry ‹NfOps _› ..)
macro_rules | `(tactic| nf_step) => `(tactic| with_reducible exact NfOps.shlCarry ‹NfOps _› ..)
macro_rules | `(tactic| nf_step) => `(tactic| with_reducible exact NfOps.shrCarry ‹NfOps _› ..)
macro_rules | `(tactic| nf_step) => `(tactic| with_reducible exact NfOps.doubleCarry ‹NfOps _› ..)
macro_rules | `(tactic| nf_step) => `(tactic| with_reducible exact NfOps.mulCarry ‹NfOps _› ..)
macro_rules | `(tactic| nf_step) => `(tactic| with_reducible exact NfOps.remCarry ‹NfOps _› ..)
macro_rules | `(tactic| nf_step) => `(tactic| with_reducible exact NfOps.divCarry ‹NfOps _› ..)
macro_rules | `(tactic| nf_step) => `(tactic| with_reducible exact NfOps.div3Carry ‹NfOps _› ..)
macro_rules | `(tactic| nf_step) => `(tactic| with_reducible exact NfOps.addProd ‹NfOps _› ..)
macro_rules | `(tactic| nf_step) => `(tactic| with_reducible exact NfOps.subProd ‹NfOps _› ..)

/-! ## Loops over digits -/

theorem onSlice_nf {α : Type} {f : List Nat → R (List Nat × α)} (h : ∀ s, Nf (f s))
    (l : List Nat) (a b : Nat) : Nf (onSlice l a b f) := by
  unfold onSlice
  refine Nf.bind (slice_nf ..) fun s => Nf.bind (h s) fun _ => Nf.triv
macro_rules | `(tactic| nf_step) => `(tactic| with_reducible refine onSlice_nf ?_ _ _ _)

theorem foldDigits_nf {C : Type} {f : Nat → C → R (Nat × C)} (h : ∀ d c, Nf (f d c))
    (l : List Nat) : ∀ c, Nf (foldDigits f l c) := by
  induction l with
  | nil => intro c; exact Nf.triv
  | cons d l ih =>
    intro c
    unfold foldDigits
    exact Nf.bind (h _ _) fun a => Nf.bind (ih _) fun _ => Nf.triv
macro_rules | `(tactic| nf_step) => `(tactic| with_reducible refine foldDigits_nf ?_ _ _)

theorem foldDigitsRev_nf {C : Type} {f : Nat → C → R (Nat × C)}
    (h : ∀ d c, Nf (f d c)) (l : List Nat) :
    ∀ c, Nf (foldDigitsRev f l c) := by
  induction l with
  | nil => intro c; exact Nf.triv
  | cons d l ih =>
    intro c
    unfold foldDigitsRev
    exact Nf.bind (ih _) fun a => Nf.bind (h _ _) fun _ => Nf.triv
macro_rules | `(tactic| nf_step) => `(tactic| with_reducible refine foldDigitsRev_nf ?_ _ _)

theorem readRev_nf {C : Type} {f : Nat → C → R C} (h : ∀ d c, Nf (f d c))
    (l : List Nat) : ∀ c, Nf (readRev f l c) := by
  induction l with
  | nil => intro c; exact Nf.triv
  | cons d l ih =>
    intro c
    unfold readRev
    exact Nf.bind (ih _) fun a => h _ _
macro_rules | `(tactic| nf_step) => `(tactic| with_reducible refine readRev_nf ?_ _ _)

theorem zipDigits_nf {C : Type} {f : Nat → Nat → C → R (Nat × C)}
    (h : ∀ d e c, Nf (f d e c)) (l : List Nat) :
    ∀ m c, Nf (zipDigits f l m c) := by
  induction l with
  | nil => intro m c; exact Nf.triv
  | cons d l ih =>
    intro m c
    cases m with
    | nil => exact Nf.triv
    | cons e m =>
      unfold zipDigits
      exact Nf.bind (h _ _ _) fun a => Nf.bind (ih _ _) fun _ => Nf.triv
macro_rules | `(tactic| nf_step) => `(tactic| with_reducible refine zipDigits_nf ?_ _ _ _)

theorem zipInto_nf {C : Type} {f : Nat → Nat → C → R (Nat × C)}
    (h : ∀ d e c, Nf (f d e c)) (l : List Nat) :
    ∀ m o c, Nf (zipInto f l m o c) := by
  induction l with
  | nil => intro m o c; exact Nf.triv
  | cons d l ih =>
    intro m o c
    cases m with
    | nil => exact Nf.triv
    | cons e m =>
      cases o with
      | nil => exact Nf.triv
      | cons q o =>
        unfold zipInto
        exact Nf.bind (h _ _ _) fun a => Nf.bind (ih _ _ _) fun _ => Nf.triv
macro_rules | `(tactic| nf_step) => `(tactic| with_reducible refine zipInto_nf ?_ _ _ _ _)

variable {D : DigitOps} {dbg : Bool}

theorem incAssign_nf (h : NfOps D) (l : List Nat) :
    Nf (incAssign D l) := by
  induction l with
  | nil => exact Nf.triv
  | cons d l ih => unfold incAssign; nf
macro_rules | `(tactic| nf_step) => `(tactic| with_reducible exact incAssign_nf ‹NfOps _› ..)

theorem addAssignDigit_nf (h : NfOps D) (l : List Nat) (d : Nat) :
    Nf (addAssignDigit D l d) := by
  unfold addAssignDigit; nf
macro_rules | `(tactic| nf_step) => `(tactic| with_reducible exact addAssignDigit_nf ‹NfOps _› ..)

theorem addAssignBig_nf (h : NfOps D) (a b : List Nat) :
    Nf (addAssignBig D a b) := by
  unfold addAssignBig; nf
macro_rules | `(tactic| nf_step) => `(tactic| with_reducible exact addAssignBig_nf ‹NfOps _› ..)

theorem addBigInto_nf (h : NfOps D) (a b c : List Nat) :
    Nf (addBigInto D a b c) := by
  unfold addBigInto; nf
macro_rules | `(tactic| nf_step) => `(tactic| with_reducible exact addBigInto_nf ‹NfOps _› ..)

theorem decGo_nf (h : NfOps D) (n : Nat) (l : List Nat) :
    Nf (decGo D n l) := by
  induction l with
  | nil => exact Nf.triv
  | cons d l ih =>
    cases l with
    | nil => unfold decGo; nf
    | cons e l => unfold decGo; nf
macro_rules | `(tactic| nf_step) => `(tactic| with_reducible exact decGo_nf ‹NfOps _› ..)

theorem decAssign_nf (h : NfOps D) (l : List Nat) :
    Nf (decAssign D l) := by
  unfold decAssign; nf
macro_rules | `(tactic| nf_step) => `(tactic| with_reducible exact decAssign_nf ‹NfOps _› ..)

theorem subAssignDigit_nf (h : NfOps D) (l : List Nat) (d : Nat) :
    Nf (subAssignDigit D l d) := by
  unfold subAssignDigit; nf
macro_rules | `(tactic| nf_step) => `(tactic| with_reducible exact subAssignDigit_nf ‹NfOps _› ..)

theorem subAssignBig_nf (h : NfOps D) (a b : List Nat) :
    Nf (subAssignBig D a b) := by
  unfold subAssignBig; nf
macro_rules | `(tactic| nf_step) => `(tactic| with_reducible exact subAssignBig_nf ‹NfOps _› ..)

theorem subBigInto_nf (h : NfOps D) (a b c : List Nat) :
    Nf (subBigInto D a b c) := by
  unfold subBigInto; nf
macro_rules | `(tactic| nf_step) => `(tactic| with_reducible exact subBigInto_nf ‹NfOps _› ..)

theorem rsubGo_nf (h : NfOps D) (a b : List Nat) (c : Bool) :
    Nf (rsubGo D a b c) := by
  unfold rsubGo; nf
macro_rules | `(tactic| nf_step) => `(tactic| with_reducible exact rsubGo_nf ‹NfOps _› ..)

theorem rsubAssignBig_nf (h : NfOps D) (a b : List Nat) :
    Nf (rsubAssignBig D a b) := by
  unfold rsubAssignBig; nf
macro_rules | `(tactic| nf_step) => `(tactic| with_reducible exact rsubAssignBig_nf ‹NfOps _› ..)

theorem subAssignBigAbsSign_nf (h : NfOps D) (a : List Nat) (n : Nat) (b : List Nat) :
    Nf (subAssignBigAbsSign D a n b) := by
  unfold subAssignBigAbsSign; nf
macro_rules | `(tactic| nf_step) => `(tactic| with_reducible exact subAssignBigAbsSign_nf ‹NfOps _› ..)

theorem subBigIntoAbsSign_nf (h : NfOps D) (a b c : List Nat) :
    Nf (subBigIntoAbsSign D dbg a b c) := by
  unfold subBigIntoAbsSign; nf
macro_rules | `(tactic| nf_step) => `(tactic| with_reducible exact subBigIntoAbsSign_nf ‹NfOps _› ..)

theorem shlWithin_nf (h : NfOps D) (a : List Nat) (s c : Nat) :
    Nf (shlWithin D a s c) := by
  unfold shlWithin; nf
macro_rules | `(tactic| nf_step) => `(tactic| with_reducible exact shlWithin_nf ‹NfOps _› ..)

theorem shrWithin_nf (h : NfOps D) (a : List Nat) (s c : Nat) :
    Nf (shrWithin D a s c) := by
  unfold shrWithin; nf
macro_rules | `(tactic| nf_step) => `(tactic| with_reducible exact shrWithin_nf ‹NfOps _› ..)

/-! ## Multiplication -/

theorem doubleCarryAssign_nf (h : NfOps D) (a : List Nat) (c : Bool) :
    Nf (doubleCarryAssign D a c) := by
  unfold doubleCarryAssign; nf
macro_rules | `(tactic| nf_step) => `(tactic| with_reducible exact doubleCarryAssign_nf ‹NfOps _› ..)

theorem mulAddAssignDigit_nf (h : NfOps D) (a : List Nat) (s c : Nat) :
    Nf (mulAddAssignDigit D a s c) := by
  unfold mulAddAssignDigit; nf
macro_rules | `(tactic| nf_step) => `(tactic| with_reducible exact mulAddAssignDigit_nf ‹NfOps _› ..)

theorem mulDigitGo_nf (h : NfOps D) (f : Nat) (l m : List Nat) (c : Nat) :
    Nf (mulDigitGo D f l m c) := by
  induction l generalizing m c with
  | nil => exact Nf.triv
  | cons d l ih =>
    cases m with
    | nil => exact Nf.triv
    | cons e m => unfold mulDigitGo; nf; all_goals exact ih ..
macro_rules | `(tactic| nf_step) => `(tactic| with_reducible exact mulDigitGo_nf ‹NfOps _› ..)

theorem mulDigitInto_nf (h : NfOps D) (l : List Nat) (f : Nat) (m : List Nat) :
    Nf (mulDigitInto D dbg l f m) := by
  unfold mulDigitInto; nf
macro_rules | `(tactic| nf_step) => `(tactic| with_reducible exact mulDigitInto_nf ‹NfOps _› ..)

theorem mulPairGo_nf (h : NfOps D) (f g : Nat) (l : List Nat) (p c : Nat) (b : Bool) :
    Nf (mulPairGo D f g l p c b) := by
  induction l generalizing p c b with
  | nil => exact Nf.triv
  | cons d l ih => unfold mulPairGo; nf; all_goals exact ih ..
macro_rules | `(tactic| nf_step) => `(tactic| with_reducible exact mulPairGo_nf ‹NfOps _› ..)

theorem mulPairAddAssignDigit_nf (h : NfOps D) (l : List Nat) (f g o : Nat) :
    Nf (mulPairAddAssignDigit D l f g o) := by
  unfold mulPairAddAssignDigit; nf
macro_rules | `(tactic| nf_step) => `(tactic| with_reducible exact mulPairAddAssignDigit_nf ‹NfOps _› ..)

theorem div3CarryAssign_nf (h : NfOps D) (l : List Nat) (c : Nat) :
    Nf (div3CarryAssign D l c) := by
  unfold div3CarryAssign; nf
macro_rules | `(tactic| nf_step) => `(tactic| with_reducible exact div3CarryAssign_nf ‹NfOps _› ..)

theorem addProdRow_nf (h : NfOps D) (f : Nat) (l m : List Nat) (c : Nat) :
    Nf (addProdRow D f l m c) := by
  induction l generalizing m c with
  | nil => exact Nf.triv
  | cons d l ih =>
    cases m with
    | nil => exact Nf.triv
    | cons e m => unfold addProdRow; nf; all_goals exact ih ..
macro_rules | `(tactic| nf_step) => `(tactic| with_reducible exact addProdRow_nf ‹NfOps _› ..)

theorem mulLongGo_nf (h : NfOps D) (l m : List Nat) (o : Nat) (r : List Nat) :
    Nf (mulLongGo D l m o r) := by
  induction m generalizing o r with
  | nil => exact Nf.triv
  | cons d m ih => unfold mulLongGo; nf; all_goals exact ih ..
macro_rules | `(tactic| nf_step) => `(tactic| with_reducible exact mulLongGo_nf ‹NfOps _› ..)

theorem mulBigLongInto_nf (h : NfOps D) (a b c : List Nat) :
    Nf (mulBigLongInto D a b c) := by
  unfold mulBigLongInto; nf
macro_rules | `(tactic| nf_step) => `(tactic| with_reducible exact mulBigLongInto_nf ‹NfOps _› ..)

theorem squareLongGo_nf (h : NfOps D) (a b c : List Nat) :
    Nf (squareLongGo D a b c) := by
  induction b generalizing a c with
  | nil => unfold squareLongGo; exact Nf.triv
  | cons d b ih => unfold squareLongGo; nf; all_goals exact ih ..
macro_rules | `(tactic| nf_step) => `(tactic| with_reducible exact squareLongGo_nf ‹NfOps _› ..)

theorem squareDiagGo_nf (h : NfOps D) : ∀ (a b : List Nat) (c : Bool),
    Nf (squareDiagGo D a b c)
  | [], b, c => by unfold squareDiagGo; exact Nf.triv
  | d :: a, [], c => by unfold squareDiagGo; exact Nf.triv
  | d :: a, [e], c => by unfold squareDiagGo; exact Nf.triv
  | d :: a, e :: f :: b, c => by
    have ih := squareDiagGo_nf h a b
    unfold squareDiagGo; nf; all_goals exact ih _
macro_rules | `(tactic| nf_step) => `(tactic| with_reducible exact squareDiagGo_nf ‹NfOps _› ..)

theorem squareLongInto_nf (h : NfOps D) (a b : List Nat) :
    Nf (squareLongInto D dbg a b) := by
  unfold squareLongInto; nf
macro_rules | `(tactic| nf_step) => `(tactic| with_reducible exact squareLongInto_nf ‹NfOps _› ..)

theorem incIf_nf (h : NfOps D) (c : Bool) (a : List Nat) (n : Nat) :
    Nf (incIf D c a n) := by
  unfold incIf; nf
macro_rules | `(tactic| nf_step) => `(tactic| with_reducible exact incIf_nf ‹NfOps _› ..)

theorem karatsubaAdd_nf (h : NfOps D) (s : Nat) (a b c : List Nat) (n : Nat) (d : List Nat) :
    Nf (karatsubaAdd D s a b c n d) := by
  unfold karatsubaAdd; nf
macro_rules | `(tactic| nf_step) => `(tactic| with_reducible exact karatsubaAdd_nf ‹NfOps _› ..)

theorem karatsubaSub_nf (h : NfOps D) (s : Nat) (a b c : List Nat) (n : Nat) (d : List Nat) :
    Nf (karatsubaSub D dbg s a b c n d) := by
  unfold karatsubaSub; nf
macro_rules | `(tactic| nf_step) => `(tactic| with_reducible exact karatsubaSub_nf ‹NfOps _› ..)

theorem karatsubaMid_nf (h : NfOps D) (g : Bool) (s : Nat) (a b c : List Nat) (n : Nat) (d : List Nat) :
    Nf (karatsubaMid D dbg g s a b c n d) := by
  unfold karatsubaMid; nf
macro_rules | `(tactic| nf_step) => `(tactic| with_reducible exact karatsubaMid_nf ‹NfOps _› ..)

theorem karatsubaFinish_nf (h : NfOps D) (s n : Nat) (a b : List Nat) :
    Nf (karatsubaFinish D s n a b) := by
  unfold karatsubaFinish; nf
macro_rules | `(tactic| nf_step) => `(tactic| with_reducible exact karatsubaFinish_nf ‹NfOps _› ..)

theorem toomEval_nf (h : NfOps D) (n : Nat) (a b c d : List Nat) :
    Nf (toomEval D dbg n a b c d) := by
  unfold toomEval; nf
macro_rules | `(tactic| nf_step) => `(tactic| with_reducible exact toomEval_nf ‹NfOps _› ..)

theorem toomR3First_nf (h : NfOps D) (a : List Nat) (n : Nat) (b : List Nat) (m : Nat) (s : Bool) :
    Nf (toomR3First D a n b m s) := by
  unfold toomR3First; nf
macro_rules | `(tactic| nf_step) => `(tactic| with_reducible exact toomR3First_nf ‹NfOps _› ..)

theorem toomR1First_nf (h : NfOps D) (a : List Nat) (n : Nat) (b : List Nat) (m : Nat) (s : Bool) :
    Nf (toomR1First D a n b m s) := by
  unfold toomR1First; nf
macro_rules | `(tactic| nf_step) => `(tactic| with_reducible exact toomR1First_nf ‹NfOps _› ..)

theorem toomR2First_nf (h : NfOps D) (a b : List Nat) (n : Nat) (s : Bool) :
    Nf (toomR2First D a b n s) := by
  unfold toomR2First; nf
macro_rules | `(tactic| nf_step) => `(tactic| with_reducible exact toomR2First_nf ‹NfOps _› ..)

theorem toomR3Second_nf (h : NfOps D) (a : List Nat) (n : Nat) (s : Bool) (b : List Nat) (m : Nat) (r : Bool) :
    Nf (toomR3Second D a n s b m r) := by
  unfold toomR3Second; nf
macro_rules | `(tactic| nf_step) => `(tactic| with_reducible exact toomR3Second_nf ‹NfOps _› ..)

theorem toomR3Last_nf (h : NfOps D) (a b : List Nat) (n : Nat) (s : Bool) :
    Nf (toomR3Last D a b n s) := by
  unfold toomR3Last; nf
macro_rules | `(tactic| nf_step) => `(tactic| with_reducible exact toomR3Last_nf ‹NfOps _› ..)

theorem toomR2Last_nf (h : NfOps D) (a b : List Nat) (n : Nat) (c : List Nat) (m : Nat) (s : Bool) :
    Nf (toomR2Last D a b n c m s) := by
  unfold toomR2Last; nf
macro_rules | `(tactic| nf_step) => `(tactic| with_reducible exact toomR2Last_nf ‹NfOps _› ..)

theorem toomR1Last_nf (h : NfOps D) (a : List Nat) (n : Nat) (b : List Nat) (m : Nat) :
    Nf (toomR1Last D a n b m) := by
  unfold toomR1Last; nf
macro_rules | `(tactic| nf_step) => `(tactic| with_reducible exact toomR1Last_nf ‹NfOps _› ..)

theorem toomInterp_nf (h : NfOps D) (a b c : List Nat) (n : Nat) (d : List Nat) (m : Nat) (s : Bool) (e : List Nat) (k : Nat) (r : Bool) :
    Nf (toomInterp D a b c n d m s e k r) := by
  unfold toomInterp; nf
macro_rules | `(tactic| nf_step) => `(tactic| with_reducible exact toomInterp_nf ‹NfOps _› ..)

theorem toomSquareInterp_nf (h : NfOps D) (a b c : List Nat) (n : Nat) (d : List Nat) (m : Nat) (e : List Nat) (k : Nat) :
    Nf (toomSquareInterp D a b c n d m e k) := by
  unfold toomSquareInterp; nf
macro_rules | `(tactic| nf_step) => `(tactic| with_reducible exact toomSquareInterp_nf ‹NfOps _› ..)

theorem toomRecompose_nf (h : NfOps D) (n : Nat) (a b : List Nat) (m : Nat) (c : List Nat) (k : Nat) (d : List Nat) (j : Nat) :
    Nf (toomRecompose D n a b m c k d j) := by
  unfold toomRecompose; nf
macro_rules | `(tactic| nf_step) => `(tactic| with_reducible exact toomRecompose_nf ‹NfOps _› ..)


end Babs
