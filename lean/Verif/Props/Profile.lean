import Verif.Proofs.Profile

/-!
# C33: debug and release builds

For every operation and all arguments, also for arguments that are not in normal form, a debug build
does the same as a release build, or it panics because of an overflow check or a debug assertion.
In particular whatever a debug build returns, a release build returns as well (`agree_returns`).
-/

namespace Babs.Props

open UBig

variable (t : DType)

/-- C33: what a debug build returns, a release build returns. -/
theorem agree_returns {α : Type} {d r : R α} (h : Agree d r) (a : α) (hd : d = .ok a) : r = .ok a := by
  rcases h with h | h | h
  · rw [← h, hd]
  · rw [h] at hd; simp at hd
  · rw [h] at hd; simp at hd

/-- C33: if a release build panics, the debug build panics. -/
theorem agree_panics {α : Type} {d r : R α} (h : Agree d r) (p : Panic) (hr : Panics r p) :
    ∃ q, Panics d q := by
  rcases h with h | h | h
  · exact ⟨p, h.trans hr⟩
  · exact ⟨_, h⟩
  · exact ⟨_, h⟩

/-- C33: addition. -/
theorem add_profile (x y : List Nat) : Agree (add t true x y) (add t false x y) :=
  addBig_agree (ops_agree t) x y
/-- C33: subtraction. -/
theorem sub_profile (x y : List Nat) : Agree (sub t true x y) (sub t false x y) :=
  subBig_agree (ops_agree t) x y
/-- C33: multiplication. -/
theorem mul_profile (x y : List Nat) : Agree (mul t true x y) (mul t false x y) :=
  mulBig_agree (ops_agree t) x y
/-- C33: division. -/
theorem div_profile (x y : List Nat) : Agree (div t true x y) (div t false x y) :=
  divOp_agree (ops_agree t) x y
/-- C33: remainder. -/
theorem rem_profile (x y : List Nat) : Agree (rem t true x y) (rem t false x y) :=
  remOp_agree (ops_agree t) x y
/-- C33: `div_assign_big`. -/
theorem divAssign_profile (x y : List Nat) : Agree (divAssign t true x y) (divAssign t false x y) :=
  divAssignBig_agree (ops_agree t) x y
/-- C33: `rem_assign_big`. -/
theorem remAssign_profile (x y : List Nat) : Agree (remAssign t true x y) (remAssign t false x y) :=
  remAssignBig_agree (ops_agree t) x y
/-- C33: squares. -/
theorem square_profile (x : List Nat) : Agree (UBig.square t true x) (UBig.square t false x) :=
  square_agree (ops_agree t) x
/-- C33: powers. -/
theorem pow_profile (x : List Nat) (n : Nat) : Agree (UBig.pow t true x n) (UBig.pow t false x n) :=
  pow_agree (ops_agree t) x n
/-- C33: the operations with a digit. -/
theorem digit_profile (x : List Nat) (d : Nat) :
    Agree (UBig.addDigit t true x d) (UBig.addDigit t false x d) ∧
    Agree (UBig.subDigit t true x d) (UBig.subDigit t false x d) ∧
    Agree (UBig.mulDigit t true x d) (UBig.mulDigit t false x d) ∧
    Agree (UBig.divDigit t true x d) (UBig.divDigit t false x d) ∧
    Agree (UBig.remDigit t true x d) (UBig.remDigit t false x d) :=
  ⟨addDigit_agree (ops_agree t) x d, subDigit_agree (ops_agree t) x d,
    mulDigit_agree (ops_agree t) x d, divDigit_agree (ops_agree t) x d,
    remDigitOp_agree (ops_agree t) x d⟩
/-- C33: addition of a word. -/
theorem addWord_profile (x : List Nat) (n : Nat) :
    Agree (addWord t true x n) (addWord t false x n) := by
  have h := ops_agree t
  rcases t with w | w
  · exact addDigit_agree h x n
  · exact addWordDec_agree h _ x n
/-- C33: subtraction of a word. -/
theorem subWord_profile (x : List Nat) (n : Nat) :
    Agree (subWord t true x n) (subWord t false x n) := by
  have h := ops_agree t
  rcases t with w | w
  · exact subDigit_agree h x n
  · exact subWordDec_agree h _ x n
/-- C33: multiplication by a word. -/
theorem mulWord_profile (x : List Nat) (n : Nat) :
    Agree (mulWord t true x n) (mulWord t false x n) := by
  have h := ops_agree t
  rcases t with w | w
  · exact mulDigit_agree h x n
  · exact mulWordDec_agree h _ x n
/-- C33: division by a word. -/
theorem divWord_profile (x : List Nat) (n : Nat) :
    Agree (divWord t true x n) (divWord t false x n) := by
  have h := ops_agree t
  rcases t with w | w
  · exact divDigit_agree h x n
  · exact divWordDec_agree h _ x n
/-- C33: remainder by a word. -/
theorem remWord_profile (x : List Nat) (n : Nat) :
    Agree (remWord t true x n) (remWord t false x n) := by
  have h := ops_agree t
  rcases t with w | w
  · exact remDigitOp_agree h x n
  · exact remWordDec_agree h _ x n
/-- C33: `%=` by a word. -/
theorem remWordAssign_profile (x : List Nat) (n : Nat) :
    Agree (remWordAssign t true x n) (remWordAssign t false x n) := by
  have h := ops_agree t
  rcases t with w | w
  · exact remDigitAssign_agree h x n
  · exact remWordDec_agree h _ x n
/-- C33: left shifts. -/
theorem shl_profile (x : List Nat) (n : Nat) : Agree (shl t true x n) (shl t false x n) := by
  have h := ops_agree t
  rcases t with w | w
  · exact shlBin_agree h _ x n
  · exact shlDec_agree h _ x n
/-- C33: right shifts. -/
theorem shr_profile (x : List Nat) (n : Nat) : Agree (shr t true x n) (shr t false x n) := by
  have h := ops_agree t
  rcases t with w | w
  · exact shrBin_agree h _ x n
  · exact shrDec_agree h _ x n

theorem parseScaled_agree (base scale : Nat) (l : List (List Char)) :
    ∀ r, Agree (parseScaled t true base scale l r) (parseScaled t false base scale l r) := by
  have h := ops_agree t
  induction l with
  | nil => intro r; exact Agree.refl _
  | cons c l ih =>
    intro r
    unfold parseScaled
    split
    · exact Agree.refl _
    · exact Agree.bind (mulAddDigit_agree h _ _ _) fun z => ih z

/-- C33: parsing. -/
theorem parse_profile (s : List Char) : Agree (fromStr t true s) (fromStr t false s) := by
  unfold fromStr
  refine Agree.ite (Agree.refl _) ?_
  rcases t with w | w <;> cases stripHexPrefix s
  · exact parseScaled_agree ..
  · exact Agree.refl _
  · exact Agree.refl _
  · exact parseScaled_agree ..

theorem makeScales_agree (w : Width) (n : Nat) :
    ∀ s, Agree (makeScales true w n s) (makeScales false w n s) := by
  induction n with
  | zero => intro s; exact Agree.refl _
  | succ n ih =>
    intro s
    unfold makeScales
    exact Agree.bind (square_profile _ _) fun q => Agree.bind (ih q) fun _ => Agree.refl _

theorem buildSmall_agree (w : Width) (l r : List Nat) :
    Agree (buildSmall true w l r) (buildSmall false w l r) := by
  induction l with
  | nil => exact Agree.refl _
  | cons d l ih =>
    unfold buildSmall
    exact Agree.bind ih fun _ => Agree.bind (shl_profile _ _ _) fun _ =>
      Agree.bind (shl_profile _ _ _) fun _ => addWord_profile _ _ _

theorem buildDecimal_agree (w : Width) (s : List (List Nat)) (n : Nat) :
    ∀ x, Agree (buildDecimal true w s n x) (buildDecimal false w s n x) := by
  induction n with
  | zero => intro x; exact Agree.refl _
  | succ n ih =>
    intro x
    unfold buildDecimal
    refine Agree.ite (Agree.refl _) (Agree.ite ?_ ?_)
    · exact Agree.bind (Agree.refl _) fun _ => buildSmall_agree _ _ _
    · refine Agree.bind (Agree.refl _) fun _ => Agree.bind (divAssign_profile _ _ _) fun a => ?_
      exact Agree.bind (Agree.refl _) fun _ => Agree.bind (ih _) fun _ =>
        Agree.bind (ih _) fun _ => Agree.refl _

/-- C33: conversion to decimal. -/
theorem toDecimal_profile (w : Width) (x : List Nat) :
    Agree (toDecimal true w x) (toDecimal false w x) := by
  unfold toDecimal
  refine Agree.ite (buildDecimal_agree _ _ _ _) ?_
  exact Agree.bind (makeScales_agree _ _ _) fun _ => buildDecimal_agree _ _ _ _

/-- C33: display. -/
theorem display_profile (f : FmtFlags) (x : List Nat) :
    Agree (display t true f x) (display t false f x) := by
  unfold display
  rcases t with w | w
  · exact Agree.bind (toDecimal_profile w x) fun _ => Agree.refl _
  · exact Agree.refl _

end Babs.Props
