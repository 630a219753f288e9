import Verif.Props.Programs

/-!
# C43: numbers that are not in normal form

A difference need not be in normal form (C07).  Here: what the other operations do with such a number.
Nearly all of them compute the right value.
-/

namespace Babs.Props

open UBig

/-- The list consists of digits and denotes the number `n`.  Leading zeros are allowed. -/
def Stores (b : Nat) (ds : List Nat) (n : Nat) : Prop := Digs b ds ∧ val b ds = n

variable (t t' : DType) (dbg dbg' : Bool)

theorem Rep.stores {b n : Nat} {x : List Nat} (h : Rep b x n) : Stores b x n := ⟨h.digs, h.val_eq⟩

/-! ## The operations -/

/-- C43: addition has the right value. -/
theorem add_value (x y : List Nat) (m n : Nat) (hx : Stores t.radix x m) (hy : Stores t.radix y n) :
    Returns (UBig.add t dbg x y) fun z => Stores t.radix z (m + n) := by
  obtain ⟨z, h1, h2, h3, -⟩ := addBig_spec (ops_lawful t dbg) x y hx.1 hy.1
  exact ⟨z, h1, h2, by rw [h3, hx.2, hy.2]⟩

/-- C43: addition of a word has the right value. -/
theorem addWord_value (x : List Nat) (m n : Nat) (hx : Stores t.radix x m)
    (hn : n < 2 ^ UBig.bits t) :
    Returns (UBig.addWord t dbg x n) fun z => Stores t.radix z (m + n) := by
  have L := ops_lawful t dbg
  have hBB := word_lt t n hn
  rcases t with w | w
  · obtain ⟨z, h1, h2, h3, -⟩ := addDigit_spec L x n hx.1 hn
    exact ⟨z, h1, h2, by rw [h3, hx.2]⟩
  · obtain ⟨z, h1, h2, h3, -⟩ := addWordDec_spec L x n hx.1 hBB
    exact ⟨z, h1, h2, by rw [h3, hx.2]⟩

/-- C43: subtraction has the right value, and panics exactly for an underflow, if the subtrahend is in
normal form. -/
theorem sub_value (x y : List Nat) (m n : Nat) (hx : Stores t.radix x m) (hy : Rep t.radix y n) :
    (n ≤ m → Returns (UBig.sub t dbg x y) fun z => Stores t.radix z (m - n)) ∧
    (m < n → Panics (UBig.sub t dbg x y) .explicit) := by
  have L := ops_lawful t dbg
  constructor
  · intro h
    have hl := hy.canon.length_le L.pos hx.1 (by rw [hx.2, hy.val_eq]; exact h)
    rcases subBig_spec L x y hx.1 hy.digs hl with ⟨a, -⟩ | ⟨-, z, h1, h2, h3, -⟩
    · rw [hx.2, hy.val_eq] at a; omega
    · rw [hx.2, hy.val_eq] at h3
      exact ⟨z, h1, h2, by omega⟩
  · intro h
    by_cases hl : y.length ≤ x.length
    · rcases subBig_spec L x y hx.1 hy.digs hl with ⟨-, a⟩ | ⟨a, -⟩
      · exact a
      · rw [hx.2, hy.val_eq] at a; omega
    · exact subBig_short (by omega)

/-- C43: if the subtrahend is not in normal form either, the value is right if it is returned. -/
theorem sub_value_or_panic (x y : List Nat) (m n : Nat) (hx : Stores t.radix x m)
    (hy : Stores t.radix y n) :
    ReturnsOr (· = .explicit) (UBig.sub t dbg x y) fun z => n ≤ m ∧ Stores t.radix z (m - n) := by
  have L := ops_lawful t dbg
  by_cases hl : y.length ≤ x.length
  · rcases subBig_spec L x y hx.1 hy.1 hl with ⟨-, a⟩ | ⟨a, z, h1, h2, h3, -⟩
    · unfold UBig.sub; rw [a]; exact rfl
    · rw [hx.2, hy.2] at h3 a
      unfold UBig.sub; rw [h1]
      exact ⟨a, h2, by omega⟩
  · unfold UBig.sub; rw [subBig_short (by omega)]; exact rfl

/-- C43: subtraction of a word below the radix has the right value, and panics exactly for an
underflow. -/
theorem subWord_value (x : List Nat) (m n : Nat) (hx : Stores t.radix x m) (hn : n < t.radix) :
    (n ≤ m → Returns (UBig.subWord t dbg x n) fun z => Stores t.radix z (m - n)) ∧
    (m < n → Panics (UBig.subWord t dbg x n) .explicit) := by
  have e : UBig.subWord t dbg x n = UBig.subDigit t dbg x n := by
    rcases t with w | w
    · rfl
    · have : n < w.decRadix := hn
      simp [UBig.subWord, UBig.subDigit, subWordDec, this]
  rw [e]
  have hs := subDigit_spec (ops_lawful t dbg) x n hx.1 hn
  rw [hx.2] at hs
  rcases hs with ⟨a, b⟩ | ⟨a, z, h1, h2, h3, -⟩
  · exact ⟨fun h => by omega, fun _ => b⟩
  · exact ⟨fun _ => ⟨z, h1, h2, by omega⟩, fun h => by omega⟩

/-- C43: multiplication by a word has the right value. -/
theorem mulWord_value (x : List Nat) (m n : Nat) (hx : Stores t.radix x m)
    (hn : n < 2 ^ UBig.bits t) :
    Returns (UBig.mulWord t dbg x n) fun z => Stores t.radix z (m * n) := by
  have L := ops_lawful t dbg
  have hBB := word_lt t n hn
  rcases t with w | w
  · obtain ⟨z, h1, h2, h3, -⟩ := mulAddDigit_spec L x n 0 hx.1 hn L.pos
    exact ⟨z, h1, h2, by rw [h3, hx.2]; simp⟩
  · unfold UBig.mulWord mulWordDec
    simp only []
    by_cases h : n < w.decRadix
    · rw [if_pos h]
      obtain ⟨z, h1, h2, h3, -⟩ := mulAddDigit_spec L x n 0 hx.1 h L.pos
      exact ⟨z, h1, h2, by rw [h3, hx.2]; simp⟩
    · rw [if_neg h]
      obtain ⟨z, h1, h2⟩ := mulPairAddDigit_spec L x (n % w.decRadix) (n / w.decRadix) 0 hx.1
        (Nat.mod_lt _ L.pos) (Nat.div_lt_of_lt_mul hBB) L.pos
      rw [hx.2] at h2
      refine ⟨z, h1, h2.digs, ?_⟩
      rw [h2.val_eq, Nat.add_zero]
      congr 1
      exact Nat.mod_add_div n w.decRadix

/-- C43: a product has the right value if it is returned, and is in normal form. -/
theorem mul_value_or_unwrap (x y : List Nat) (m n : Nat) (hx : Stores t.radix x m)
    (hy : Stores t.radix y n) :
    ReturnsOr (· = .unwrap) (UBig.mul t dbg x y) fun z => Rep t.radix z (m * n) :=
  (mulBig_digs_spec (ops_lawful t dbg) (T := False) hx.1 hx.2 hy.1 hy.2
    (fun h => h.elim)).weaken fun _ h => h.1

/-- C43: quotient and remainder by a word below the radix are right, and in normal form. -/
theorem divRemWord_value (x : List Nat) (m n : Nat) (hx : Stores t.radix x m) (hn : n < t.radix)
    (h0 : 0 < n) :
    Returns (UBig.divWord t dbg x n) (fun z => Rep t.radix z (m / n)) ∧
    Returns (UBig.remWord t dbg x n) (fun z => Rep t.radix z (m % n)) := by
  have L := ops_lawful t dbg
  have hlt := Nat.mod_lt m h0
  obtain ⟨q, h1, h2⟩ := divDigitAssign_spec L x n hx.1 h0 hn
  have h3 := remDigit_spec L x n hx.1 h0 hn
  rw [hx.2] at h2 h3
  have hq : Returns (UBig.divDigit t dbg x n) fun z => Rep t.radix z (m / n) := by
    refine ⟨q, ?_, h2⟩
    unfold UBig.divDigit divDigit
    rw [h1]; rfl
  have hr : Returns (remDigitAssign (t.ops dbg) x n) fun z => Rep t.radix z (m % n) := by
    refine ⟨_, by unfold remDigitAssign; rw [h3]; rfl, ?_⟩
    by_cases h : m % n = 0
    · rw [if_pos h, h]; exact rep_zero _
    · rw [if_neg h]; exact ⟨by simp; omega, canon_singleton.mpr h, by simp⟩
  have hr' : Returns (remDigitOp (t.ops dbg) x n) fun z => Rep t.radix z (m % n) := by
    obtain ⟨z, h4, h5, -⟩ := normalise_rep (B := t.radix) (l := [m % n]) (by simp; omega)
    refine ⟨z, ?_, by simpa using h5⟩
    unfold remDigitOp
    rw [h3]
    exact h4
  rcases t with w | w
  · exact ⟨hq, hr'⟩
  · simp only [DType.radix] at hn
    refine ⟨?_, ?_⟩
    · simp only [UBig.divWord, divWordDec, if_pos hn]; exact hq
    · simp only [UBig.remWord, remWordDec, if_pos hn]; exact hr

/-! ## C35: programs that compute further with a difference -/

/-- Programs with subtraction.  What is subtracted is a program without subtraction, or a word. -/
inductive Expr where
  | prog (p : Prog)
  | sub (e : Expr) (p : Prog)
  | subWord (e : Expr) (n : Nat)
  | add (e f : Expr)
  | addWord (e : Expr) (n : Nat)
  | mulWord (e : Expr) (n : Nat)
  | divWord (e : Expr) (n : Nat)
  | remWord (e : Expr) (n : Nat)
  | mul (e f : Expr)

/-- Run a program with numbers of type `t`. -/
def Expr.run (t : DType) (dbg : Bool) : Expr → R (List Nat)
  | .prog p => p.run t dbg
  | .sub e p => do UBig.sub t dbg (← e.run t dbg) (← p.run t dbg)
  | .subWord e n => do UBig.subWord t dbg (← e.run t dbg) n
  | .add e f => do UBig.add t dbg (← e.run t dbg) (← f.run t dbg)
  | .addWord e n => do UBig.addWord t dbg (← e.run t dbg) n
  | .mulWord e n => do UBig.mulWord t dbg (← e.run t dbg) n
  | .divWord e n => do UBig.divWord t dbg (← e.run t dbg) n
  | .remWord e n => do UBig.remWord t dbg (← e.run t dbg) n
  | .mul e f => do UBig.mul t dbg (← e.run t dbg) (← f.run t dbg)

/-- The number a program computes.  Words have to fit in the smallest storage type, `u8`, and those
that are subtracted or divided by have to be less than the smallest radix, 100. -/
inductive Expr.Computes : Expr → Nat → Prop
  | prog (p : Prog) (n : Nat) (h : p.Computes n) : Computes (.prog p) n
  | sub (e : Expr) (p : Prog) (m n : Nat) (he : Computes e m) (hp : p.Computes n) (h : n ≤ m) :
      Computes (.sub e p) (m - n)
  | subWord (e : Expr) (m n : Nat) (he : Computes e m) (h : n ≤ m) (hn : n < 100) :
      Computes (.subWord e n) (m - n)
  | add (e f : Expr) (m n : Nat) (he : Computes e m) (hf : Computes f n) :
      Computes (.add e f) (m + n)
  | addWord (e : Expr) (m n : Nat) (he : Computes e m) (h : n < 256) :
      Computes (.addWord e n) (m + n)
  | mulWord (e : Expr) (m n : Nat) (he : Computes e m) (h : n < 256) :
      Computes (.mulWord e n) (m * n)
  | divWord (e : Expr) (m n : Nat) (he : Computes e m) (h0 : 0 < n) (h : n < 100) :
      Computes (.divWord e n) (m / n)
  | remWord (e : Expr) (m n : Nat) (he : Computes e m) (h0 : 0 < n) (h : n < 100) :
      Computes (.remWord e n) (m % n)
  | mul (e f : Expr) (m n : Nat) (he : Computes e m) (hf : Computes f n) :
      Computes (.mul e f) (m * n)

/-- The program has no product of two numbers. -/
def Expr.NoMul : Expr → Prop
  | .prog p => p.NoMul
  | .sub e p => e.NoMul ∧ p.NoMul
  | .subWord e _ => e.NoMul
  | .add e f => e.NoMul ∧ f.NoMul
  | .addWord e _ => e.NoMul
  | .mulWord e _ => e.NoMul
  | .divWord e _ => e.NoMul
  | .remWord e _ => e.NoMul
  | .mul _ _ => False

theorem small_radix {n : Nat} (h : n < 100) : n < t.radix := by
  have := (ops_lawful t true).base
  omega

theorem expr_step {T : Prop} (e : Expr) (n : Nat) (h : e.Computes n) (hT : T → e.NoMul) :
    Sp (fun p => p = .unwrap ∧ ¬ T) (e.run t dbg) fun x => Stores t.radix x n := by
  have key : ∀ {x : R (List Nat)} {Q : List Nat → Prop}, Returns x Q →
      Sp (fun p => p = .unwrap ∧ ¬ T) x Q := by
    rintro x Q ⟨a, rfl, ha⟩; exact ha
  have prog : ∀ (p : Prog) (n : Nat), p.Computes n → (T → p.NoMul) →
      Sp (fun p => p = .unwrap ∧ ¬ T) (p.run t dbg) fun x => Rep t.radix x n := by
    intro p n h hp
    by_cases ht : T
    · exact key (program_exact t dbg p n h (hp ht))
    · exact Sp.weaken (program_exact_or_unwrap t dbg p n h) fun _ hp => ⟨hp, ht⟩
  induction h with
  | prog p n h => exact Sp.mono (prog p n h hT) fun x hx => Rep.stores hx
  | sub e p m n _ hp h ihe =>
    unfold Expr.run
    exact Sp.bind (ihe fun ht => (hT ht).1) fun x hx => Sp.bind (prog p n hp fun ht => (hT ht).2)
      fun y hy => key ((sub_value t dbg x y m n hx hy).1 h)
  | subWord e m n _ h hn ihe =>
    unfold Expr.run
    exact Sp.bind (ihe hT) fun x hx => key ((subWord_value t dbg x m n hx (small_radix t hn)).1 h)
  | add e f m n _ _ ihe ihf =>
    unfold Expr.run
    exact Sp.bind (ihe fun ht => (hT ht).1) fun x hx => Sp.bind (ihf fun ht => (hT ht).2)
      fun y hy => key (add_value t dbg x y m n hx hy)
  | addWord e m n _ h ihe =>
    unfold Expr.run
    exact Sp.bind (ihe hT) fun x hx => key (addWord_value t dbg x m n hx (word_fits t h))
  | mulWord e m n _ h ihe =>
    unfold Expr.run
    exact Sp.bind (ihe hT) fun x hx => key (mulWord_value t dbg x m n hx (word_fits t h))
  | divWord e m n _ h0 h ihe =>
    unfold Expr.run
    exact Sp.bind (ihe hT) fun x hx =>
      Sp.mono (key (divRemWord_value t dbg x m n hx (small_radix t h) h0).1) fun _ hz => Rep.stores hz
  | remWord e m n _ h0 h ihe =>
    unfold Expr.run
    exact Sp.bind (ihe hT) fun x hx =>
      Sp.mono (key (divRemWord_value t dbg x m n hx (small_radix t h) h0).2) fun _ hz => Rep.stores hz
  | mul e f m n _ _ ihe ihf =>
    unfold Expr.run
    refine Sp.bind (ihe fun ht => (hT ht).elim) fun x hx => Sp.bind (ihf fun ht => (hT ht).elim)
      fun y hy => ?_
    exact Sp.mono (Sp.weaken (mul_value_or_unwrap t dbg x y m n hx hy) fun _ hp => ⟨hp, hT⟩)
      fun _ hz => Rep.stores hz

/-- C35: a program with subtraction returns the number it computes, whatever the type and the build
profile.  The only possible panic is that of the multiplication. -/
theorem expr_value_or_unwrap (e : Expr) (n : Nat) (h : e.Computes n) :
    ReturnsOr (· = .unwrap) (e.run t dbg) fun x => Stores t.radix x n :=
  Sp.weaken (expr_step t dbg (T := False) e n h fun f => f.elim) fun _ h => h.1

/-- C35: without products of two big numbers there is no panic at all. -/
theorem expr_value (e : Expr) (n : Nat) (h : e.Computes n) (hm : e.NoMul) :
    Returns (e.run t dbg) fun x => Stores t.radix x n :=
  tot_iff.mp (Sp.weaken (expr_step t dbg (T := True) e n h fun _ => hm) fun _ h => h.2 trivial)

/-- C35: two runs of a program with subtraction, with any two of the eight types and any two build
profiles, give numbers of the same value. -/
theorem expr_agree (e : Expr) (n : Nat) (h : e.Computes n) (x y : List Nat)
    (hx : e.run t dbg = .ok x) (hy : e.run t' dbg' = .ok y) : val t.radix x = val t'.radix y := by
  have h1 := expr_value_or_unwrap t dbg e n h
  have h2 := expr_value_or_unwrap t' dbg' e n h
  rw [hx] at h1
  rw [hy] at h2
  exact h1.2.trans h2.2.symm

/-! ## C43: where normal form is needed -/

/-- C43, refuted: a number not in normal form cannot be subtracted from a shorter one.  Here `z` is
`radix^2 - (radix^2 - 1) = 1`, and `2 - z` panics, as if one were greater than two. -/
theorem sub_unnormalised_panics :
    UBig.sub t dbg [0, 0, 1] [t.radix - 1, t.radix - 1] = .ok [1, 0] ∧
    Stores t.radix [1, 0] 1 ∧ Rep t.radix [2] 2 ∧ UBig.cmp [2] [1, 0] = .lt ∧
    Panics (UBig.sub t dbg [2] [1, 0]) .explicit := by
  refine ⟨(sub_not_normalised t dbg).2.2.1, ⟨?_, ?_⟩, ?_⟩
  · have := (ops_lawful t dbg).base
    intro d hd
    simp at hd
    omega
  · simp [val]
  · rcases t with w | w <;> cases w <;> cases dbg <;> decide +kernel

/-- C43, refuted: division by a number not in normal form.  The true quotient is `[65, 128]`. -/
theorem div_unnormalised_wrong :
    Stores 256 [3, 2, 0] 515 ∧ Rep 256 [5, 3, 2, 1] 16909061 ∧ Rep 256 [65, 128] (16909061 / 515) ∧
    UBig.div (.bin .w8) false [5, 3, 2, 1] [3, 2, 0] = .ok [191, 128] := by
  unfold Stores
  decide +kernel

/-- C43, refuted: the text of a difference.  `10000 - 9999` is displayed as `001`. -/
theorem display_unnormalised_wrong :
    (do UBig.display (.dec .w8) dbg {} (← UBig.sub (.dec .w8) dbg [0, 0, 1] [99, 99])) =
      .ok "001".toList := by
  cases dbg <;> decide +kernel

/-! ## The hypotheses can be met -/

/-- `((65536 - 65535) * 200 + (65536 - 65535)) % 7 - 1`, where with 8 binary digits the difference is not
in normal form. -/
def exampleExpr : Expr :=
  let one : Expr := .sub (.prog (.text "65536".toList)) (.text "65535".toList)
  .subWord (.remWord (.add (.mulWord one 200) (.mul one one)) 7) 1

example : (exampleExpr.run (.bin .w8) true).map (val 256) = .ok 4 ∧
    (exampleExpr.run (.dec .w64) false).map (val (10 ^ 19)) = .ok 4 := by decide +kernel
example : exampleExpr.Computes 4 := by
  have h1 : Prog.Computes (.text "65536".toList) 65536 :=
    .text _ _ ⟨[6, 5, 5, 3, 6], by simp [CharDigit], by decide⟩
  have h2 : Prog.Computes (.text "65535".toList) 65535 :=
    .text _ _ ⟨[6, 5, 5, 3, 5], by simp [CharDigit], by decide⟩
  have one := Expr.Computes.sub _ _ _ _ (.prog _ _ h1) h2 (by omega)
  exact .subWord _ 5 1 (.remWord _ 201 7 (.add _ _ 200 1 (.mulWord _ 1 200 one (by omega))
    (.mul _ _ 1 1 one one)) (by omega) (by omega)) (by omega) (by omega)
example : Stores 256 [1, 0] 1 ∧ ¬ Rep 256 [1, 0] 1 := by unfold Stores; decide
example : UBig.mul (.bin .w8) true [7, 0] [5, 0, 0] = .ok [35] := by decide +kernel

end Babs.Props
