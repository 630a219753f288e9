import Verif.Props.Div
import Verif.Proofs.Safe

/-!
# C17, C34: divisions by long numbers that do not panic, and those that do
-/

namespace Babs.Props

variable (t : DType) (dbg : Bool)

/-! ## Helpers -/

/-- It is enough to look at one scale and one block length. -/
theorem noBlockPanic_of {M : Nat → Nat → Bool} {b m nnum : Nat} {y : List Nat} {s n : Nat}
    (hs : Scale b y s) (hn : IsBlockLen y.length n)
    (h : ∀ i, i < (nnum - y.length) / n + 1 → bzSafe M b (n + 1) n
      (m * 2 ^ s * b ^ (n - y.length) / b ^ (i * n)
        % (val b y * 2 ^ s * b ^ (n - y.length) * b ^ n))
      (val b y * 2 ^ s * b ^ (n - y.length)) = true) : NoBlockPanic M b m nnum y := by
  intro s' hs' n' hn' i hi
  rw [hs'.unique hs]
  rw [hn'.unique hn] at hi ⊢
  exact h i (by omega)

/-- The conditions of `div_exact_partial`, for the division of `x` by `y`. -/
theorem divGood_of {x y : List Nat} {m n : Nat} (hy : Rep t.radix y n) (hl : 20 ≤ y.length)
    (hf : ScaleFits t.radix y) (ht : (∃ w, t = .dec w) ∨ NoBlockTie t.radix m x.length y) :
    DivGood (t.ops dbg) t.radix m x.length y := by
  refine ⟨fun _ => scaleFits_fit hf, fun _ h => by omega, fun _ => ?_⟩
  rcases ht with ⟨w, rfl⟩ | h
  · exact Or.inl (dec_tieLaw w dbg)
  · refine Or.inr fun s d h1 h2 h3 => ?_
    have := h s ⟨d, h1, h2, h3⟩
    rwa [hy.val_eq] at this ⊢

/-! ## Divisions that do not panic -/

/-- C17, C34 (in part): division by a number of 20 digits or more is exact and does not panic, for all
types and sizes, if the scaled divisor fits, no tie occurs for binary types, and nothing is met that
causes a panic.  `mulSafe` is a sufficient condition on the products. -/
theorem div_safe_exact_partial (d : Nat) (x y : List Nat) (m n : Nat) (hx : Rep t.radix x m)
    (hy : Rep t.radix y n) (hn : n ≠ 0) (hl : 20 ≤ y.length) (hf : ScaleFits t.radix y)
    (ht : (∃ w, t = .dec w) ∨ NoBlockTie t.radix m x.length y)
    (hs : NoBlockPanic (mulSafe t.radix d) t.radix m x.length y) :
    DivisionExact t dbg (fun _ => False) x y m n :=
  (div_exact_partial t dbg x y m n hx hy hn hf (ht.imp_right fun h => by
    rwa [if_neg (by omega)])).weaken fun _ h => h.2.2 (noBlockPanic_productOk t hs)

/-- Up to 80 digits the products do not matter. -/
theorem noBlockPanic_short {b m nnum : Nat} {y : List Nat} (hb : 2 ≤ b) (hl : y.length ≤ 80)
    (h : NoBlockPanic (fun _ _ => true) b m nnum y) : NoBlockPanic (mulSafe b 3) b m nnum y := by
  intro s hs n hn i hi
  refine bzSafe_weaken _ _ _ _ (by omega) (fun u v hu hv _ => ?_) (h s hs n hn i hi)
  have hn80 : n ≤ 80 := by
    obtain ⟨e, h1, h2, h3, h4, c, rfl⟩ := hn
    have he : e ≤ 2 := by
      by_contra hc
      have := h2 2 (by omega)
      omega
    have he' : e = 0 ∨ e = 1 ∨ e = 2 := by omega
    rcases he' with rfl | rfl | rfl <;> omega
  have hP : b ^ (n / 2) ≤ b ^ 40 := Nat.pow_le_pow_right (by omega) (by omega)
  exact mulSafe_40 hb (by omega) (by omega)

/-- C17, C34 (in part): for divisors of 20 to 80 digits only the leading digits matter. -/
theorem div_upto80_exact_partial (x y : List Nat) (m n : Nat) (hx : Rep t.radix x m)
    (hy : Rep t.radix y n) (hl : 20 ≤ y.length) (hl' : y.length ≤ 80) (hf : ScaleFits t.radix y)
    (ht : (∃ w, t = .dec w) ∨ NoBlockTie t.radix m x.length y)
    (hs : NoBlockPanic (fun _ _ => true) t.radix m x.length y) :
    DivisionExact t dbg (fun _ => False) x y m n := by
  have hb := (ops_lawful t dbg).base
  have hn : n ≠ 0 := by
    have := hy.canon.pos (b := t.radix) (by omega) (by rintro rfl; simp at hl)
    rw [hy.val_eq] at this; omega
  exact div_safe_exact_partial t dbg 3 x y m n hx hy hn hl hf ht (noBlockPanic_short (by omega) hl' hs)

/-- C17: a number is divided correctly by a larger one, for all types and sizes. -/
theorem div_smaller_exact (x y : List Nat) (m n : Nat) (hx : Rep t.radix x m) (hy : Rep t.radix y n)
    (h : m < n) : DivisionExact t dbg (fun _ => False) x y m n := by
  have hB := (ops_lawful t dbg).pos
  have hne : y ≠ [] := by rintro rfl; have := hy.val_eq; simp at this; omega
  by_cases hl : x.length < y.length
  · exact div_longer_exact t dbg x y m n hx hy hl
  have hb : ∀ q, divBig (t.ops dbg) dbg x y q = .ok (x, q, .ok (0, x.length)) := by
    intro q
    unfold divBig divBigWithWork divBigWithWorkGen
    have hlt : ltBig x y = true := by
      rw [ltBig_canon hB hx.digs hy.digs hx.canon hy.canon, hx.val_eq, hy.val_eq]; exact h
    simp only [hne, if_false, hlt, if_true]
    rfl
  have h0 : Rep t.radix [] (m / n) := by rw [Nat.div_eq_of_lt h]; exact rep_nil
  have h1 : Rep t.radix x (m % n) := by rw [Nat.mod_eq_of_lt h]; exact hx
  have hd : UBig.divAssign t dbg x y = .ok ([], .ok x) := by
    unfold UBig.divAssign divAssignBig
    simp only [hl, if_false, hb, ok_bind, List.take_length, ubigNew_rep hx, pure_eq_ok, List.take_zero]
  have hr : UBig.remAssign t dbg x y = .ok (x, .ok ()) := by
    unfold UBig.remAssign remAssignBig
    simp only [show y.length ≤ x.length by omega, if_true, hb, ok_bind, List.take_length, pure_eq_ok]
  refine ⟨?_, ?_, ?_, ?_⟩
  · unfold UBig.div divOp; rw [show divAssignBig _ _ _ _ = _ from hd]; exact h0
  · unfold UBig.rem remOp; rw [show remAssignBig _ _ _ _ = _ from hr]; exact h1
  · rw [hd]; exact ⟨h0, x, rfl, h1⟩
  · rw [hr]; exact ⟨h1, rfl⟩

/-! ## Divisions that panic -/

/-- C17, C34: all four forms of the division panic. -/
structure DivisionPanics (t : DType) (dbg : Bool) (x y : List Nat) : Prop where
  div : Panics (UBig.div t dbg x y) .index ∨ Panics (UBig.div t dbg x y) .unwrap
  rem : Panics (UBig.rem t dbg x y) .index ∨ Panics (UBig.rem t dbg x y) .unwrap
  divAssign : Panics (UBig.divAssign t dbg x y) .index ∨ Panics (UBig.divAssign t dbg x y) .unwrap
  remAssign : Panics (UBig.remAssign t dbg x y) .index ∨ Panics (UBig.remAssign t dbg x y) .unwrap

/-- C17, C34, refuted for all divisors of 20 digits or more and all dividends where at some point of the
recursion the leading digits are equal, or a product that is needed panics: the division panics. -/
theorem div_panics (x y : List Nat) (m n : Nat) (hx : Rep t.radix x m)
    (hy : Rep t.radix y n) (hl : 20 ≤ y.length) (hf : ScaleFits t.radix y)
    (ht : (∃ w, t = .dec w) ∨ NoBlockTie t.radix m x.length y) (hmn : n ≤ m)
    (hs : ¬ NoBlockPanic (productOk t.radix) t.radix m x.length y) : DivisionPanics t dbg x y := by
  have hb := (ops_lawful t dbg).base
  have hn : n ≠ 0 := by
    have := hy.canon.pos (b := t.radix) (by omega) (by rintro rfl; simp at hl)
    rw [hy.val_eq] at this; omega
  have hnot : ¬ SafeDiv t.radix m x.length y := fun h =>
    hs fun s hsc => by obtain ⟨d, h1, h2, h3⟩ := hsc; exact h s d h1 h2 h3
  have H := fun _ : y.length ≤ x.length => divGood_of t dbg hy hl hf ht
  have key : ∀ {α : Type} {x' : R α} {Q : α → Prop},
      Sp (fun p => bzFail p ∧ 20 ≤ y.length ∧ ¬ SafeDiv t.radix m x.length y) x'
        (fun r => Q r ∧ (20 ≤ y.length → n ≤ m → SafeDiv t.radix m x.length y)) →
      Panics x' .index ∨ Panics x' .unwrap := by
    intro α x' Q h1
    cases x' with
    | ok z => exact absurd (h1.2 hl hmn) hnot
    | error p => exact h1.1.imp (fun e => by rw [e]; rfl) (fun e => by rw [e]; rfl)
  exact ⟨key (divOp_spec (dbg := dbg) (ops_lawful t dbg) hx hy hn H),
    key (remOp_spec (dbg := dbg) (ops_lawful t dbg) hx hy hn H),
    key (divAssignBig_spec (dbg := dbg) (ops_lawful t dbg) hx hy hn H),
    key (remAssignBig_spec (dbg := dbg) (ops_lawful t dbg) hx hy hn H)⟩

/-- C17, C34: the special case of equal leading digits. -/
theorem div_panics_of_equal_leading (x y : List Nat) (m n : Nat) (hx : Rep t.radix x m)
    (hy : Rep t.radix y n) (hl : 20 ≤ y.length) (hf : ScaleFits t.radix y)
    (ht : (∃ w, t = .dec w) ∨ NoBlockTie t.radix m x.length y) (hmn : n ≤ m)
    (hs : ¬ NoBlockPanic (fun _ _ => true) t.radix m x.length y) : DivisionPanics t dbg x y :=
  div_panics t dbg x y m n hx hy hl hf ht hmn fun h => hs fun s h1 k h2 i h3 =>
    bzSafe_weaken _ _ _ _ (ops_lawful t dbg).pos (fun _ _ _ _ _ => rfl) (h s h1 k h2 i h3)

/-- C17, C34: division by a number of 20 digits or more, of any size, that fits when scaled, in which no tie
occurs for binary types.  It is right and does not panic if no leading digits are equal in the recursion
and no product that is needed panics; otherwise it panics. -/
theorem div_panics_exactly (x y : List Nat) (m n : Nat) (hx : Rep t.radix x m)
    (hy : Rep t.radix y n) (hl : 20 ≤ y.length) (hf : ScaleFits t.radix y)
    (ht : (∃ w, t = .dec w) ∨ NoBlockTie t.radix m x.length y) (hmn : n ≤ m) :
    (NoBlockPanic (productOk t.radix) t.radix m x.length y ∧
      DivisionExact t dbg (fun _ => False) x y m n) ∨
    (¬ NoBlockPanic (productOk t.radix) t.radix m x.length y ∧ DivisionPanics t dbg x y) := by
  by_cases hs : NoBlockPanic (productOk t.radix) t.radix m x.length y
  · have hb := (ops_lawful t dbg).base
    have hn : n ≠ 0 := by
      have := hy.canon.pos (b := t.radix) (by omega) (by rintro rfl; simp at hl)
      rw [hy.val_eq] at this; omega
    exact Or.inl ⟨hs, (div_exact_partial t dbg x y m n hx hy hn hf (ht.imp_right fun h => by
      rwa [if_neg (by omega)])).weaken fun _ h => h.2.2 hs⟩
  · exact Or.inr ⟨hs, div_panics t dbg x y m n hx hy hl hf ht hmn hs⟩

/-- C17, C34: decimal division by a number of 20 digits or more that fits when scaled returns the exact
quotient if and only if no leading digits are equal in the recursion and no product panics. -/
theorem div_decimal_exact_iff (w : Width) (x y : List Nat) (m n : Nat)
    (hx : Rep (DType.dec w).radix x m) (hy : Rep (DType.dec w).radix y n) (hl : 20 ≤ y.length)
    (hf : ScaleFits (DType.dec w).radix y) (hmn : n ≤ m) :
    Returns (UBig.div (.dec w) dbg x y) (fun z => Rep (DType.dec w).radix z (m / n)) ↔
      NoBlockPanic (productOk (DType.dec w).radix) (DType.dec w).radix m x.length y := by
  rcases div_panics_exactly _ dbg x y m n hx hy hl hf (Or.inl ⟨w, rfl⟩) hmn with ⟨h1, h2⟩ | ⟨h1, h2⟩
  · exact ⟨fun _ => h1, fun _ => tot_iff.mp h2.div⟩
  · refine ⟨fun ⟨z, h3, _⟩ => ?_, fun h => absurd h h1⟩
    rcases h2.div with h | h <;> rw [Panics, h3] at h <;> cases h

/-- C17, C34: decimal division by a number of 20 to 80 digits that fits when scaled returns the exact
quotient if and only if no leading digits are equal in the recursion; otherwise it panics. -/
theorem div_decimal_upto80_exact_iff (w : Width) (x y : List Nat) (m n : Nat)
    (hx : Rep (DType.dec w).radix x m) (hy : Rep (DType.dec w).radix y n) (hl : 20 ≤ y.length)
    (hl' : y.length ≤ 80) (hf : ScaleFits (DType.dec w).radix y) (hmn : n ≤ m) :
    Returns (UBig.div (.dec w) dbg x y) (fun z => Rep (DType.dec w).radix z (m / n)) ↔
      NoBlockPanic (fun _ _ => true) (DType.dec w).radix m x.length y := by
  constructor
  · rintro ⟨z, h1, -⟩
    by_contra hs
    rcases (div_panics_of_equal_leading _ dbg x y m n hx hy hl hf (Or.inl ⟨w, rfl⟩) hmn hs).div with
      h | h <;> rw [Panics, h1] at h <;> cases h
  · intro hs
    exact tot_iff.mp (div_upto80_exact_partial _ dbg x y m n hx hy hl hl' hf (Or.inl ⟨w, rfl⟩) hs).div

/-- C17, C34: the same for binary division, if no tie occurs. -/
theorem div_binary_upto80_exact_iff (w : Width) (x y : List Nat) (m n : Nat)
    (hx : Rep (DType.bin w).radix x m) (hy : Rep (DType.bin w).radix y n) (hl : 20 ≤ y.length)
    (hl' : y.length ≤ 80) (ht : NoBlockTie (DType.bin w).radix m x.length y) (hmn : n ≤ m) :
    Returns (UBig.div (.bin w) dbg x y) (fun z => Rep (DType.bin w).radix z (m / n)) ↔
      NoBlockPanic (fun _ _ => true) (DType.bin w).radix m x.length y := by
  have hf := scaleFits_binary w y n hy
  constructor
  · rintro ⟨z, h1, -⟩
    by_contra hs
    rcases (div_panics_of_equal_leading _ dbg x y m n hx hy hl hf (Or.inr ht) hmn hs).div with
      h | h <;> rw [Panics, h1] at h <;> cases h
  · intro hs
    exact tot_iff.mp (div_upto80_exact_partial _ dbg x y m n hx hy hl hl' hf (Or.inr ht) hs).div

/-! ## Examples -/

/-- A number of `k` digits that looks random. -/
def mixed (b : Nat) : Nat → Nat → List Nat
  | 0, _ => []
  | k + 1, a => a % b :: mixed b k ((a * 7919 + 104729) % 1000003)

/-- The hypotheses of `div_safe_exact_partial` can be met: a 700-digit number divided by one of 201
digits, in decimal digits of eight bits. -/
example : let y := mixed 100 200 12345 ++ [72]
    ScaleFits 100 y ∧ NoBlockPanic (mulSafe 100 10) 100 (val 100 (mixed 100 700 777)) 700 y := by
  intro y
  have hs : Scale 100 y 0 := ⟨72, by decide +kernel, by decide, by decide⟩
  refine ⟨scaleFits_of hs (by decide +kernel), noBlockPanic_of (n := 208) hs ?_ (by decide +kernel)⟩
  have hl : y.length = 201 := by decide +kernel
  rw [hl]
  exact ⟨4, by decide, by decide, by decide, by decide, by decide⟩

/-- A test for `BzTieFree`. -/
def tieFree (b : Nat) : Nat → Nat → Nat → Nat → Bool
  | 0, _, _, _ => true
  | k + 1, n, a, y =>
    if n < 20 then decide (∀ i, i < n - 1 → a / b ^ (i + 1) % y / b ^ (n - 1) < y / b ^ (n - 1))
    else
      let h := b ^ (n / 2)
      (!decide (a / h / h / h < y / h) || tieFree b k (n / 2) (a / h / h) (y / h)) &&
        (!decide (a % (h * y) / h / h < y / h) || tieFree b k (n / 2) (a % (h * y) / h) (y / h))

theorem bzTieFree_of {b : Nat} (k : Nat) :
    ∀ n a y, tieFree b k n a y = true → BzTieFree b k n a y := by
  induction k with
  | zero => intro n a y _; trivial
  | succ k ih =>
    intro n a y h
    rw [tieFree] at h
    rw [BzTieFree]
    split at h
    next hn =>
      rw [if_pos hn]
      rw [decide_eq_true_eq] at h
      exact fun i hi => h i (by omega)
    next hn =>
      rw [if_neg hn]
      simp only [Bool.and_eq_true, Bool.or_eq_true, Bool.not_eq_true', decide_eq_false_iff_not] at h
      exact ⟨fun h1 => ih _ _ _ (h.1.resolve_left (fun h2 => h2 h1)),
        fun h1 => ih _ _ _ (h.2.resolve_left (fun h2 => h2 h1))⟩

/-- It is enough to look at one scale and one block length. -/
theorem noBlockTie_of {b m nnum : Nat} {y : List Nat} {s n : Nat} (hs : Scale b y s)
    (hn : IsBlockLen y.length n) (h : ∀ i, i < (nnum - y.length) / n + 1 → tieFree b (n + 1) n
      (m * 2 ^ s * b ^ (n - y.length) / b ^ (i * n)
        % (val b y * 2 ^ s * b ^ (n - y.length) * b ^ n))
      (val b y * 2 ^ s * b ^ (n - y.length)) = true) : NoBlockTie b m nnum y := by
  intro s' hs' n' hn' i hi
  rw [hs'.unique hs]
  rw [hn'.unique hn] at hi ⊢
  exact bzTieFree_of _ _ _ _ (h i (by omega))

/-- For binary digits: a 90-digit number divided by one of 45 digits, in digits of 32 bits.  There is no
tie and no panic. -/
example : let b := (DType.bin .w32).radix
    let y := mixed b 44 12345 ++ [3000000000]
    NoBlockTie b (val b (mixed b 90 777)) 90 y ∧
    NoBlockPanic (fun _ _ => true) b (val b (mixed b 90 777)) 90 y := by
  intro b y
  have hs : Scale b y 0 := ⟨3000000000, by decide +kernel, by decide, by decide⟩
  have hl : y.length = 45 := by decide +kernel
  have hn : IsBlockLen y.length 48 := by
    rw [hl]
    exact ⟨2, by decide, by decide, by decide, by decide, by decide⟩
  exact ⟨noBlockTie_of hs hn (by decide +kernel), noBlockPanic_of hs hn (by decide +kernel)⟩

/-- Both sides of `div_decimal_upto80_exact_iff` can fail: see `div_bz_panics`. -/
example : ¬ NoBlockPanic (fun _ _ => true) 100 (4 * 100 ^ 20 + 50 * 100 ^ 29) 30 (bzWitnessDen 100) := by
  intro h
  have := h 0 ⟨50, by decide, by decide, by decide⟩ 20
    ⟨0, by decide, by decide, by decide, by decide, by decide⟩ 0 (by decide)
  revert this
  decide +kernel

/-- Both sides of `div_binary_upto80_exact_iff` can fail as well, without a tie. -/
example : NoBlockTie 256 (4 * 256 ^ 20 + 128 * 256 ^ 29) 30 (bzWitnessDen 256) ∧
    ¬ NoBlockPanic (fun _ _ => true) 256 (4 * 256 ^ 20 + 128 * 256 ^ 29) 30 (bzWitnessDen 256) := by
  have hs : Scale 256 (bzWitnessDen 256) 0 := ⟨128, by decide, by decide, by decide⟩
  have hn : IsBlockLen (bzWitnessDen 256).length 20 :=
    ⟨0, by decide, by decide, by decide, by decide, by decide⟩
  refine ⟨noBlockTie_of hs hn (by decide +kernel), fun h => ?_⟩
  have := h 0 hs 20 hn 0 (by decide)
  revert this
  decide +kernel

/-- The divisor and the quotient of a division that panics in a product. -/
def productDen (b : Nat) : List Nat :=
  List.replicate 21 (b - 1) ++ List.replicate 22 0 ++ [1] ++ List.replicate 43 0 ++ [b / 2]
@[inherit_doc productDen]
def productQuot (b : Nat) : List Nat := List.replicate 21 (b - 1) ++ List.replicate 22 0 ++ [1]

theorem productDen_facts (t : DType) :
    let b := t.radix
    let n := val b (productDen b)
    let m := n * val b (productQuot b)
    Rep b (productDen b) n ∧ Scale b (productDen b) 0 ∧ ScaleFits b (productDen b) ∧ size b m = 131 ∧
      tieFree b 89 88 (m % (n * b ^ 88)) n = true ∧ bzSafe (fun _ _ => true) b 89 88 (m % (n * b ^ 88)) n = true ∧
      bzSafe (productOk b) b 89 88 (m % (n * b ^ 88)) n = false := by
  intro b n m
  have hs : Scale b (productDen b) 0 :=
    ⟨b / 2, by unfold productDen; exact List.getLast?_concat, by rcases t with (_ | _ | _ | _) | (_ | _ | _ | _) <;> decide,
      by rcases t with (_ | _ | _ | _) | (_ | _ | _ | _) <;> decide⟩
  refine ⟨?_, hs, scaleFits_of hs ?_, ?_, ?_, ?_, ?_⟩ <;>
    rcases t with (_ | _ | _ | _) | (_ | _ | _ | _) <;> decide +kernel

/-- C17, C34, C58: a product alone can make a division panic, in every type: a number of 131 digits divided by one
of 88, where no leading digits are equal. -/
theorem div_product_panics : ∃ x y m n, Rep t.radix x m ∧ Rep t.radix y n ∧ x.length = 131 ∧
    y.length = 88 ∧ NoBlockPanic (fun _ _ => true) t.radix m x.length y ∧ DivisionPanics t dbg x y := by
  obtain ⟨h1, h2, h3, h4, h5, h6, h7⟩ := productDen_facts t
  have hb := (ops_lawful t dbg).base
  have hl : (productDen t.radix).length = 88 := by simp [productDen]
  generalize hy : productDen t.radix = y at *
  generalize hq : productQuot t.radix = q at *
  obtain ⟨x, hx⟩ := exists_rep (B := t.radix) (by omega) (val t.radix y * val t.radix q)
  have hxl : x.length = 131 := by
    have := size_canon (B := t.radix) (by omega) hx.digs hx.canon
    rw [hx.val_eq] at this
    omega
  have hn : IsBlockLen y.length 88 := by
    rw [hl]; exact ⟨3, by decide, by decide, by decide, by decide, by decide⟩
  have key : ∀ i, i < (x.length - y.length) / 88 + 1 → i = 0 := by rw [hxl, hl]; omega
  have e : ∀ v : Nat, v * 2 ^ 0 * t.radix ^ (88 - y.length) = v := by rw [hl]; simp
  refine ⟨x, y, _, _, hx, h1, hxl, hl, noBlockPanic_of h2 hn fun i hi => ?_,
    div_panics t dbg x y _ _ hx h1 (by omega) h3 (Or.inr (noBlockTie_of h2 hn fun i hi => ?_)) ?_
      fun h => ?_⟩
  · rw [key i hi, e, e, Nat.zero_mul, pow_zero, Nat.div_one]; exact h6
  · rw [key i hi, e, e, Nat.zero_mul, pow_zero, Nat.div_one]; exact h5
  · refine Nat.le_mul_of_pos_right _ (Nat.pos_of_ne_zero fun h0 => ?_)
    rw [h0, Nat.mul_zero] at h4
    simp [size] at h4
  · have := h 0 h2 88 hn 0 (Nat.zero_le _)
    rw [e, e, Nat.zero_mul, pow_zero, Nat.div_one, h7] at this
    cases this

end Babs.Props
