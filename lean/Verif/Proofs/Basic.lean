import Verif.Spec
import Mathlib.Tactic.Ring
import Mathlib.Tactic.Linarith
import Mathlib.Tactic.Zify
import Mathlib.Tactic.LinearCombination

/-!
# Helper lemmas: panicking computations, values of digit lists
-/

namespace Babs

/-! ## Computations -/

/-- Working notion: `Sp E x Q` is `ReturnsOr E x Q`. -/
abbrev Sp {α : Type} (E : Panic → Prop) (x : R α) (Q : α → Prop) : Prop := ReturnsOr E x Q

/-- No panic allowed. -/
abbrev noPanic : Panic → Prop := fun _ => False

/-- Working notion of total correctness. -/
abbrev Tot {α : Type} (x : R α) (Q : α → Prop) : Prop := Sp noPanic x Q

theorem tot_iff {α : Type} {x : R α} {Q : α → Prop} : Tot x Q ↔ Returns x Q := by
  cases x with
  | ok a => simp [ReturnsOr, Returns]
  | error p => simp [ReturnsOr, Returns]

theorem Sp.bind {α β : Type} {E : Panic → Prop} {x : R α} {f : α → R β} {P : α → Prop}
    {Q : β → Prop} (hx : Sp E x P) (hf : ∀ a, P a → Sp E (f a) Q) : Sp E (x >>= f) Q := by
  cases x with
  | ok a => exact hf a hx
  | error p => exact hx

theorem Sp.pure {α : Type} {E : Panic → Prop} {a : α} {Q : α → Prop} (h : Q a) :
    Sp E (Pure.pure a) Q := h

theorem Sp.ok {α : Type} {E : Panic → Prop} {a : α} {Q : α → Prop} (h : Q a) :
    Sp E (.ok a : R α) Q := h

theorem Sp.mono {α : Type} {E : Panic → Prop} {x : R α} {P Q : α → Prop} (hx : Sp E x P)
    (h : ∀ a, P a → Q a) : Sp E x Q := by
  cases x with
  | ok a => exact h a hx
  | error p => exact hx

theorem Sp.weaken {α : Type} {E E' : Panic → Prop} {x : R α} {Q : α → Prop} (hx : Sp E x Q)
    (h : ∀ p, E p → E' p) : Sp E' x Q := by
  cases x with
  | ok a => exact hx
  | error p => exact h p hx

theorem Tot.sp {α : Type} {E : Panic → Prop} {x : R α} {Q : α → Prop} (hx : Tot x Q) : Sp E x Q :=
  hx.weaken (fun _ h => h.elim)

theorem Sp.and {α : Type} {E : Panic → Prop} {x : R α} {P Q : α → Prop} (hx : Sp E x P)
    (hy : Sp E x Q) : Sp E x (fun a => P a ∧ Q a) := by
  cases x with
  | ok a => exact ⟨hx, hy⟩
  | error p => exact hx

theorem Sp.assert {E : Panic → Prop} {c : Bool} (h : c = true) :
    Sp E (assertR c) (fun _ => True) := by simp [assertR, h, Sp, ReturnsOr]

theorem Sp.debugAssert {E : Panic → Prop} {dbg c : Bool} (h : c = true) :
    Sp E (debugAssertR dbg c) (fun _ => True) := by simp [debugAssertR, h, Sp, ReturnsOr]

/-- Steps of a computation that are known to succeed with a known value. -/
theorem Sp.bind_eq {α β : Type} {E : Panic → Prop} {x : R α} {a : α} {f : α → R β} {Q : β → Prop}
    (hx : x = .ok a) (hf : Sp E (f a) Q) : Sp E (x >>= f) Q := by subst hx; exact hf

@[simp] theorem ok_bind {α β : Type} (a : α) (f : α → R β) :
    ((Except.ok a : R α) >>= f) = f a := rfl

@[simp] theorem error_bind {α β : Type} (p : Panic) (f : α → R β) :
    ((Except.error p : R α) >>= f) = .error p := rfl

@[simp] theorem pure_eq_ok {α : Type} (a : α) : (Pure.pure a : R α) = .ok a := rfl

/-! ## Values -/

@[simp] theorem val_nil (b : Nat) : val b [] = 0 := rfl

@[simp] theorem val_cons (b d : Nat) (ds : List Nat) : val b (d :: ds) = d + b * val b ds := rfl

theorem val_append (b : Nat) (xs ys : List Nat) :
    val b (xs ++ ys) = val b xs + b ^ xs.length * val b ys := by
  induction xs with
  | nil => simp
  | cons d ds ih => simp [ih, pow_succ]; ring

@[simp] theorem val_replicate_zero (b n : Nat) : val b (List.replicate n 0) = 0 := by
  induction n with
  | zero => rfl
  | succ n ih => simp [List.replicate_succ, ih]

theorem val_take_add_drop (b : Nat) (xs : List Nat) (k : Nat) (hk : k ≤ xs.length) :
    val b (xs.take k) + b ^ k * val b (xs.drop k) = val b xs := by
  conv_rhs => rw [← List.take_append_drop k xs]
  rw [val_append, List.length_take, Nat.min_eq_left hk]

theorem val_snoc (b : Nat) (xs : List Nat) (d : Nat) :
    val b (xs ++ [d]) = val b xs + b ^ xs.length * d := by simp [val_append]

@[simp] theorem digs_nil (b : Nat) : Digs b [] := by simp [Digs]

@[simp] theorem digs_cons (b d : Nat) (ds : List Nat) : Digs b (d :: ds) ↔ d < b ∧ Digs b ds := by
  simp [Digs]

@[simp] theorem digs_append (b : Nat) (xs ys : List Nat) :
    Digs b (xs ++ ys) ↔ Digs b xs ∧ Digs b ys := by
  simp only [Digs, List.mem_append]
  constructor
  · intro h; exact ⟨fun d hd => h d (Or.inl hd), fun d hd => h d (Or.inr hd)⟩
  · rintro ⟨h1, h2⟩ d (hd | hd)
    · exact h1 d hd
    · exact h2 d hd

theorem Digs.take {b : Nat} {xs : List Nat} (h : Digs b xs) (k : Nat) : Digs b (xs.take k) :=
  fun d hd => h d (List.mem_of_mem_take hd)

theorem Digs.drop {b : Nat} {xs : List Nat} (h : Digs b xs) (k : Nat) : Digs b (xs.drop k) :=
  fun d hd => h d (List.mem_of_mem_drop hd)

theorem Digs.reverse {b : Nat} {xs : List Nat} (h : Digs b xs) : Digs b xs.reverse :=
  fun d hd => h d (List.mem_reverse.mp hd)

theorem digs_replicate {b n d : Nat} (h : d < b) : Digs b (List.replicate n d) := by
  intro e he
  rw [List.mem_replicate] at he
  omega

theorem Digs.getElem {b : Nat} {xs : List Nat} (h : Digs b xs) {i : Nat} (hi : i < xs.length) :
    xs[i] < b := h _ (List.getElem_mem hi)

theorem val_lt {b : Nat} {ds : List Nat} (h : Digs b ds) : val b ds < b ^ ds.length := by
  induction ds with
  | nil => simp
  | cons d ds ih =>
    rw [digs_cons] at h
    have h1 := ih h.2
    have h2 : b * (val b ds + 1) ≤ b * b ^ ds.length := Nat.mul_le_mul_left _ h1
    simp only [val_cons, List.length_cons, pow_succ]
    nlinarith [h.1]

theorem Digs.pos {b d : Nat} {ds : List Nat} (h : Digs b (d :: ds)) : 0 < b := by
  rw [digs_cons] at h; omega

theorem canon_nil : Canon [] := by simp [Canon]

theorem canon_append_of {xs ys : List Nat} (hy : ys ≠ []) :
    Canon (xs ++ ys) ↔ Canon ys := by
  rw [Canon, Canon, List.getLast?_append]
  cases h : ys.getLast? with
  | none => simp [List.getLast?_eq_none_iff] at h; contradiction
  | some d => simp

theorem canon_snoc {xs : List Nat} {d : Nat} : Canon (xs ++ [d]) ↔ d ≠ 0 := by
  simp [Canon]

theorem canon_cons_cons {d e : Nat} {ds : List Nat} : Canon (d :: e :: ds) ↔ Canon (e :: ds) := by
  simp [Canon]

theorem canon_singleton {d : Nat} : Canon [d] ↔ d ≠ 0 := by simp [Canon]

theorem Canon.ge {b : Nat} (_hb : 0 < b) {ds : List Nat} (hc : Canon ds) (hne : ds ≠ []) :
    b ^ (ds.length - 1) ≤ val b ds := by
  obtain ⟨xs, d, rfl⟩ : ∃ xs d, ds = xs ++ [d] :=
    ⟨ds.dropLast, ds.getLast hne, (List.dropLast_concat_getLast hne).symm⟩
  rw [canon_snoc] at hc
  rw [val_snoc]
  simp only [List.length_append, List.length_singleton, Nat.add_sub_cancel]
  calc b ^ xs.length = b ^ xs.length * 1 := (Nat.mul_one _).symm
    _ ≤ b ^ xs.length * d := Nat.mul_le_mul_left _ (Nat.pos_of_ne_zero hc)
    _ ≤ _ := Nat.le_add_left _ _

theorem Canon.of_ge {b : Nat} {ds : List Nat} (hd : Digs b ds)
    (h : ds ≠ [] → b ^ (ds.length - 1) ≤ val b ds) : Canon ds := by
  by_cases hne : ds = []
  · subst hne; exact canon_nil
  · have h := h hne
    obtain ⟨xs, d, rfl⟩ : ∃ xs d, ds = xs ++ [d] :=
      ⟨ds.dropLast, ds.getLast hne, (List.dropLast_concat_getLast hne).symm⟩
    rw [canon_snoc]
    rintro rfl
    rw [val_snoc] at h
    rw [digs_append] at hd
    have := val_lt hd.1
    simp at h
    omega

theorem Canon.pos {b : Nat} (hb : 0 < b) {ds : List Nat} (hc : Canon ds) (hne : ds ≠ []) :
    0 < val b ds := lt_of_lt_of_le (Nat.pow_pos hb) (hc.ge hb hne)

/-- A normalised number is zero exactly if it has no digits. -/
theorem Canon.val_eq_zero {b : Nat} (hb : 0 < b) {ds : List Nat} (hc : Canon ds) :
    val b ds = 0 ↔ ds = [] := by
  constructor
  · intro h
    by_contra hne
    have := hc.pos hb hne
    omega
  · rintro rfl; rfl

/-- Digit lists of the same length with the same value are equal. -/
theorem val_inj {b : Nat} {xs ys : List Nat} (hx : Digs b xs) (hy : Digs b ys)
    (hl : xs.length = ys.length) (h : val b xs = val b ys) : xs = ys := by
  induction xs generalizing ys with
  | nil =>
    cases ys with
    | nil => rfl
    | cons e es => simp at hl
  | cons d ds ih =>
    cases ys with
    | nil => simp at hl
    | cons e es =>
      rw [digs_cons] at hx hy
      simp only [val_cons] at h
      have hb : 0 < b := by omega
      have h1 : (d + b * val b ds) % b = (e + b * val b es) % b := by rw [h]
      simp only [Nat.add_mul_mod_self_left, Nat.mod_eq_of_lt hx.1, Nat.mod_eq_of_lt hy.1] at h1
      subst h1
      have h2 : b * val b ds = b * val b es := by omega
      have h3 := Nat.eq_of_mul_eq_mul_left hb h2
      rw [ih hx.2 hy.2 (by simpa using hl) h3]

/-- The length of a normalised number is determined by its value. -/
theorem Canon.length_le {b : Nat} (hb : 0 < b) {xs ys : List Nat} (hx : Canon xs) (hy : Digs b ys)
    (h : val b xs ≤ val b ys) : xs.length ≤ ys.length := by
  by_contra hlt
  push Not at hlt
  have hne : xs ≠ [] := by rintro rfl; simp at hlt
  have h1 := hx.ge hb hne
  have h2 := val_lt hy
  have h3 : b ^ ys.length ≤ b ^ (xs.length - 1) := Nat.pow_le_pow_right hb (by omega)
  omega

/-- The normal form of a number is unique. -/
theorem Rep.unique {b n : Nat} {xs ys : List Nat} (hx : Rep b xs n) (hy : Rep b ys n) :
    xs = ys := by
  by_cases hb : 0 < b
  · have h : val b xs = val b ys := hx.val_eq.trans hy.val_eq.symm
    exact val_inj hx.digs hy.digs
      (le_antisymm (hx.canon.length_le hb hy.digs h.le) (hy.canon.length_le hb hx.digs h.ge)) h
  · have hb : b = 0 := by omega
    subst hb
    have h0 : ∀ l : List Nat, Digs 0 l → l = [] := by
      intro l hl
      cases l with
      | nil => rfl
      | cons d ds => exact absurd (hl d (by simp)) (by omega)
    rw [h0 _ hx.digs, h0 _ hy.digs]

theorem Rep.iff_eq {b m n : Nat} {xs ys : List Nat} (hx : Rep b xs m) (hy : Rep b ys n) :
    xs = ys ↔ m = n := by
  constructor
  · rintro rfl; rw [← hx.val_eq, ← hy.val_eq]
  · rintro rfl; exact hx.unique hy

theorem rep_zero (b : Nat) : Rep b [] 0 := ⟨digs_nil b, canon_nil, rfl⟩

/-- `val` of a list with extra leading zeros. -/
@[simp] theorem val_append_zeros (b : Nat) (xs : List Nat) (k : Nat) :
    val b (xs ++ List.replicate k 0) = val b xs := by simp [val_append]

end Babs
