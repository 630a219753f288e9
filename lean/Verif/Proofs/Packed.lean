import Verif.Proofs.Safe
import Verif.Proofs.MulLong
import Verif.Proofs.MulDigit

/-!
Evaluating the model on long numbers: buffers as pairs of a length and a number.

The kernel computes with numbers of any size fast, but with lists of digits slowly.  A buffer of digits
is determined by its length and its value.  Here the operations on buffers are given as computations on
such pairs, and it is proved that they agree with the model, including every returned length and the
content of the buffer after an underflow.
-/

namespace Babs

/-- The lowest `n` digits of `a` in base `B`. -/
def dig (B : Nat) : Nat → Nat → List Nat
  | 0, _ => []
  | n + 1, a => a % B :: dig B n (a / B)

variable {B : Nat}

@[simp] theorem dig_length (n a : Nat) : (dig B n a).length = n := by
  induction n generalizing a with
  | zero => rfl
  | succ n ih => simp [dig, ih]

theorem digs_dig (hB : 0 < B) (n a : Nat) : Digs B (dig B n a) := by
  induction n generalizing a with
  | zero => exact digs_nil B
  | succ n ih => rw [dig, digs_cons]; exact ⟨Nat.mod_lt _ hB, ih _⟩

theorem val_dig (n a : Nat) : val B (dig B n a) = a % B ^ n := by
  induction n generalizing a with
  | zero => simp [dig, Nat.mod_one]
  | succ n ih => rw [dig, val_cons, ih, pow_succ', Nat.mod_mul]

theorem eq_dig {l : List Nat} {n a : Nat} (hd : Digs B l) (hl : l.length = n)
    (hv : val B l = a % B ^ n) (hB : 0 < B) : l = dig B n a :=
  val_inj hd (digs_dig hB n a) (by simpa using hl) (by rw [val_dig, hv])

theorem dig_mod (hB : 0 < B) (n a : Nat) : dig B n (a % B ^ n) = dig B n a :=
  eq_dig (digs_dig hB n _) (by simp) (by rw [val_dig, Nat.mod_mod]) hB

theorem dig_take (hB : 0 < B) {n k : Nat} (a : Nat) (h : k ≤ n) : (dig B n a).take k = dig B k a := by
  refine eq_dig ((digs_dig hB n a).take k) (by simp; omega) ?_ hB
  have h1 := val_take_add_drop B (dig B n a) k (by simpa using h)
  have h2 := val_lt ((digs_dig hB n a).take k)
  rw [List.length_take, dig_length, Nat.min_eq_left h] at h2
  rw [val_dig] at h1
  have h3 : (a % B ^ n) % B ^ k = a % B ^ k := Nat.mod_mod_of_dvd _ (pow_dvd_pow B h)
  rw [← h3, ← h1, Nat.add_mul_mod_self_left, Nat.mod_eq_of_lt h2]

theorem dig_drop (n k a : Nat) : (dig B n a).drop k = dig B (n - k) (a / B ^ k) := by
  induction k generalizing n a with
  | zero => simp
  | succ k ih =>
    cases n with
    | zero => simp [dig]
    | succ n =>
      rw [dig, List.drop_succ_cons, ih, Nat.div_div_eq_div_mul, ← pow_succ', Nat.add_sub_add_right]

theorem dig_append (hB : 0 < B) (n m a b : Nat) :
    dig B n a ++ dig B m b = dig B (n + m) (a % B ^ n + B ^ n * b) := by
  refine eq_dig ?_ (by simp) ?_ hB
  · rw [digs_append]; exact ⟨digs_dig hB _ _, digs_dig hB _ _⟩
  · rw [val_append, val_dig, val_dig, dig_length, pow_add, Nat.mod_mul,
      Nat.add_mul_mod_self_left, Nat.mod_mod, Nat.add_mul_div_left _ _ (Nat.pow_pos hB),
      Nat.div_eq_of_lt (Nat.mod_lt _ (Nat.pow_pos hB)), Nat.zero_add]

theorem dig_zero (hB : 0 < B) (n : Nat) : dig B n 0 = List.replicate n 0 :=
  (eq_dig (digs_replicate hB) (by simp) (by simp) hB).symm

theorem dig_eq_nil (n a : Nat) : dig B n a = [] ↔ n = 0 := by
  rw [← List.length_eq_zero_iff, dig_length]

/-- A buffer: its length and its value, of which the lowest `n` digits count. -/
structure P where
  n : Nat
  v : Nat

/-- A power, for fast evaluation by the kernel. -/
def pw (B n : Nat) : Nat := Nat.pow B n

theorem pw_eq (B n : Nat) : pw B n = B ^ n := Eq.trans (b := Nat.pow B n) rfl rfl

namespace P

/-- The value of the digits. -/
def num (B : Nat) (p : P) : Nat := p.v % pw B p.n

/-- The digits. -/
def list (B : Nat) (p : P) : List Nat := dig B p.n p.v

@[simp] theorem list_length (p : P) : (p.list B).length = p.n := dig_length _ _
theorem list_digs (hB : 0 < B) (p : P) : Digs B (p.list B) := digs_dig hB _ _
@[simp] theorem list_val (p : P) : val B (p.list B) = p.num B := val_dig _ _
theorem num_mk (n v : Nat) : (⟨n, v⟩ : P).num B = v % B ^ n := rfl
theorem num_lt (hB : 0 < B) (p : P) : p.num B < B ^ p.n := Nat.mod_lt _ (Nat.pow_pos hB)

theorem eq_list {l : List Nat} {p : P} (hB : 0 < B) (hd : Digs B l) (hl : l.length = p.n)
    (hv : val B l = p.num B) : l = p.list B := eq_dig hd hl hv hB

def take (p : P) (k : Nat) : P := ⟨min k p.n, p.v⟩
def drop (B : Nat) (p : P) (k : Nat) : P := ⟨p.n - k, p.v / pw B k⟩
def app (B : Nat) (p q : P) : P := ⟨p.n + q.n, p.num B + pw B p.n * q.v⟩
def zero (n : Nat) : P := ⟨n, 0⟩

theorem list_take (hB : 0 < B) (p : P) (k : Nat) : (p.list B).take k = (p.take k).list B := by
  unfold list take
  rw [← dig_take hB p.v (Nat.min_le_right k p.n)]
  by_cases h : k ≤ p.n
  · rw [Nat.min_eq_left h]
  · rw [Nat.min_eq_right (by omega), List.take_of_length_le (by simp; omega),
      List.take_of_length_le (by simp)]

theorem list_drop (_ : 0 < B) (p : P) (k : Nat) : (p.list B).drop k = (p.drop B k).list B :=
  dig_drop _ _ _

theorem list_app (hB : 0 < B) (p q : P) : p.list B ++ q.list B = (p.app B q).list B :=
  dig_append hB _ _ _ _

theorem list_zero (hB : 0 < B) (n : Nat) : List.replicate n 0 = (zero n).list B := (dig_zero hB n).symm

/-- The model and the computation with pairs do the same. -/
def Sim {α β : Type} (f : β → α) (m : R α) (mP : R β) : Prop := m = f <$> mP

theorem Sim.bind {α β γ δ : Type} {f : β → α} {g : δ → γ} {m : R α} {mP : R β} {k : α → R γ}
    {kP : β → R δ} (h : Sim f m mP) (hk : ∀ b, Sim g (k (f b)) (kP b)) :
    Sim g (m >>= k) (mP >>= kP) := by
  unfold Sim at *
  rw [h]
  cases mP with
  | error e => rfl
  | ok b => exact hk b

theorem Sim.pure {α β : Type} {f : β → α} {a : α} {b : β} (h : a = f b) :
    Sim f (Pure.pure a : R α) (Pure.pure b : R β) := by subst h; rfl

theorem Sim.id {α : Type} (m : R α) : Sim (fun x => x) m m := by cases m <;> rfl

theorem Sim.ite {α β : Type} {f : β → α} {c : Prop} [Decidable c] {cP : Prop} [Decidable cP]
    {m n : R α} {mP nP : R β} (hc : c ↔ cP) (h1 : c → Sim f m mP) (h2 : ¬ c → Sim f n nP) :
    Sim f (if c then m else n) (if cP then mP else nP) := by
  by_cases h : c
  · rw [if_pos h, if_pos (hc.mp h)]; exact h1 h
  · rw [if_neg h, if_neg (fun hh => h (hc.mpr hh))]; exact h2 h

/-- Results that consist of one or two buffers and something else. -/
def l2 (B : Nat) {α : Type} (r : P × α) : List Nat × α := (r.1.list B, r.2)
@[inherit_doc l2]
def ll (B : Nat) (r : P × P) : List Nat × List Nat := (r.1.list B, r.2.list B)
@[inherit_doc l2]
def l3 (B : Nat) {α : Type} (r : P × P × α) : List Nat × List Nat × α := (r.1.list B, r.2.1.list B, r.2.2)

/-! ## Slices -/

/-- `k v`, where the kernel computes `v` first. -/
def fz {α : Type} (v : Nat) (k : Nat → α) : α := Nat.casesOn v (k 0) fun m => k (Nat.succ m)

theorem fz_eq {α : Type} (v : Nat) (k : Nat → α) : fz v k = k v := by cases v <;> rfl

theorem size_of {B v h : Nat} (h1 : B ^ (h - 1) ≤ v) (h2 : v < B ^ h) : size B v = h := by
  unfold size
  cases h with
  | zero => simp at h1 h2; omega
  | succ h =>
    rw [Nat.add_sub_cancel] at h1
    have hB : 2 ≤ B := by
      by_contra hc
      rcases (show B = 0 ∨ B = 1 by omega) with rfl | rfl
      · simp at h2
      · simp at h1 h2; omega
    have h0 : v ≠ 0 := by
      rintro rfl
      have := Nat.pow_pos (n := h) (show 0 < B by omega)
      omega
    rw [if_neg h0, Nat.log_eq_of_pow_le_of_lt_pow h1 h2]

/-- The size, where `h` is a guess. -/
def szh (B v h : Nat) : Nat :=
  if pw B (h - 1) ≤ v then (if v < pw B h then h else size B v)
  else if pw B (h - 1 - 1) ≤ v then h - 1 else size B v

theorem szh_eq (B v h : Nat) : szh B v h = size B v := by
  unfold szh
  simp only [pw_eq]
  split
  next h1 =>
    split
    next h2 => exact (size_of h1 h2).symm
    next h2 => rfl
  next h1 =>
    split
    next h2 => exact (size_of h2 (by omega)).symm
    next h2 => rfl

def slice (B : Nat) (p : P) (a b : Nat) : R P :=
  if a ≤ b ∧ b ≤ p.n then
    fz (b - a) fun n => fz (p.v / pw B a % pw B n) fun v => .ok ⟨n, v⟩
  else .error .index

def split (B : Nat) (p : P) (k : Nat) : R (P × P) :=
  if k ≤ p.n then
    fz k fun k => fz (p.v % pw B k) fun v => fz (p.n - k) fun m => fz (p.v / pw B k) fun w =>
      .ok (⟨k, v⟩, ⟨m, w⟩)
  else .error .index

def onSlice (B : Nat) {α : Type} (p : P) (a b : Nat) (f : P → R (P × α)) : R (P × α) := do
  let s ← p.slice B a b
  let (s', x) ← f s
  let r := ((⟨a, p.v⟩ : P).app B s').app B ⟨p.n - b, p.v / pw B b⟩
  fz r.n fun n => fz r.v fun v => .ok (⟨n, v⟩, x)

/-- Set the digit `i` to one. -/
def set1 (B : Nat) (p : P) (i : Nat) : R P :=
  if i < p.n then .ok (((⟨i, p.v⟩ : P).app B ⟨1, 1⟩).app B ⟨p.n - (i + 1), p.v / pw B (i + 1)⟩)
  else .error .index

def dlz (B : Nat) (p : P) (len : Nat) : R Nat :=
  if len ≤ p.n then fz (szh B (p.v % pw B len) len) fun k => .ok k else .error .index

theorem sim_slice (hB : 0 < B) (p : P) (a b : Nat) :
    Sim (list B) (Babs.slice (p.list B) a b) (p.slice B a b) := by
  unfold Sim P.slice Babs.slice
  simp only [fz_eq, pw_eq]
  rw [list_length]
  split
  next h =>
    simp only [Functor.map, Except.map]
    rw [list_take hB, list_drop hB]
    unfold list take drop
    simp only [pw_eq]
    simp only [Nat.min_eq_left h.2]
    rw [dig_mod hB]
  next => rfl

theorem sim_split (hB : 0 < B) (p : P) (k : Nat) :
    Sim (ll B) (splitAtR (p.list B) k) (p.split B k) := by
  unfold Sim P.split splitAtR
  simp only [fz_eq, pw_eq]
  rw [list_length]
  split
  next h =>
    simp only [Functor.map, Except.map, ll]
    rw [list_take hB, list_drop hB]
    unfold list take drop
    simp only [pw_eq]
    simp only [Nat.min_eq_left h]
    rw [dig_mod hB]
  next => rfl

theorem sim_onSlice {α : Type} (hB : 0 < B) (p : P) (a b : Nat) {f : List Nat → R (List Nat × α)}
    {fP : P → R (P × α)} (hf : ∀ s, Sim (l2 B) (f (s.list B)) (fP s)) :
    Sim (l2 B) (Babs.onSlice (p.list B) a b f) (p.onSlice B a b fP) := by
  unfold Babs.onSlice P.onSlice
  simp only [fz_eq, pw_eq]
  by_cases h : a ≤ b ∧ b ≤ p.n
  · refine Sim.bind (sim_slice hB p a b) fun s => ?_
    refine Sim.bind (hf s) ?_
    rintro ⟨s', x⟩
    refine Sim.pure ?_
    simp only [l2]
    rw [list_take hB, list_drop hB, list_app hB, list_app hB]
    simp only [take, drop, pw_eq, Nat.min_eq_left (Nat.le_trans h.1 h.2)]
  · unfold Sim Babs.slice P.slice
    rw [list_length, if_neg h, if_neg h]
    rfl

theorem sim_set1 (hB : 2 ≤ B) (p : P) (i : Nat) :
    Sim (list B) (setR (p.list B) i 1) (p.set1 B i) := by
  unfold Sim P.set1 setR
  rw [list_length]
  split
  next h =>
    simp only [Functor.map, Except.map]
    rw [List.set_eq_take_append_cons_drop, if_pos (by simpa using h), list_take (by omega),
      list_drop (by omega)]
    have e : [1] = (⟨1, 1⟩ : P).list B := by
      simp [list, dig, Nat.mod_eq_of_lt (show 1 < B by omega)]
    rw [show (1 : Nat) :: (p.drop B (i + 1)).list B = [1] ++ (p.drop B (i + 1)).list B from rfl, e,
      ← List.append_assoc, list_app (by omega), list_app (by omega)]
    simp only [take, drop, Nat.min_eq_left (Nat.le_of_lt h)]
  next => rfl

theorem size_of_canon {l : List Nat} {n len : Nat} (hB : 2 ≤ B) (hl : Digs B l)
    (h1 : l.take len = l.take n ++ List.replicate (len - n) 0) (hc : Canon (l.take n))
    (hn : n ≤ len) (hlen : len ≤ l.length) : n = size B (val B (l.take len)) := by
  have := size_canon hB (hl.take n) hc
  rw [List.length_take, Nat.min_eq_left (by omega)] at this
  rw [h1, val_append_zeros, this]

theorem sim_dlz (hB : 2 ≤ B) (p : P) (len : Nat) :
    Sim (fun x => x) (dropLeadingZeros (p.list B) len) (p.dlz B len) := by
  unfold Sim P.dlz
  simp only [fz_eq, szh_eq, pw_eq]
  split
  next h =>
    obtain ⟨nd, d1, d2, d3, d4⟩ := dropLeadingZeros_spec (p.list B) len (by simpa using h)
    rw [d1, size_of_canon hB (p.list_digs (by omega)) d3 d4 d2 (by simpa using h),
      list_take (by omega), list_val, num, take, Nat.min_eq_left h]
    rfl
  next h =>
    cases len with
    | zero => omega
    | succ k =>
      unfold dropLeadingZeros dropZerosGo getR
      rw [List.getElem?_eq_none (by simp; omega)]
      rfl

/-! ## Comparison and addition -/

def lt (B : Nat) (p q : P) : Bool :=
  if p.n < q.n then true else if q.n < p.n then false else decide (p.num B < q.num B)

theorem list_lt (hB : 0 < B) (p q : P) : ltBig (p.list B) (q.list B) = p.lt B q := by
  unfold lt
  split
  next h => exact ltBig_shorter (by simpa using h)
  next h =>
    split
    next h' => exact ltBig_longer (by simpa using h')
    next h' =>
      have := ltBig_same_length (p.list_digs hB) (q.list_digs hB) (by simp; omega)
      rw [list_val, list_val] at this
      rw [Bool.eq_iff_iff, this, decide_eq_true_eq]

/-- A sum of which the lowest digits are kept. -/
def wrap (B n s : Nat) : P × Bool := (⟨n, s % pw B n⟩, decide (pw B n ≤ s))

theorem wrap_of {r : List Nat} {n s : Nat} {c : Bool} (hB : 0 < B) (hr : Digs B r) (hl : r.length = n)
    (hv : val B r + B ^ n * c.toNat = s) : (r, c) = l2 B (wrap B n s) := by
  have h1 := val_lt hr
  rw [hl] at h1
  simp only [l2, wrap, pw_eq]
  congr 1
  · refine eq_list hB hr hl ?_
    simp only [num, pw_eq, Nat.mod_mod]
    rw [← hv, Nat.add_mul_mod_self_left, Nat.mod_eq_of_lt h1]
  · cases c
    · simp at hv
      simp
      omega
    · simp at hv
      simp
      omega

def inc (B : Nat) (p : P) : R (P × Bool) := .ok (wrap B p.n (p.num B + 1))

def add (B : Nat) (p q : P) : R (P × Bool) :=
  if q.n ≤ p.n then .ok (wrap B p.n (p.num B + q.num B)) else .error .assert

def dbl (B : Nat) (p : P) : R (P × Bool) := .ok (wrap B p.n (2 * p.num B))

def addInto (B : Nat) (p q s : P) : R (P × Res Nat) :=
  let m := max p.n q.n
  if s.n < m then .ok (s, .error .noSpace)
  else
    let t := p.num B + q.num B
    if t < pw B m then .ok ((⟨m, t⟩ : P).app B (s.drop B m), .ok m)
    else if s.n = m then .ok (⟨m, t⟩, .error .noSpace)
    else .ok ((⟨m + 1, t⟩ : P).app B (s.drop B (m + 1)), .ok (m + 1))

variable {D : DigitOps}

theorem sim_inc (L : Lawful D B) (p : P) : Sim (l2 B) (incAssign D (p.list B)) (p.inc B) := by
  obtain ⟨r, c, e1, e2, e3, e4⟩ := incAssign_spec L (p.list B) (p.list_digs L.pos)
  rw [list_length] at e2 e4
  rw [list_val] at e4
  unfold Sim inc
  rw [e1, wrap_of L.pos e3 e2 e4]
  rfl

theorem sim_add (L : Lawful D B) (p q : P) :
    Sim (l2 B) (addAssignBig D (p.list B) (q.list B)) (p.add B q) := by
  unfold Sim add
  split
  next h =>
    obtain ⟨r, c, e1, e2, e3, e4⟩ := addAssignBig_spec L (p.list B) (q.list B) (p.list_digs L.pos)
      (q.list_digs L.pos) (by simpa using h)
    rw [list_length] at e2 e4
    rw [list_val, list_val] at e4
    rw [e1, wrap_of L.pos e3 e2 e4]
    rfl
  next h =>
    unfold addAssignBig
    simp only [list_length]
    rw [show assertR (decide (q.n ≤ p.n)) = .error .assert by simp [assertR, h]]
    rfl

theorem sim_dbl (L : Lawful D B) (p : P) :
    Sim (l2 B) (doubleCarryAssign D (p.list B) false) (p.dbl B) := by
  obtain ⟨r, c, e1, e2, e3, e4⟩ := doubleCarryAssign_spec L (p.list B) false (p.list_digs L.pos)
  rw [list_length] at e2 e4
  rw [list_val] at e4
  unfold Sim dbl
  rw [e1, wrap_of L.pos e3 e2 e4]
  rfl

theorem sim_addInto (L : Lawful D B) (p q s : P) :
    Sim (l2 B) (addBigInto D (p.list B) (q.list B) (s.list B)) (p.addInto B q s) := by
  have hB := L.pos
  unfold Sim addInto
  simp only [pw_eq]
  split
  next h =>
    unfold addBigInto
    simp only [list_length]
    rw [if_pos h]
    rfl
  next h =>
    obtain ⟨r, c, e1, e2, e3, e4, e5⟩ := addBigInto_spec L (p.list B) (q.list B) (s.list B)
      (p.list_digs hB) (q.list_digs hB) (by simpa using h)
    simp only [list_length, list_val] at e1 e4 e5
    have hr := val_lt e2
    rw [e1] at hr
    have hc : c = 0 ∨ c = 1 := by omega
    rw [list_drop hB, list_drop hB] at e5
    rcases hc with rfl | rfl
    · rw [Nat.mul_zero, Nat.add_zero] at e4
      rw [if_pos (by omega)]
      have er : r = (⟨max p.n q.n, p.num B + q.num B⟩ : P).list B :=
        eq_list hB e2 e1 (by rw [num_mk, Nat.mod_eq_of_lt (by omega)]; exact e4)
      rcases e5 with ⟨-, e5⟩ | ⟨h0, -⟩ | ⟨h0, -⟩
      · rw [e5]
        conv_lhs => rw [er]
        rw [list_app hB]
        rfl
      · omega
      · omega
    · rw [Nat.mul_one] at e4
      rw [if_neg (by omega)]
      have er : r = (⟨max p.n q.n, p.num B + q.num B⟩ : P).list B :=
        eq_list hB e2 e1 (by rw [num_mk, ← e4, Nat.add_mod_right, Nat.mod_eq_of_lt hr])
      rcases e5 with ⟨h0, -⟩ | ⟨-, h1, e5⟩ | ⟨-, h1, e5⟩
      · omega
      · rw [if_pos h1, e5]
        conv_lhs => rw [er]
        rfl
      · rw [if_neg (by omega), e5]
        have hb2 := L.base
        have er2 : r ++ [1] = (⟨max p.n q.n + 1, p.num B + q.num B⟩ : P).list B := by
          refine eq_list hB ?_ (by simp [e1]) ?_
          · rw [digs_append]; exact ⟨e2, by simp; omega⟩
          · rw [val_snoc, e1, Nat.mul_one, e4]
            show _ = (p.num B + q.num B) % B ^ (max p.n q.n + 1)
            rw [Nat.mod_eq_of_lt]
            rw [pow_succ, ← e4]
            have : B ^ max p.n q.n * 2 ≤ B ^ max p.n q.n * B := Nat.mul_le_mul_left _ (by omega)
            omega
        rw [show ∀ l : List Nat, r ++ 1 :: l = (r ++ [1]) ++ l by intro l; simp]
        rw [er2, list_app hB]
        rfl

/-! ## Subtraction -/

theorem decGo_len (L : Lawful D B) (n : Nat) (l : List Nat) (hl : Digs B l) (h0 : 0 < val B l) :
    ∃ r, decGo D n l = .ok (r, .ok (if val B l = B ^ (l.length - 1) then n - 1 else n)) := by
  have hB := L.base
  induction l with
  | nil => simp at h0
  | cons d ds ih =>
    rw [digs_cons] at hl
    cases ds with
    | nil =>
      unfold decGo
      rw [L.dec d hl.1, ok_bind]
      simp only [val_cons, val_nil, Nat.mul_zero, Nat.add_zero] at h0
      have hm : (d + (B - 1)) % B = d - 1 := by
        rw [show d + (B - 1) = (d - 1) + B by omega, Nat.add_mod_right, Nat.mod_eq_of_lt (by omega)]
      rw [hm]
      by_cases h1 : d = 1
      · exact ⟨[0], by simp [h1]⟩
      · exact ⟨[d - 1], by simp [h1, show ¬ d = 0 by omega, show ¬ d - 1 = 0 by omega]⟩
    | cons e es =>
      generalize hds : (e :: es) = ds at *
      have hdl : 0 < ds.length := by rw [← hds]; simp
      by_cases hd : d = 0
      · have hv : 0 < val B ds := by
          by_contra hc
          rw [val_cons, show val B ds = 0 by omega, hd] at h0
          simp at h0
        obtain ⟨r, h1⟩ := ih hl.2 hv
        have e1 : (val B (d :: ds) = B ^ ((d :: ds).length - 1)) ↔ val B ds = B ^ (ds.length - 1) := by
          rw [val_cons, hd, List.length_cons, Nat.add_sub_cancel, Nat.zero_add]
          conv_lhs => rw [show ds.length = (ds.length - 1) + 1 by omega, pow_succ']
          exact Nat.mul_right_inj (by omega)
        subst hds
        unfold decGo
        rw [L.dec d hl.1, ok_bind]
        simp only [e1]
        refine ⟨(d + (B - 1)) % B :: r, ?_⟩
        simp only [hd, decide_true, Bool.not_true, Bool.false_eq_true, if_false]
        rw [h1, ok_bind]
        rfl
      · have e1 : ¬ val B (d :: ds) = B ^ ((d :: ds).length - 1) := by
          rw [val_cons, List.length_cons, Nat.add_sub_cancel]
          intro h
          have h1 : (d + B * val B ds) % B = d := by
            rw [Nat.add_mul_mod_self_left, Nat.mod_eq_of_lt hl.1]
          rw [h, show ds.length = (ds.length - 1) + 1 by omega, pow_succ, Nat.mul_mod_left] at h1
          omega
        subst hds
        unfold decGo
        rw [L.dec d hl.1, ok_bind, if_neg e1]
        exact ⟨(d + (B - 1)) % B :: e :: es, by simp [hd]⟩

/-- The length that the subtraction of `b`, of `n1` digits, from `a`, of `n0` digits, returns. -/
def subLen (B n0 n1 a b : Nat) : Nat :=
  if a % pw B n1 < b then (if a / pw B n1 = pw B (n0 - n1 - 1) then n0 - 1 else n0) else szh B (a - b) n0

theorem sub_finish_len (L : Lawful D B) {l0 l1 r1 hi q r : List Nat} {c1 : Bool} {res : Res Nat}
    (hlen : l1.length ≤ l0.length) (h0 : Digs B l0)
    (hhi : hi = l0.drop l1.length) (e2 : r1.length = l1.length) (e3 : Digs B r1)
    (e6 : val B r1 + val B l1 = val B (l0.take l1.length) + B ^ l1.length * c1.toNat)
    (hle : val B l1 ≤ val B l0)
    (h : (if c1 then do
        let (diff, r) ← Babs.onSlice (r1 ++ hi ++ q) l1.length l0.length (decAssign D)
        match r with
        | .error e => return (diff, .error e)
        | .ok nd => return (diff, .ok (l1.length + nd))
      else do return (r1 ++ hi ++ q, .ok (← dropLeadingZeros (r1 ++ hi ++ q) l0.length))
      : R (List Nat × Res Nat)) = .ok (r ++ q, res)) :
    res = .ok (subLen B l0.length l1.length (val B l0) (val B l1)) := by
  have hv := val_take_add_drop B l0 l1.length hlen
  rw [← hhi] at hv
  have hhil : hi.length = l0.length - l1.length := by rw [hhi]; simp
  have hhid : Digs B hi := by rw [hhi]; exact h0.drop _
  have hBpos := L.pos
  have hB := L.base
  have hlo := val_lt (h0.take l1.length)
  rw [List.length_take, Nat.min_eq_left hlen] at hlo
  have hmod : val B l0 % B ^ l1.length = val B (l0.take l1.length) := by
    rw [← hv, Nat.add_mul_mod_self_left, Nat.mod_eq_of_lt hlo]
  have hdiv : val B l0 / B ^ l1.length = val B hi := by
    rw [← hv, Nat.add_mul_div_left _ _ (Nat.pow_pos hBpos), Nat.div_eq_of_lt hlo, Nat.zero_add]
  have hr1 := val_lt e3
  rw [e2] at hr1
  unfold subLen
  simp only [pw_eq]
  rw [szh_eq, hmod, hdiv]
  cases c1 with
  | false =>
    simp only [Bool.toNat_false, Nat.mul_zero, Nat.add_zero] at e6
    rw [if_neg (by omega)]
    obtain ⟨nd, d1, d2, d3, d4⟩ := dropLeadingZeros_spec (r1 ++ hi ++ q) l0.length
      (by simp; omega)
    simp only [Bool.false_eq_true, if_false] at h
    rw [d1, ok_bind] at h
    injection h with h
    injection h with h2 h3
    have hl : (r1 ++ hi).length = l0.length := by simp; omega
    have hdd : Digs B ((r1 ++ hi ++ q).take nd) := by
      rw [List.take_append_of_le_length (by omega)]
      exact Digs.take ((digs_append _ _ _).mpr ⟨e3, hhid⟩) _
    have hs := size_canon (by omega) hdd d4
    rw [List.length_take, Nat.min_eq_left (by simp; omega)] at hs
    have hval : val B ((r1 ++ hi ++ q).take nd) = val B l0 - val B l1 := by
      have := congrArg (val B) d3
      rw [val_append_zeros, List.take_left' hl, val_append, e2] at this
      omega
    rw [hval] at hs
    rw [← h3, hs]
  | true =>
    simp only [Bool.toNat_true, Nat.mul_one] at e6
    rw [if_pos (by omega)]
    have hpos : 0 < val B hi := by
      by_contra hc
      rw [show val B hi = 0 by omega] at hv
      simp at hv
      omega
    obtain ⟨r2, f1⟩ := decGo_len L hi.length hi hhid hpos
    have hne : hi ≠ [] := by rintro rfl; simp at hpos
    have hip := List.length_pos_iff.mpr hne
    rw [if_pos rfl, onSlice_append e2 (by omega)] at h
    unfold decAssign at h
    rw [f1] at h
    rw [← hhil]
    injection h with h
    injection h with h2 h3
    rw [← h3]
    split <;> congr 1 <;> omega

/-- The difference in a buffer of `n` digits. -/
def diff (B n0 n1 a b : Nat) : P × Res Nat :=
  if a < b then (⟨n0, a + pw B n0 - b⟩, .error .underflow)
  else (⟨n0, a - b⟩, .ok (subLen B n0 n1 a b))

theorem diff_of {l0 l1 r : List Nat} {res : Res Nat} (hB : 0 < B) (h0 : Digs B l0)
    (h : SubPost B l0 l1 r res) (hl : val B l1 ≤ val B l0 →
      res = .ok (subLen B l0.length l1.length (val B l0) (val B l1))) :
    (r, res) = l2 B (diff B l0.length l1.length (val B l0) (val B l1)) := by
  have hv0 := val_lt h0
  unfold diff
  rw [pw_eq]
  rcases h.cases with ⟨a1, a2, a3⟩ | ⟨a1, nd, -, -, a3, -⟩
  · rw [if_pos a1, a2]
    simp only [l2]
    congr 1
    refine eq_list hB h.digs h.len ?_
    rw [num_mk, Nat.mod_eq_of_lt (by omega)]
    omega
  · rw [if_neg (by omega), hl a1]
    simp only [l2]
    congr 1
    refine eq_list hB h.digs h.len ?_
    rw [num_mk, Nat.mod_eq_of_lt (by omega)]
    omega

theorem subAssignBig_len (L : Lawful D B) (l0 l1 : List Nat) (h0 : Digs B l0) (h1 : Digs B l1)
    (hlen : l1.length ≤ l0.length) :
    subAssignBig D l0 l1 = .ok (l2 B (diff B l0.length l1.length (val B l0) (val B l1))) := by
  obtain ⟨r1, c1, e1, e2, e3, -, e5⟩ := zipDigits_spec (subCarry_step L) (l0.take l1.length) l1
    (l0.drop l1.length) false (by simp [hlen]) (h0.take _) h1 trivial
  rw [List.take_append_drop] at e1
  have hlt : (l0.take l1.length).length = l1.length := by simp [hlen]
  rw [hlt] at e2 e5
  obtain ⟨r, res, f1, f2⟩ := sub_finish L l0 l1 r1 (l0.drop l1.length) [] c1 hlen h0 rfl e2 e3
    (sub_common l0 l1 r1 c1 e5)
  rw [← diff_of L.pos h0 f1 (fun hle => sub_finish_len L hlen h0 rfl e2 e3
    (sub_common l0 l1 r1 c1 e5) hle f2)]
  unfold subAssignBig
  simp only [List.append_nil] at f2
  rw [← f2]
  simp only [if_neg (show ¬ l0.length < l1.length by omega), e1, ok_bind]
  all_goals rfl

theorem subBigInto_len (L : Lawful D B) (l0 l1 d : List Nat) (h0 : Digs B l0) (h1 : Digs B l1)
    (hlen : l1.length ≤ l0.length) (hd : l0.length ≤ d.length) :
    subBigInto D l0 l1 d = .ok
      ((l2 B (diff B l0.length l1.length (val B l0) (val B l1))).1 ++ d.drop l0.length,
        (l2 B (diff B l0.length l1.length (val B l0) (val B l1))).2) := by
  obtain ⟨p, s, q, hdiff, hp, hs, -, -, hq⟩ := split3 d hlen hd
  obtain ⟨r1, c1, e1, e2, e3, -, e5⟩ := zipInto_spec (subCarry_step L) (l0.take l1.length)
    l1 p (l0.drop l1.length) [] (s ++ q) false
    (by simp [hlen]) (by simp; omega) (Or.inr rfl) (h0.take _) h1 trivial
  rw [List.take_append_drop, List.append_nil, ← List.append_assoc, ← hdiff] at e1
  have hlt : (l0.take l1.length).length = l1.length := by simp [hlen]
  rw [hlt] at e2 e5
  obtain ⟨r, res, f1, f2⟩ := sub_finish L l0 l1 r1 (l0.drop l1.length) q c1 hlen h0 rfl e2 e3
    (sub_common l0 l1 r1 c1 e5)
  rw [← diff_of L.pos h0 f1 (fun hle => sub_finish_len L hlen h0 rfl e2 e3
    (sub_common l0 l1 r1 c1 e5) hle f2)]
  rw [← hq, ← f2]
  unfold subBigInto
  simp only [if_neg (show ¬ l0.length < l1.length by omega),
    if_neg (show ¬ d.length < l0.length by omega), e1, ok_bind]
  rw [← List.append_assoc, copyInto_append e2 (by omega) (by simp; omega), ok_bind]
  all_goals rfl

def sub (B : Nat) (p q : P) : R (P × Res Nat) :=
  if p.n < q.n then .ok (p, .error .underflow)
  else fz (p.num B) fun a => fz (q.num B) fun b => .ok (diff B p.n q.n a b)

def subInto (B : Nat) (p q d : P) : R (P × Res Nat) :=
  if d.n < p.n then .ok (d, .error .noSpace)
  else if p.n < q.n then .ok (d, .error .underflow)
  else
    fz (p.num B) fun a => fz (q.num B) fun b =>
      let r := diff B p.n q.n a b
      let s := r.1.app B (d.drop B p.n)
      fz s.n fun n => fz s.v fun v => .ok (⟨n, v⟩, r.2)

def rsub (B : Nat) (p q : P) : R (P × Res Nat) :=
  if q.n = p.n then
    fz (q.num B) fun a => fz (p.num B) fun b =>
      if a < b then .ok (⟨p.n, a + pw B p.n - b⟩, .error .underflow)
      else fz (a - b) fun d => fz (szh B d p.n) fun k => .ok (⟨p.n, d⟩, .ok k)
  else .error .assert

theorem sim_sub (L : Lawful D B) (p q : P) :
    Sim (l2 B) (subAssignBig D (p.list B) (q.list B)) (p.sub B q) := by
  unfold Sim sub
  simp only [fz_eq]
  split
  next h => rw [subAssignBig_short (by simpa using h)]; rfl
  next h =>
    rw [subAssignBig_len L _ _ (p.list_digs L.pos) (q.list_digs L.pos) (by simp; omega)]
    simp only [list_length, list_val]
    rfl

theorem sim_subInto (L : Lawful D B) (p q d : P) :
    Sim (l2 B) (subBigInto D (p.list B) (q.list B) (d.list B)) (p.subInto B q d) := by
  unfold Sim subInto
  simp only [fz_eq]
  split
  next h =>
    unfold subBigInto
    simp only [list_length]
    rw [if_pos h]
    rfl
  next h =>
    split
    next h' =>
      unfold subBigInto
      simp only [list_length]
      rw [if_neg h, if_pos h']
      rfl
    next h' =>
      rw [subBigInto_len L _ _ _ (p.list_digs L.pos) (q.list_digs L.pos) (by simp; omega)
        (by simp; omega)]
      simp only [list_length, list_val]
      rw [list_drop L.pos]
      simp only [l2, list_app L.pos]
      rfl

theorem sim_rsub (L : Lawful D B) (p q : P) :
    Sim (l2 B) (rsubAssignBig D (p.list B) (q.list B)) (p.rsub B q) := by
  have hB := L.base
  unfold Sim rsub
  simp only [fz_eq, szh_eq, pw_eq]
  split
  next h =>
    obtain ⟨r, res, e1, e2⟩ := rsubAssignBig_spec L (p.list B) (q.list B) (p.list_digs L.pos)
      (q.list_digs L.pos) (by simp; omega)
    have hlen := e2.len
    rw [list_length] at hlen
    have hq := q.num_lt (B := B) L.pos
    have hp := p.num_lt (B := B) L.pos
    have e3 := e2.cases
    simp only [list_val, list_length] at e3
    rw [e1]
    rcases e3 with ⟨a1, a2, a3⟩ | ⟨a1, nd, a2, a3, a4, a5, a6, a7⟩
    · rw [if_pos a1, a2]
      simp only [Functor.map, Except.map, l2]
      congr 2
      refine eq_list L.pos e2.digs (by rw [hlen, h]) ?_
      show _ = (q.num B + B ^ p.n - p.num B) % B ^ p.n
      rw [← h] at hp ⊢
      rw [Nat.mod_eq_of_lt (by omega)]
      omega
    · rw [if_neg (by omega), a2]
      simp only [Functor.map, Except.map, l2]
      have hs := size_canon (by omega) (e2.digs.take nd) (a6 (Or.inl (by omega)))
      rw [List.length_take, Nat.min_eq_left (by omega)] at hs
      have hval : val B (r.take nd) = q.num B - p.num B := by
        have := congrArg (val B) a5
        rw [val_append_zeros] at this
        omega
      rw [hval] at hs
      rw [hs]
      congr 2
      refine eq_list L.pos e2.digs (by rw [hlen, h]) ?_
      show _ = (q.num B - p.num B) % B ^ p.n
      rw [← h, Nat.mod_eq_of_lt (by omega)]
      omega
  next h =>
    unfold rsubAssignBig
    simp only [list_length]
    rw [show assertR (decide (q.n = p.n)) = .error .assert by simp [assertR, h]]
    rfl

/-! ## Division by two and three, and squares of short numbers -/

def div3 (B : Nat) (p : P) : R (P × Nat × Nat) :=
  fz (p.num B) fun a => fz (a / 3) fun d => fz (szh B d p.n) fun k => .ok (⟨p.n, d⟩, k, a % 3)

def shr1 (B : Nat) (p : P) (c : Nat) : R (P × Nat × Nat) :=
  fz (c * pw B p.n + p.num B) fun v => fz (v / 2) fun d => fz (szh B d p.n) fun k =>
    .ok (⟨p.n, d⟩, k, v % 2)

def sqLong (B : Nat) (x p : P) : R (P × Nat) :=
  if 2 * x.n ≤ p.n then
    fz (x.num B * x.num B) fun s => fz (szh B s (2 * x.n)) fun k =>
      let r := (⟨2 * x.n, s⟩ : P).app B (p.drop B (2 * x.n))
      fz r.n fun n => fz r.v fun v => .ok (⟨n, v⟩, k)
  else .error .index

theorem sim_div3 (L : Lawful D B) (p : P) :
    Sim (l2 B) (div3CarryAssign D (p.list B) 0) (p.div3 B) := by
  have hB := L.base
  obtain ⟨r, nd, rem, e1, e2, e3, e4, e5, e6, e7, e8⟩ :=
    div3CarryAssign_spec L (p.list B) 0 (p.list_digs L.pos) (by omega)
  simp only [list_length, list_val] at e2 e5 e6 e7
  have hs := size_canon (by omega) (e3.take nd) e8
  rw [List.length_take, Nat.min_eq_left (by omega)] at hs
  have hval : val B (r.take nd) = val B r := by
    have := congrArg (val B) e7
    rw [val_append_zeros] at this
    exact this.symm
  have hp := p.num_lt (B := B) L.pos
  have h1 : val B r = p.num B / 3 := by omega
  unfold Sim div3
  simp only [fz_eq, szh_eq]
  rw [e1]
  simp only [Functor.map, Except.map, l2]
  rw [hval, h1] at hs
  rw [hs, show rem = p.num B % 3 by omega]
  congr 2
  refine eq_list L.pos e3 e2 ?_
  rw [num_mk, Nat.mod_eq_of_lt (by omega), h1]

theorem sim_shr1 (L : Lawful D B) (p : P) (c : Nat) (hc : c < 2) :
    Sim (l2 B) (shrWithin D (p.list B) 1 c) (p.shr1 B c) := by
  have hB := L.base
  obtain ⟨r, nd, rem, e1, e2, e3, e4, e5, e6, e7, e8⟩ :=
    shrWithin_spec L (p.list B) 1 c (p.list_digs L.pos) (by omega) (by omega)
  simp only [list_length, list_val] at e2 e5 e6 e7
  have hs := size_canon (by omega) (e3.take nd) e8
  rw [List.length_take, Nat.min_eq_left (by omega)] at hs
  have hval : val B (r.take nd) = val B r := by
    have := congrArg (val B) e7
    rw [val_append_zeros] at this
    exact this.symm
  have hr := val_lt e3
  rw [e2] at hr
  have h1 : val B r = (c * B ^ p.n + p.num B) / 2 := by omega
  unfold Sim shr1
  simp only [fz_eq, szh_eq, pw_eq]
  rw [e1]
  simp only [Functor.map, Except.map, l2]
  rw [hval, h1] at hs
  rw [hs, show rem = (c * B ^ p.n + p.num B) % 2 by omega]
  congr 2
  refine eq_list L.pos e3 e2 ?_
  rw [num_mk, Nat.mod_eq_of_lt (by omega), h1]

theorem sim_sqLong {dbg : Bool} (L : Lawful D B) (x p : P) (hx : x.n ≠ 0) :
    Sim (l2 B) (squareLongInto D dbg (x.list B) (p.list B)) (x.sqLong B p) := by
  have hB := L.base
  unfold Sim sqLong
  simp only [fz_eq, szh_eq, ← pow_two]
  split
  next h =>
    obtain ⟨⟨r', n⟩, e1, ⟨r, e2, e3, e4, e5, e6, e7, e8⟩⟩ := squareLongInto_spec (dbg := dbg) L
      (x.list B) (p.list B) (x.list_digs L.pos) (by simpa [list, dig_eq_nil] using hx) (by simpa using h)
    simp only [list_length, list_val] at e2 e3 e5 e6 e7 e8
    have hs := size_canon (by omega) (e4.take n) e8
    rw [List.length_take, Nat.min_eq_left (by omega)] at hs
    have hval : val B (r.take n) = val B r := by
      have := congrArg (val B) e7
      rw [val_append_zeros] at this
      exact this.symm
    have hr := val_lt e4
    rw [e3, e5] at hr
    rw [hval, e5] at hs
    rw [e1]
    simp only [Functor.map, Except.map, l2]
    rw [← list_app L.pos, ← list_drop L.pos, e2, hs]
    congr 3
    refine eq_list L.pos e4 e3 ?_
    rw [num_mk, Nat.mod_eq_of_lt hr, e5]
  next h =>
    unfold squareLongInto Babs.onSlice Babs.slice
    simp only [list_length]
    rw [if_neg (by omega)]
    rfl

end P

end Babs
