import Verif.Proofs.PackedSquare

/-!
The computation with packed buffers again, in terms that take the kernel few steps to evaluate.
-/

namespace Babs.P.F

open Babs

variable {B : Nat}

/-! ## Building blocks -/

def sel {α : Type} (c : Bool) (a b : α) : α := Bool.casesOn c b a
def mx (a b : Nat) : Nat := sel (Nat.ble a b) b a
def mn (a b : Nat) : Nat := sel (Nat.ble a b) a b
def bnd {α β : Type} (m : R α) (k : α → R β) : R β :=
  @Except.casesOn Panic α (fun _ => R β) m (fun e => .error e) k
def bnd2 {α β γ : Type} (m : R (α × β)) (k : α → β → R γ) : R γ :=
  @Except.casesOn Panic (α × β) (fun _ => R γ) m (fun e => .error e) fun x => Prod.casesOn x k
def bnd3 {α β γ δ : Type} (m : R (α × β × γ)) (k : α → β → γ → R δ) : R δ :=
  @Except.casesOn Panic (α × β × γ) (fun _ => R δ) m (fun e => .error e) fun x =>
    Prod.casesOn x fun a y => Prod.casesOn y (k a)
/-- The result of an operation with a result that must not be an error. -/
def bndU {α β γ : Type} (m : R (α × Res β)) (k : α → β → R γ) : R γ :=
  bnd2 m fun a r => @Except.casesOn Error β (fun _ => R γ) r (fun _ => .error .unwrap) (k a)

theorem sel_eq {α : Type} (c : Bool) (a b : α) : sel c a b = if c then a else b := by cases c <;> rfl
theorem sel_le {α : Type} (m n : Nat) (a b : α) :
    sel (Nat.ble m n) a b = if m ≤ n then a else b := by
  rw [sel_eq]; simp only [Nat.ble_eq]
theorem mx_eq (a b : Nat) : mx a b = max a b := by unfold mx; rw [sel_le]; rfl
theorem mn_eq (a b : Nat) : mn a b = min a b := by unfold mn; rw [sel_le]; rfl
theorem bnd_eq {α β : Type} (m : R α) (k : α → R β) : bnd m k = m >>= k := by cases m <;> rfl
theorem bnd2_eq {α β γ : Type} (m : R (α × β)) (k : α → β → R γ) :
    bnd2 m k = m >>= fun x => k x.1 x.2 := by cases m <;> rfl
theorem bnd3_eq {α β γ δ : Type} (m : R (α × β × γ)) (k : α → β → γ → R δ) :
    bnd3 m k = m >>= fun x => k x.1 x.2.1 x.2.2 := by cases m <;> rfl
theorem bndU_eq {α β γ : Type} (m : R (α × Res β)) (k : α → β → R γ) :
    bndU m k = m >>= fun x => unwrapR x.2 >>= fun n => k x.1 n := by
  rcases m with e | ⟨a, r | r⟩ <;> rfl

/-- Assertions. -/
def ast {α : Type} (c : Bool) (k : R α) : R α := sel c k (.error .assert)
@[inherit_doc ast]
def dast {α : Type} (dbg c : Bool) (k : R α) : R α := sel dbg (sel c k (.error .debugAssert)) k

theorem ast_eq {α : Type} (c : Bool) (k : R α) : ast c k = assertR c >>= fun _ => k := by
  cases c <;> rfl
theorem ast_le {α : Type} (m n : Nat) (k : R α) :
    ast (Nat.ble m n) k = assertR (decide (m ≤ n)) >>= fun _ => k := by
  rw [ast_eq, show Nat.ble m n = decide (m ≤ n) by rw [Bool.eq_iff_iff]; simp]
theorem dast_eq {α : Type} (dbg c : Bool) (k : R α) : dast dbg c k = debugAssertR dbg c >>= fun _ => k := by
  cases dbg <;> cases c <;> rfl
theorem dast_le {α : Type} (dbg : Bool) (m n : Nat) (k : R α) :
    dast dbg (Nat.ble m n) k = debugAssertR dbg (decide (m ≤ n)) >>= fun _ => k := by
  rw [dast_eq, show Nat.ble m n = decide (m ≤ n) by rw [Bool.eq_iff_iff]; simp]

/-! ## Buffers -/

def num (B : Nat) (p : P) : Nat := Nat.mod p.v (Nat.pow B p.n)

def app (B : Nat) (p q : P) : P :=
  fz (Nat.add p.n q.n) fun n => fz (Nat.add (num B p) (Nat.mul (Nat.pow B p.n) q.v)) fun v => ⟨n, v⟩

def szh (B v h : Nat) : Nat :=
  sel (Nat.ble (Nat.pow B (Nat.sub h (nat_lit 1))) v)
    (sel (Nat.ble (Nat.pow B h) v) (size B v) h)
    (sel (Nat.ble (Nat.pow B (Nat.sub h (nat_lit 2))) v) (Nat.sub h (nat_lit 1)) (size B v))

def slice (B : Nat) (p : P) (a b : Nat) : R P :=
  sel (Nat.ble a b)
    (sel (Nat.ble b p.n)
      (fz (Nat.sub b a) fun n => fz (Nat.mod (Nat.div p.v (Nat.pow B a)) (Nat.pow B n)) fun v =>
        .ok ⟨n, v⟩)
      (.error .index))
    (.error .index)

def slice0 (B : Nat) (p : P) (b : Nat) : R P :=
  sel (Nat.ble b p.n) (fz b fun n => fz (Nat.mod p.v (Nat.pow B n)) fun v => .ok ⟨n, v⟩) (.error .index)

def split (B : Nat) (p : P) (k : Nat) : R (P × P) :=
  sel (Nat.ble k p.n)
    (fz k fun k => fz (Nat.pow B k) fun m => fz (Nat.mod p.v m) fun v => fz (Nat.sub p.n k) fun n =>
      fz (Nat.div p.v m) fun w => .ok (⟨k, v⟩, ⟨n, w⟩))
    (.error .index)

def onSlice {α : Type} (B : Nat) (p : P) (a b : Nat) (f : P → R (P × α)) : R (P × α) :=
  bnd (slice B p a b) fun s => bnd2 (f s) fun s' x =>
    fz (Nat.add (Nat.add a s'.n) (Nat.sub p.n b)) fun n =>
    fz (Nat.pow B a) fun m =>
    fz (Nat.add (Nat.mod p.v m) (Nat.mul m (Nat.add (num B s')
      (Nat.mul (Nat.pow B s'.n) (Nat.div p.v (Nat.pow B b)))))) fun v => .ok (⟨n, v⟩, x)

def on0 {α : Type} (B : Nat) (p : P) (b : Nat) (f : P → R (P × α)) : R (P × α) :=
  bnd (slice0 B p b) fun s => bnd2 (f s) fun s' x =>
    fz (Nat.add s'.n (Nat.sub p.n b)) fun n =>
    fz (Nat.add (num B s') (Nat.mul (Nat.pow B s'.n) (Nat.div p.v (Nat.pow B b)))) fun v =>
      .ok (⟨n, v⟩, x)

def dlz (B : Nat) (p : P) (len : Nat) : R Nat :=
  sel (Nat.ble len p.n) (fz (Nat.mod p.v (Nat.pow B len)) fun v => fz (szh B v len) fun k => .ok k)
    (.error .index)

def lt (B : Nat) (p q : P) : Bool :=
  sel (Nat.beq p.n q.n) (sel (Nat.ble (num B q) (num B p)) false true) (Nat.ble p.n q.n)

def add (B : Nat) (p q : P) : R (P × Bool) :=
  sel (Nat.ble q.n p.n)
    (fz (Nat.add (num B p) (num B q)) fun s => fz (Nat.pow B p.n) fun m =>
      .ok (⟨p.n, Nat.mod s m⟩, Nat.ble m s))
    (.error .assert)

def dbl (B : Nat) (p : P) : R (P × Bool) :=
  fz (Nat.mul (nat_lit 2) (num B p)) fun s => fz (Nat.pow B p.n) fun m =>
    .ok (⟨p.n, Nat.mod s m⟩, Nat.ble m s)

def addInto (B : Nat) (p q s : P) : R (P × Res Nat) :=
  fz (mx p.n q.n) fun m =>
  sel (Nat.ble m s.n)
    (fz (Nat.add (num B p) (num B q)) fun t =>
      sel (Nat.ble (Nat.pow B m) t)
        (sel (Nat.beq s.n m) (.ok (⟨m, t⟩, .error .noSpace))
          (fz (Nat.add m (nat_lit 1)) fun k =>
            .ok (app B ⟨k, t⟩ ⟨Nat.sub s.n k, Nat.div s.v (Nat.pow B k)⟩, .ok k)))
        (.ok (app B ⟨m, t⟩ ⟨Nat.sub s.n m, Nat.div s.v (Nat.pow B m)⟩, .ok m)))
    (.ok (s, .error .noSpace))

def subLen (B n0 n1 a b d : Nat) : Nat :=
  fz (Nat.pow B n1) fun m =>
  sel (Nat.ble b (Nat.mod a m)) (szh B d n0)
    (sel (Nat.beq (Nat.div a m) (Nat.pow B (Nat.sub (Nat.sub n0 n1) (nat_lit 1))))
      (Nat.sub n0 (nat_lit 1)) n0)

def diff (B n0 n1 a b : Nat) : P × Res Nat :=
  sel (Nat.ble b a)
    (fz (Nat.sub a b) fun d => fz (subLen B n0 n1 a b d) fun k => (⟨n0, d⟩, .ok k))
    (⟨n0, Nat.sub (Nat.add a (Nat.pow B n0)) b⟩, .error .underflow)

def sub (B : Nat) (p q : P) : R (P × Res Nat) :=
  sel (Nat.ble q.n p.n)
    (fz (num B p) fun a => fz (num B q) fun b => .ok (diff B p.n q.n a b))
    (.ok (p, .error .underflow))

def subInto (B : Nat) (p q d : P) : R (P × Res Nat) :=
  sel (Nat.ble p.n d.n)
    (sel (Nat.ble q.n p.n)
      (fz (num B p) fun a => fz (num B q) fun b =>
        @Prod.casesOn P (Res Nat) (fun _ => R (P × Res Nat)) (diff B p.n q.n a b) fun s r =>
          .ok (app B s ⟨Nat.sub d.n p.n, Nat.div d.v (Nat.pow B p.n)⟩, r))
      (.ok (d, .error .underflow)))
    (.ok (d, .error .noSpace))

def rsub (B : Nat) (p q : P) : R (P × Res Nat) :=
  sel (Nat.beq q.n p.n)
    (fz (num B q) fun a => fz (num B p) fun b =>
      sel (Nat.ble b a)
        (fz (Nat.sub a b) fun d => fz (szh B d p.n) fun k => .ok (⟨p.n, d⟩, .ok k))
        (.ok (⟨p.n, Nat.sub (Nat.add a (Nat.pow B p.n)) b⟩, .error .underflow)))
    (.error .assert)

def div3 (B : Nat) (p : P) : R (P × Nat × Nat) :=
  fz (num B p) fun a => fz (Nat.div a (nat_lit 3)) fun d => fz (szh B d p.n) fun k =>
    .ok (⟨p.n, d⟩, k, Nat.mod a (nat_lit 3))

def shr1 (B : Nat) (p : P) (c : Nat) : R (P × Nat × Nat) :=
  fz (Nat.add (Nat.mul c (Nat.pow B p.n)) (num B p)) fun v => fz (Nat.div v (nat_lit 2)) fun d =>
    fz (szh B d p.n) fun k => .ok (⟨p.n, d⟩, k, Nat.mod v (nat_lit 2))

def sqLong (B : Nat) (x p : P) : R (P × Nat) :=
  fz (Nat.mul (nat_lit 2) x.n) fun n2 =>
  sel (Nat.ble n2 p.n)
    (fz (num B x) fun a => fz (Nat.mul a a) fun s => fz (szh B s n2) fun k =>
      .ok (app B ⟨n2, s⟩ ⟨Nat.sub p.n n2, Nat.div p.v (Nat.pow B n2)⟩, k))
    (.error .index)

theorem num_eq (B : Nat) (p : P) : num B p = P.num B p := rfl

theorem app_eq (B : Nat) (p q : P) : app B p q = P.app B p q := by
  unfold app
  simp only [fz_eq]
  rfl

theorem szh_eq (B v h : Nat) : szh B v h = size B v := by
  rw [← P.szh_eq B v h]
  unfold szh P.szh
  simp only [sel_le]
  rw [← ite_not (Nat.pow B h ≤ v)]
  simp only [Nat.not_le]
  rfl

theorem slice_eq (B : Nat) (p : P) (a b : Nat) : slice B p a b = P.slice B p a b := by
  unfold slice P.slice
  simp only [sel_le, fz_eq]
  by_cases h1 : a ≤ b <;> by_cases h2 : b ≤ p.n <;> simp only [h1, h2] <;> rfl

theorem slice0_eq (B : Nat) (p : P) (b : Nat) : slice0 B p b = P.slice B p 0 b := by
  unfold slice0 P.slice
  simp only [sel_le, fz_eq, pw_eq, pow_zero, Nat.div_one, Nat.sub_zero, Nat.zero_le, true_and]
  rfl

theorem split_eq (B : Nat) (p : P) (k : Nat) : split B p k = P.split B p k := by
  unfold split P.split
  simp only [sel_le, fz_eq]
  rfl

theorem app_app (hB : 0 < B) (a n v w : Nat) (s : P) :
    P.app B (P.app B ⟨a, v⟩ s) ⟨n, w⟩
      = ⟨a + s.n + n, v % B ^ a + B ^ a * (s.num B + B ^ s.n * w)⟩ := by
  unfold P.app P.num
  simp only [pw_eq]
  have h : 0 < B ^ a := Nat.pow_pos hB
  rw [pow_add, Nat.mod_mul, Nat.add_mul_mod_self_left, Nat.mod_mod, Nat.add_mul_div_left _ _ h,
    Nat.div_eq_of_lt (Nat.mod_lt _ h), Nat.zero_add, Nat.mul_add, Nat.mul_assoc]
  simp only [Nat.add_assoc]

theorem onSlice_eq {α : Type} (hB : 0 < B) (p : P) (a b : Nat) (f : P → R (P × α)) :
    onSlice B p a b f = P.onSlice B p a b f := by
  unfold onSlice P.onSlice
  simp only [bnd_eq, bnd2_eq, fz_eq, slice_eq, app_app hB, pw_eq]
  rfl

theorem on0_eq {α : Type} (hB : 0 < B) (p : P) (b : Nat) (f : P → R (P × α)) :
    on0 B p b f = P.onSlice B p 0 b f := by
  unfold on0 P.onSlice
  simp only [bnd_eq, bnd2_eq, fz_eq, slice0_eq, app_app hB, pw_eq, pow_zero, Nat.mod_one, Nat.zero_add,
    Nat.one_mul]
  rfl

theorem dlz_eq (B : Nat) (p : P) (len : Nat) : dlz B p len = P.dlz B p len := by
  unfold dlz P.dlz
  simp only [sel_le, fz_eq, szh_eq, P.szh_eq]
  rfl

theorem lt_eq (B : Nat) (p q : P) : lt B p q = P.lt B p q := by
  unfold lt P.lt
  simp only [sel_eq, Nat.ble_eq, num_eq, Nat.beq_eq]
  by_cases h : p.n = q.n
  · rw [if_pos h, if_neg (show ¬ p.n < q.n by omega), if_neg (show ¬ q.n < p.n by omega)]
    by_cases h2 : P.num B q ≤ P.num B p
    · rw [if_pos h2]; simp; omega
    · rw [if_neg h2]; simp; omega
  · rw [if_neg h, Bool.eq_iff_iff, Nat.ble_eq]
    by_cases h2 : p.n < q.n
    · rw [if_pos h2]; simp; omega
    · rw [if_neg h2, if_pos (by omega)]; simp; omega

theorem ble_dec (a b : Nat) : Nat.ble a b = decide (a ≤ b) := by rw [Bool.eq_iff_iff]; simp

theorem add_eq (B : Nat) (p q : P) : add B p q = P.add B p q := by
  unfold add P.add wrap
  simp only [sel_le, fz_eq]
  simp only [ble_dec]
  rfl

theorem dbl_eq (B : Nat) (p : P) : dbl B p = P.dbl B p := by
  unfold dbl P.dbl wrap
  simp only [fz_eq, ble_dec]
  rfl

theorem addInto_eq (B : Nat) (p q s : P) : addInto B p q s = P.addInto B p q s := by
  unfold addInto P.addInto
  simp only [sel_eq, Nat.ble_eq, fz_eq, mx_eq, num_eq, app_eq, Nat.beq_eq]
  by_cases h : max p.n q.n ≤ s.n
  · rw [if_pos h, if_neg (show ¬ s.n < max p.n q.n by omega)]
    rw [← ite_not (Nat.pow B _ ≤ _)]
    simp only [Nat.not_le]
    rfl
  · rw [if_neg h, if_pos (by omega)]

theorem subLen_eq (B n0 n1 a b : Nat) : subLen B n0 n1 a b (a - b) = P.subLen B n0 n1 a b := by
  unfold subLen P.subLen
  simp only [sel_eq, Nat.ble_eq, fz_eq, szh_eq, P.szh_eq, Nat.beq_eq]
  rw [← ite_not]
  simp only [Nat.not_le]
  rfl

theorem diff_eq (B n0 n1 a b : Nat) : diff B n0 n1 a b = P.diff B n0 n1 a b := by
  unfold diff P.diff
  simp only [sel_le, fz_eq, ← subLen_eq]
  rw [← ite_not]
  simp only [Nat.not_le]
  rfl

theorem sub_eq (B : Nat) (p q : P) : sub B p q = P.sub B p q := by
  unfold sub P.sub
  simp only [sel_le, fz_eq, diff_eq, num_eq]
  rw [← ite_not]
  simp only [Nat.not_le]

theorem subInto_eq (B : Nat) (p q d : P) : subInto B p q d = P.subInto B p q d := by
  unfold subInto P.subInto
  simp only [sel_le, fz_eq, diff_eq, num_eq, app_eq]
  rw [← ite_not (p.n ≤ d.n), ← ite_not (q.n ≤ p.n)]
  simp only [Nat.not_le]
  rfl

theorem rsub_eq (B : Nat) (p q : P) : rsub B p q = P.rsub B p q := by
  unfold rsub P.rsub
  simp only [sel_eq, Nat.ble_eq, fz_eq, szh_eq, P.szh_eq, num_eq, Nat.beq_eq]
  rw [← ite_not (P.num B p ≤ P.num B q)]
  simp only [Nat.not_le]
  rfl

theorem div3_eq (B : Nat) (p : P) : div3 B p = P.div3 B p := by
  unfold div3 P.div3
  simp only [fz_eq, szh_eq, P.szh_eq, num_eq]
  rfl

theorem shr1_eq (B : Nat) (p : P) (c : Nat) : shr1 B p c = P.shr1 B p c := by
  unfold shr1 P.shr1
  simp only [fz_eq, szh_eq, P.szh_eq, num_eq]
  rfl

theorem sqLong_eq (B : Nat) (x p : P) : sqLong B x p = P.sqLong B x p := by
  unfold sqLong P.sqLong
  simp only [sel_le, fz_eq, szh_eq, P.szh_eq, num_eq, app_eq]
  rfl

/-! ## Squares -/

def clear0 (B : Nat) (p : P) (b : Nat) : R (P × Unit) :=
  on0 B p b fun s => .ok (⟨s.n, nat_lit 0⟩, ())

def clear (B : Nat) (p : P) (a b : Nat) : R (P × Unit) :=
  onSlice B p a b fun s => .ok (⟨s.n, nat_lit 0⟩, ())

def subAbs (B : Nat) (p : P) (len : Nat) (q : P) : R (P × Bool × Nat) :=
  bnd (slice0 B p len) fun s =>
  sel (lt B s q)
    (bndU (on0 B p q.n fun s => rsub B s q) fun p n => .ok (p, true, n))
    (bndU (on0 B p len fun s => sub B s q) fun p n => .ok (p, false, n))

def subIntoAbs (B : Nat) (dbg : Bool) (p q d : P) : R (P × Bool × Nat) :=
  dast dbg (Nat.ble (mx p.n q.n) d.n)
    (sel (lt B p q)
      (bndU (subInto B q p d) fun d n => .ok (d, true, n))
      (bndU (subInto B p q d) fun d n => .ok (d, false, n)))

def push (B : Nat) (p : P) (len : Nat) (carry : Bool) : R (P × Nat) :=
  sel carry (bnd (P.set1 B p len) fun p => .ok (p, Nat.add len (nat_lit 1))) (.ok (p, len))

def karSub (B : Nat) (dbg : Bool) (split : Nat) (z0 z2 z1 : P) (nz1 : Nat) (result : P) :
    R (P × P × Nat) :=
  bnd (slice0 B z1 nz1) fun s =>
  sel (lt B s z0)
    (bndU (on0 B z1 z0.n fun s => rsub B s z0) fun z1 n =>
      fz (mx n z2.n) fun nz1 =>
      bnd2 (on0 B z1 nz1 fun s => add B s z2) fun z1 carry =>
      bnd (P.incAt B carry result (Nat.add split nz1)) fun result =>
      .ok (result, z1, nz1))
    (bndU (on0 B z1 nz1 fun s => sub B s z0) fun z1 nz1 =>
      bnd (slice0 B z1 nz1) fun s =>
      dast dbg (sel (lt B z2 s) false true)
        (bndU (on0 B z1 z2.n fun s => rsub B s z2) fun z1 nz1 => .ok (result, z1, nz1)))

def karFinish (B split n : Nat) (result z1 : P) : R (P × Nat) :=
  bnd2 (onSlice B result split result.n fun s => add B s z1) fun result carry =>
  ast (sel carry false true)
    (bnd (dlz B result n) fun m => .ok (result, m))

def sqKar (B : Nat) (dbg : Bool) (square : SqFn) (x result work : P) : R (P × P × Nat) :=
  fz x.n fun n0 =>
  ast (Nat.ble (nat_lit 2) n0)
  (ast (Nat.ble (karatsubaWorkSize n0) work.n)
  (fz (Nat.div (Nat.add n0 (nat_lit 1)) (nat_lit 2)) fun sp =>
  bnd (dlz B x sp) fun nlow0 =>
  bnd (slice0 B x nlow0) fun low0 =>
  bnd (slice B x sp n0) fun high0 =>
  bnd3 (subIntoAbs B dbg low0 high0 result) fun diff0 _ ndiff0 =>
  bnd2 (split B work (Nat.mul (nat_lit 2) sp)) fun z1 newWork =>
  bnd (slice0 B diff0 ndiff0) fun d =>
  bnd3 (square d ⟨z1.n, nat_lit 0⟩ newWork) fun z1 newWork nz1 =>
  bnd2 (clear0 B diff0 (Nat.mul (nat_lit 2) n0)) fun result _ =>
  bnd2 (split B result (Nat.mul (nat_lit 2) sp)) fun z0 z2 =>
  bnd3 (square low0 z0 newWork) fun z0 newWork nz0 =>
  bnd3 (square high0 z2 newWork) fun z2 newWork nz2 =>
  bnd (slice0 B z0 nz0) fun a =>
  bnd (slice0 B z2 nz2) fun b =>
  bnd3 (karSub B dbg sp a b z1 nz1 (app B z0 z2)) fun result z1 nz1 =>
  bnd (slice0 B z1 nz1) fun c =>
  bnd2 (karFinish B sp (Nat.mul (nat_lit 2) n0) result c) fun result n =>
  .ok (result, app B z1 newWork, n)))

theorem clear0_eq (hB : 0 < B) (p : P) (b : Nat) : clear0 B p b = P.clear B p 0 b := by
  unfold clear0 P.clear
  rw [on0_eq hB]
  rfl

theorem clear_eq (hB : 0 < B) (p : P) (a b : Nat) : clear B p a b = P.clear B p a b := by
  unfold clear P.clear
  rw [onSlice_eq hB]
  rfl

theorem subAbs_eq (hB : 0 < B) (p : P) (len : Nat) (q : P) : subAbs B p len q = P.subAbs B p len q := by
  unfold subAbs P.subAbs
  simp only [bnd_eq, bndU_eq, sel_eq, slice0_eq, on0_eq hB, lt_eq, rsub_eq, sub_eq]
  rfl

theorem subIntoAbs_eq (dbg : Bool) (p q d : P) : subIntoAbs B dbg p q d = P.subIntoAbs B dbg p q d := by
  unfold subIntoAbs P.subIntoAbs
  simp only [dast_le, mx_eq, bndU_eq, sel_eq, lt_eq, subInto_eq]
  rfl

theorem push_eq (p : P) (len : Nat) (c : Bool) : push B p len c = P.push B p len c := by
  unfold push P.push
  simp only [sel_eq, bnd_eq]
  rfl

theorem karSub_eq (hB : 0 < B) (dbg : Bool) (split : Nat) (z0 z2 z1 : P) (nz1 : Nat) (result : P) :
    karSub B dbg split z0 z2 z1 nz1 result = P.karSub B dbg split z0 z2 z1 nz1 result := by
  unfold karSub P.karSub
  have h : ∀ c : Bool, sel c false true = !c := by decide
  simp only [dast_eq, mx_eq, bnd_eq, bnd2_eq, bndU_eq, h]
  simp only [sel_eq, lt_eq, slice0_eq, on0_eq hB, rsub_eq, sub_eq, add_eq, fz_eq]
  rfl

theorem karFinish_eq (hB : 0 < B) (split n : Nat) (result z1 : P) :
    karFinish B split n result z1 = P.karFinish B split n result z1 := by
  unfold karFinish P.karFinish
  have h : ∀ c : Bool, sel c false true = !c := by decide
  simp only [ast_eq, bnd_eq, bnd2_eq, h, onSlice_eq hB, add_eq, dlz_eq]
  rfl

theorem sqKar_eq (hB : 0 < B) (dbg : Bool) (square : SqFn) (x result work : P) :
    sqKar B dbg square x result work = P.sqKar B dbg square x result work := by
  unfold sqKar P.sqKar
  simp only [ast_le, fz_eq, bnd_eq, bnd2_eq, bnd3_eq, slice0_eq, slice_eq, subIntoAbs_eq, split_eq,
    clear0_eq hB, karSub_eq hB, karFinish_eq hB, app_eq, dlz_eq]
  rfl

def eval (B : Nat) (dbg : Bool) (b : Nat) (x p1 pm1 pm2 : P) : R Eval :=
  fz x.n fun nd0 =>
  fz (mn b nd0) fun minB =>
  bnd (dlz B x minB) fun lenP0 =>
  bnd (slice0 B x lenP0) fun p0 =>
  bnd (slice B x minB nd0) fun s =>
  bnd (dlz B s (mn b (Nat.sub nd0 minB))) fun lenM1 =>
  bnd (slice B x minB (Nat.add minB lenM1)) fun m1 =>
  bnd (slice B x (mn (Nat.mul (nat_lit 2) b) nd0) nd0) fun pinf =>
  bndU (addInto B p0 pinf pm1) fun pm1 lenPm1 =>
  bnd (slice0 B pm1 lenPm1) fun s =>
  bndU (addInto B s m1 p1) fun p1 lenP1 =>
  bnd3 (subAbs B pm1 lenPm1 m1) fun pm1 signPm1 lenPm1 =>
  bnd3
    (sel signPm1
      (bnd (slice0 B pm1 lenPm1) fun s => subIntoAbs B dbg pinf s pm2)
      (bnd (slice0 B pm1 lenPm1) fun s =>
        bndU (addInto B s pinf pm2) fun pm2 n => .ok (pm2, false, n)))
    fun pm2 signPm2 lenPm2 =>
  bnd2 (on0 B pm2 lenPm2 (dbl B)) fun pm2 carry =>
  bnd2 (push B pm2 lenPm2 carry) fun pm2 lenPm2 =>
  bnd3
    (sel signPm2
      (bnd2 (on0 B pm2 (mx lenPm2 lenP0) fun s => add B s p0) fun pm2 carry =>
        bnd2 (push B pm2 (mx lenPm2 lenP0) carry) fun pm2 lenPm2 => .ok (pm2, signPm2, lenPm2))
      (subAbs B pm2 lenPm2 p0))
    fun pm2 signPm2 lenPm2 =>
  .ok { p0, pinf, p1, lenP1, pm1, signPm1, lenPm1, pm2, signPm2, lenPm2 }

theorem bind_congr {α β : Type} {m m' : R α} {k k' : α → R β} (h : m = m') (hk : ∀ a, k a = k' a) :
    m >>= k = m' >>= k' := by
  rw [h, show k = k' from funext hk]

theorem eval_eq (hB : 0 < B) (dbg : Bool) (b : Nat) (x p1 pm1 pm2 : P) :
    eval B dbg b x p1 pm1 pm2 = P.eval B dbg b x p1 pm1 pm2 := by
  unfold eval P.eval
  simp only [fz_eq, bnd_eq, bnd2_eq, bnd3_eq, bndU_eq, sel_eq, slice0_eq, slice_eq, on0_eq hB, mn_eq,
    mx_eq, dlz_eq, addInto_eq, subAbs_eq hB, subIntoAbs_eq, push_eq, add_eq]
  refine bind_congr rfl fun _ => ?_
  refine bind_congr rfl fun _ => ?_
  refine bind_congr rfl fun _ => ?_
  refine bind_congr rfl fun _ => ?_
  refine bind_congr rfl fun _ => ?_
  refine bind_congr rfl fun _ => ?_
  refine bind_congr rfl ?_
  rintro ⟨pm1, r⟩
  refine bind_congr rfl fun _ => ?_
  refine bind_congr rfl fun _ => ?_
  refine bind_congr rfl ?_
  rintro ⟨p1, r⟩
  refine bind_congr rfl fun _ => ?_
  refine bind_congr rfl ?_
  rintro ⟨pm1, s1, l1⟩
  refine bind_congr rfl ?_
  rintro ⟨pm2, s2, l2⟩
  refine bind_congr (by rw [show dbl B = P.dbl B from funext (dbl_eq B)]) ?_
  rintro ⟨pm2, c⟩
  refine bind_congr rfl ?_
  rintro ⟨pm2, n⟩
  refine bind_congr rfl ?_
  rintro ⟨pm2, s3, l3⟩
  rfl

def addPart (B : Nat) (p q : P) (len : Nat) : R (P × Bool) := bnd (slice0 B q len) fun s => add B p s
def subPart (B : Nat) (p q : P) (len : Nat) : R (P × Res Nat) := bnd (slice0 B q len) fun s => sub B p s
def rsubPart (B : Nat) (p q : P) (len : Nat) : R (P × Res Nat) := bnd (slice0 B q len) fun s => rsub B p s

theorem addPart_eq (p q : P) (len : Nat) : addPart B p q len = P.addPart B p q len := by
  unfold addPart P.addPart
  simp only [bnd_eq, slice0_eq, add_eq]

theorem subPart_eq (p q : P) (len : Nat) : subPart B p q len = P.subPart B p q len := by
  unfold subPart P.subPart
  simp only [bnd_eq, slice0_eq, sub_eq]

theorem rsubPart_eq (p q : P) (len : Nat) : rsubPart B p q len = P.rsubPart B p q len := by
  unfold rsubPart P.rsubPart
  simp only [bnd_eq, slice0_eq, rsub_eq]

def r3Second (B : Nat) (r2 : P) (lenR2 : Nat) (signR2 : Bool) (r3 : P) (lenR3 : Nat) (signR3 : Bool) :
    R (P × Nat × Bool) :=
  bnd3
    (sel (signR2 != signR3)
      (fz (mx lenR3 lenR2) fun lenR3 =>
        bnd2 (on0 B r3 lenR3 fun s => addPart B s r2 lenR2) fun r3 carry =>
        .ok (r3, lenR3, (signR2, carry)))
      (bnd (slice0 B r2 lenR2) fun s =>
        bnd3 (subAbs B r3 lenR3 s) fun r3 sign len =>
        .ok (r3, len, (!(signR3 ^^ sign) && len != 0, false))))
    fun r3 lenR3 sc =>
  bnd3 (on0 B r3 lenR3 fun s => shr1 B s sc.2.toNat) fun r3 lenR3 _ => .ok (r3, lenR3, sc.1)

theorem r3Second_eq (hB : 0 < B) (r2 : P) (lenR2 : Nat) (signR2 : Bool) (r3 : P) (lenR3 : Nat)
    (signR3 : Bool) :
    r3Second B r2 lenR2 signR2 r3 lenR3 signR3 = P.r3Second B r2 lenR2 signR2 r3 lenR3 signR3 := by
  unfold r3Second P.r3Second
  simp only [fz_eq, bnd_eq, bnd2_eq, bnd3_eq, sel_eq, slice0_eq, on0_eq hB, mx_eq, subAbs_eq hB,
    addPart_eq, shr1_eq]
  rfl

def r3Last (B : Nat) (r4 r3 : P) (lenR3 : Nat) (signR3 : Bool) : R (P × Nat) :=
  sel signR3
    (bnd (slice0 B r3 lenR3) fun s =>
      sel (lt B s r4)
        (bnd2 (on0 B r3 r4.n fun s => rsub B s r4) fun r3 _ =>
          bnd2 (on0 B r3 r4.n fun s => add B s r4) fun r3 carry => push B r3 r4.n carry)
        (bnd2 (on0 B r3 r4.n fun s => sub B s r4) fun r3 _ =>
          bndU (on0 B r3 r4.n fun s => rsub B s r4) fun r3 n => .ok (r3, n)))
    (fz (mx lenR3 r4.n) fun lenR3 =>
      bnd2 (on0 B r3 lenR3 fun s => add B s r4) fun r3 carry =>
      bnd2 (push B r3 lenR3 carry) fun r3 lenR3 =>
      bnd2 (on0 B r3 lenR3 fun s => add B s r4) fun r3 carry => push B r3 lenR3 carry)

theorem r3Last_eq (hB : 0 < B) (r4 r3 : P) (lenR3 : Nat) (signR3 : Bool) :
    r3Last B r4 r3 lenR3 signR3 = P.r3Last B r4 r3 lenR3 signR3 := by
  unfold r3Last P.r3Last
  simp only [fz_eq, bnd_eq, bnd2_eq, bndU_eq, sel_eq, slice0_eq, on0_eq hB, mx_eq, add_eq, sub_eq,
    rsub_eq, push_eq, lt_eq]
  cases signR3 <;> rfl

def r2Last (B : Nat) (r4 r1 : P) (lenR1 : Nat) (r2 : P) (lenR2 : Nat) (signR2 : Bool) : R (P × Nat) :=
  bnd2
    (sel signR2
      (bndU (on0 B r2 lenR1 fun s => rsubPart B s r1 lenR1) fun r2 n => .ok (r2, n))
      (fz (mx lenR2 lenR1) fun lenR2 =>
        bnd2 (on0 B r2 lenR2 fun s => addPart B s r1 lenR1) fun r2 carry => push B r2 lenR2 carry))
    fun r2 lenR2 =>
  bndU (on0 B r2 lenR2 fun s => sub B s r4) fun r2 n => .ok (r2, n)

theorem r2Last_eq (hB : 0 < B) (r4 r1 : P) (lenR1 : Nat) (r2 : P) (lenR2 : Nat) (signR2 : Bool) :
    r2Last B r4 r1 lenR1 r2 lenR2 signR2 = P.r2Last B r4 r1 lenR1 r2 lenR2 signR2 := by
  unfold r2Last P.r2Last
  simp only [fz_eq, bnd2_eq, bndU_eq, sel_eq, on0_eq hB, mx_eq, addPart_eq, sub_eq,
    rsubPart_eq, push_eq]
  rfl

def r1Last (B : Nat) (r1 : P) (lenR1 : Nat) (r3 : P) (lenR3 : Nat) : R (P × Nat) :=
  bndU (on0 B r1 lenR1 fun s => subPart B s r3 lenR3) fun r1 n => .ok (r1, n)

theorem r1Last_eq (hB : 0 < B) (r1 : P) (lenR1 : Nat) (r3 : P) (lenR3 : Nat) :
    r1Last B r1 lenR1 r3 lenR3 = P.r1Last B r1 lenR1 r3 lenR3 := by
  unfold r1Last P.r1Last
  simp only [bndU_eq, on0_eq hB, subPart_eq]
  rfl

def interp (B : Nat) (r0 r4 r1 : P) (lenR1 : Nat) (rm1 : P) (lenRm1 : Nat) (rm2 : P) (lenRm2 : Nat) :
    R (P × Nat × P × Nat × P × Nat) :=
  bnd (slice0 B r1 lenR1) fun s =>
  bnd3 (subAbs B rm2 lenRm2 s) fun r3 signR3 lenR3 =>
  bnd3 (on0 B r3 lenR3 fun s => div3 B s) fun r3 lenR3 _ =>
  bndU (on0 B r1 lenR1 fun s => subPart B s rm1 lenRm1) fun r1 lenR1 =>
  bnd3 (on0 B r1 lenR1 fun s => shr1 B s (nat_lit 0)) fun r1 lenR1 _ =>
  bnd3 (subAbs B rm1 lenRm1 r0) fun r2 signR2 lenR2 =>
  bnd3 (r3Second B r2 lenR2 signR2 r3 lenR3 signR3) fun r3 lenR3 signR3 =>
  bnd2 (r3Last B r4 r3 lenR3 signR3) fun r3 lenR3 =>
  bnd2 (r2Last B r4 r1 lenR1 r2 lenR2 signR2) fun r2 lenR2 =>
  bnd2 (r1Last B r1 lenR1 r3 lenR3) fun r1 lenR1 =>
  .ok (r1, lenR1, r2, lenR2, r3, lenR3)

theorem interp_eq (hB : 0 < B) (r0 r4 r1 : P) (lenR1 : Nat) (rm1 : P) (lenRm1 : Nat) (rm2 : P)
    (lenRm2 : Nat) :
    interp B r0 r4 r1 lenR1 rm1 lenRm1 rm2 lenRm2 = P.interp B r0 r4 r1 lenR1 rm1 lenRm1 rm2 lenRm2 := by
  unfold interp P.interp
  simp only [bnd_eq, bnd2_eq, bnd3_eq, bndU_eq, slice0_eq, on0_eq hB, subAbs_eq hB, div3_eq, subPart_eq,
    shr1_eq, r3Second_eq hB, r3Last_eq hB, r2Last_eq hB, r1Last_eq hB]
  rfl

def recompose (B b : Nat) (result r1 : P) (lenR1 : Nat) (r2 : P) (lenR2 : Nat) (r3 : P) (lenR3 : Nat) :
    R P :=
  bnd2 (onSlice B result b result.n fun s => addPart B s r1 lenR1) fun result _ =>
  bnd2 (onSlice B result (Nat.mul (nat_lit 2) b) result.n fun s => addPart B s r2 lenR2) fun result _ =>
  bnd2 (onSlice B result (Nat.mul (nat_lit 3) b) result.n fun s => addPart B s r3 lenR3) fun result _ =>
  .ok result

theorem recompose_eq (hB : 0 < B) (b : Nat) (result r1 : P) (lenR1 : Nat) (r2 : P) (lenR2 : Nat) (r3 : P)
    (lenR3 : Nat) :
    recompose B b result r1 lenR1 r2 lenR2 r3 lenR3 = P.recompose B b result r1 lenR1 r2 lenR2 r3 lenR3 := by
  unfold recompose P.recompose
  simp only [bnd2_eq, onSlice_eq hB, addPart_eq]
  rfl

def sqToom (B : Nat) (dbg : Bool) (square : SqFn) (x result work : P) : R (P × P × Nat) :=
  fz x.n fun nd0 =>
  ast (Nat.ble (nat_lit 5) nd0)
  (ast (Nat.ble (toom3WorkSize nd0) work.n)
  (fz (Nat.div (Nat.add nd0 (nat_lit 2)) (nat_lit 3)) fun b =>
  fz (Nat.mul (nat_lit 2) nd0) fun n =>
  bnd2 (split B result (Nat.add b (nat_lit 1))) fun p1 res =>
  bnd2 (split B res (Nat.add b (nat_lit 1))) fun pm1 pm2 =>
  bnd2 (split B work (Nat.add (Nat.mul (nat_lit 6) b) (nat_lit 10))) fun work newWork =>
  bnd2 (split B work (Nat.add (Nat.mul (nat_lit 2) b) (nat_lit 3))) fun r1 work =>
  bnd2 (split B work (Nat.add (Nat.mul (nat_lit 2) b) (nat_lit 3))) fun rm1 rm2 =>
  bnd (eval B dbg b x p1 pm1 pm2) fun p =>
  bnd (slice0 B p.p1 p.lenP1) fun s =>
  bnd3 (square s r1 newWork) fun r1 newWork lenR1 =>
  bnd (slice0 B p.pm1 p.lenPm1) fun s =>
  bnd3 (square s rm1 newWork) fun rm1 newWork lenRm1 =>
  bnd2 (clear B rm1 lenRm1 rm1.n) fun rm1 _ =>
  bnd (slice0 B p.pm2 p.lenPm2) fun s =>
  bnd3 (square s rm2 newWork) fun rm2 newWork lenRm2 =>
  bnd2 (clear B rm2 lenRm2 rm2.n) fun rm2 _ =>
  bnd2 (clear0 B (app B (app B p.p1 p.pm1) p.pm2) n) fun result _ =>
  bnd2 (split B result (mn (Nat.mul (nat_lit 4) b) result.n)) fun r0 r4 =>
  bnd3 (square p.p0 r0 newWork) fun r0 newWork lenR0 =>
  bnd3 (square p.pinf r4 newWork) fun r4 newWork lenR4 =>
  bnd (slice0 B r0 lenR0) fun s0 =>
  bnd (slice0 B r4 lenR4) fun s4 =>
  bnd2 (interp B s0 s4 r1 lenR1 rm1 lenRm1 rm2 lenRm2) fun r1 y =>
  bnd (recompose B b (app B r0 r4) r1 y.1 y.2.1 y.2.2.1 y.2.2.2.1 y.2.2.2.2) fun result =>
  bnd (dlz B result n) fun m =>
  .ok (result, app B (app B (app B r1 y.2.1) y.2.2.2.1) newWork, m)))

theorem sqToom_eq (hB : 0 < B) (dbg : Bool) (square : SqFn) (x result work : P) :
    sqToom B dbg square x result work = P.sqToom B dbg square x result work := by
  unfold sqToom P.sqToom
  simp only [ast_le, fz_eq, bnd_eq, bnd2_eq, bnd3_eq, slice0_eq, split_eq, eval_eq hB,
    clear0_eq hB, clear_eq hB, app_eq, dlz_eq, mn_eq, interp_eq hB, recompose_eq hB]
  rfl

def sqWork (B : Nat) (dbg : Bool) : Nat → SqFn
  | 0, _, _, _ => .error .noFuel
  | fuel + 1, x, p, work =>
    fz x.n fun n0 =>
    sel (Nat.beq n0 (nat_lit 0)) (.ok (p, work, nat_lit 0))
      (ast (Nat.ble (Nat.mul (nat_lit 2) n0) p.n)
        (sel (Nat.ble (nat_lit 128) n0) (sqToom B dbg (sqWork B dbg fuel) x p work)
          (sel (Nat.ble (nat_lit 20) n0) (sqKar B dbg (sqWork B dbg fuel) x p work)
            (bnd2 (sqLong B x p) fun p n => .ok (p, work, n)))))

theorem sqWork_eq (hB : 0 < B) (dbg : Bool) (fuel : Nat) : sqWork B dbg fuel = P.sqWork B dbg fuel := by
  induction fuel with
  | zero => rfl
  | succ fuel ih =>
    funext x p work
    unfold sqWork P.sqWork
    simp only [fz_eq, ast_le, sel_eq, Nat.ble_eq, Nat.beq_eq, bnd2_eq, sqToom_eq hB, sqKar_eq hB,
      sqLong_eq, ih]
    rfl

def sq (B : Nat) (dbg : Bool) (x : P) : R P :=
  sel (Nat.ble (nat_lit 128) x.n)
    (bnd3 (sqToom B dbg (sqWork B dbg (mulFuel x.n)) x ⟨Nat.mul (nat_lit 2) x.n, nat_lit 0⟩
      ⟨toom3WorkSize x.n, nat_lit 0⟩) fun p _ n => .ok ⟨mn n p.n, p.v⟩)
    (P.sq B dbg x)

theorem sq_eq (hB : 0 < B) (dbg : Bool) (x : P) : sq B dbg x = P.sq B dbg x := by
  unfold sq
  rw [sel_le]
  split
  next h =>
    have h : 128 ≤ x.n := h
    unfold P.sq P.sqInto
    simp only [bnd3_eq, mn_eq, sqWork_eq hB, sqToom_eq hB]
    rw [if_neg (show ¬ x.n = 0 by omega), if_neg (show ¬ x.n = 0 by omega),
      if_pos (show toom3Cutoff ≤ x.n from h)]
    rw [show assertR (decide (2 * x.n ≤ (zero (2 * x.n)).n)) = .ok () by simp [assertR, zero]]
    simp only [bind_assoc]
    rfl
  next => rfl

end Babs.P.F
