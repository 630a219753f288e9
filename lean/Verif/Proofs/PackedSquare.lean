import Verif.Proofs.Packed
import Verif.Model.UBigMul

/-!
The squaring functions of the model as computations on packed buffers.
-/

namespace Babs.P

variable {B : Nat} {D : DigitOps}

theorem Sim.fill {f : List Nat → R (List Nat × Unit)} (hB : 0 < B)
    (hf : f = fun s => .ok (fillWith 0 s, ())) (s : P) :
    Sim (l2 B) (f (s.list B)) (.ok (zero s.n, ())) := by
  subst hf
  unfold Sim
  simp only [Functor.map, Except.map, l2, ← list_zero hB, fillWith, list_length]

theorem list_fill (hB : 0 < B) (p : P) : fillWith 0 (p.list B) = (zero p.n).list B := by
  rw [← list_zero hB, fillWith, list_length]

/-- Set the digits from `a` to `b` to zero. -/
def clear (B : Nat) (p : P) (a b : Nat) : R (P × Unit) :=
  p.onSlice B a b fun s => .ok (zero s.n, ())

theorem sim_clear (hB : 0 < B) (p : P) (a b : Nat) :
    Sim (l2 B) (Babs.onSlice (p.list B) a b fun s => .ok (fillWith 0 s, ())) (p.clear B a b) :=
  sim_onSlice hB p a b (Sim.fill hB rfl)

/-! ## Signed differences -/

def subAbs (B : Nat) (p : P) (len : Nat) (q : P) : R (P × Bool × Nat) := do
  if (← p.slice B 0 len).lt B q then
    let (p, r) ← p.onSlice B 0 q.n fun s => s.rsub B q
    return (p, true, ← unwrapR r)
  else
    let (p, r) ← p.onSlice B 0 len fun s => s.sub B q
    return (p, false, ← unwrapR r)

theorem sim_subAbs (L : Lawful D B) (p : P) (len : Nat) (q : P) :
    Sim (l2 B) (subAssignBigAbsSign D (p.list B) len (q.list B)) (p.subAbs B len q) := by
  unfold subAssignBigAbsSign subAbs
  refine Sim.bind (sim_slice L.pos _ _ _) fun s => ?_
  rw [list_lt L.pos, list_length]
  refine Sim.ite Iff.rfl (fun _ => ?_) fun _ => ?_
  · refine Sim.bind (sim_onSlice L.pos _ _ _ fun s => sim_rsub L _ _) ?_
    rintro ⟨p, r⟩
    refine Sim.bind (Sim.id _) fun n => Sim.pure rfl
  · refine Sim.bind (sim_onSlice L.pos _ _ _ fun s => sim_sub L _ _) ?_
    rintro ⟨p, r⟩
    refine Sim.bind (Sim.id _) fun n => Sim.pure rfl

def subIntoAbs (B : Nat) (dbg : Bool) (p q d : P) : R (P × Bool × Nat) := do
  debugAssertR dbg (decide (max p.n q.n ≤ d.n))
  if p.lt B q then
    let (d, r) ← q.subInto B p d
    return (d, true, ← unwrapR r)
  else
    let (d, r) ← p.subInto B q d
    return (d, false, ← unwrapR r)

theorem sim_subIntoAbs {dbg : Bool} (L : Lawful D B) (p q d : P) :
    Sim (l2 B) (subBigIntoAbsSign D dbg (p.list B) (q.list B) (d.list B)) (p.subIntoAbs B dbg q d) := by
  unfold subBigIntoAbsSign subIntoAbs
  simp only [list_length, list_lt L.pos]
  refine Sim.bind (Sim.id _) fun _ => ?_
  refine Sim.ite Iff.rfl (fun _ => ?_) fun _ => ?_
  · refine Sim.bind (sim_subInto L _ _ _) ?_
    rintro ⟨p, r⟩
    refine Sim.bind (Sim.id _) fun n => Sim.pure rfl
  · refine Sim.bind (sim_subInto L _ _ _) ?_
    rintro ⟨p, r⟩
    refine Sim.bind (Sim.id _) fun n => Sim.pure rfl

/-! ## Karatsuba -/

def push (B : Nat) (p : P) (len : Nat) (carry : Bool) : R (P × Nat) :=
  if carry then do return (← p.set1 B len, len + 1) else .ok (p, len)

theorem sim_push (hB : 2 ≤ B) (p : P) (len : Nat) (carry : Bool) :
    Sim (l2 B) (pushCarry (p.list B) len carry) (p.push B len carry) := by
  unfold pushCarry push
  refine Sim.ite Iff.rfl (fun _ => ?_) fun _ => rfl
  exact Sim.bind (sim_set1 hB _ _) fun s => Sim.pure rfl

def incAt (B : Nat) (carry : Bool) (p : P) (offset : Nat) : R P :=
  if carry then do
    let (p, _) ← p.onSlice B offset p.n (inc B)
    return p
  else .ok p

theorem sim_incAt (L : Lawful D B) (carry : Bool) (p : P) (offset : Nat) :
    Sim (list B) (incIf D carry (p.list B) offset) (incAt B carry p offset) := by
  unfold incIf incAt
  rw [list_length]
  refine Sim.ite Iff.rfl (fun _ => ?_) fun _ => rfl
  refine Sim.bind (sim_onSlice L.pos _ _ _ fun s => sim_inc L _) ?_
  rintro ⟨p, c⟩
  exact Sim.pure rfl

def karSub (B : Nat) (dbg : Bool) (split : Nat) (z0 z2 z1 : P) (nz1 : Nat) (result : P) :
    R (P × P × Nat) := do
  if (← z1.slice B 0 nz1).lt B z0 then
    let (z1, r) ← z1.onSlice B 0 z0.n fun s => s.rsub B z0
    let n ← unwrapR r
    let nz1 := max n z2.n
    let (z1, carry) ← z1.onSlice B 0 nz1 fun s => s.add B z2
    let result ← incAt B carry result (split + nz1)
    return (result, z1, nz1)
  else
    let (z1, r) ← z1.onSlice B 0 nz1 fun s => s.sub B z0
    let nz1 ← unwrapR r
    let s ← z1.slice B 0 nz1
    debugAssertR dbg (!z2.lt B s)
    let (z1, r) ← z1.onSlice B 0 z2.n fun s => s.rsub B z2
    let nz1 ← unwrapR r
    return (result, z1, nz1)

theorem sim_karSub {dbg : Bool} (L : Lawful D B) (split : Nat) (z0 z2 z1 : P) (nz1 : Nat) (result : P) :
    Sim (l3 B) (karatsubaSub D dbg split (z0.list B) (z2.list B) (z1.list B) nz1 (result.list B))
      (karSub B dbg split z0 z2 z1 nz1 result) := by
  unfold karatsubaSub karSub
  simp only [list_length]
  refine Sim.bind (sim_slice L.pos _ _ _) fun s => ?_
  rw [list_lt L.pos]
  refine Sim.ite Iff.rfl (fun _ => ?_) fun _ => ?_
  · refine Sim.bind (sim_onSlice L.pos _ _ _ fun s => sim_rsub L _ _) ?_
    rintro ⟨p, r⟩
    refine Sim.bind (Sim.id _) fun n => ?_
    refine Sim.bind (sim_onSlice L.pos _ _ _ fun s => sim_add L _ _) ?_
    rintro ⟨p, c⟩
    exact Sim.bind (sim_incAt L _ _ _) fun _ => Sim.pure rfl
  · refine Sim.bind (sim_onSlice L.pos _ _ _ fun s => sim_sub L _ _) ?_
    rintro ⟨p, r⟩
    refine Sim.bind (Sim.id _) fun n => ?_
    refine Sim.bind (sim_slice L.pos _ _ _) fun s => ?_
    rw [list_lt L.pos]
    refine Sim.bind (Sim.id _) fun _ => ?_
    refine Sim.bind (sim_onSlice L.pos _ _ _ fun s => sim_rsub L _ _) ?_
    rintro ⟨p, r⟩
    exact Sim.bind (Sim.id _) fun n => Sim.pure rfl

def karFinish (B split n : Nat) (result z1 : P) : R (P × Nat) := do
  let (result, carry) ← result.onSlice B split result.n fun s => s.add B z1
  assertR (!carry)
  let m ← result.dlz B n
  return (result, m)

theorem sim_karFinish (L : Lawful D B) (split n : Nat) (result z1 : P) :
    Sim (l2 B) (karatsubaFinish D split n (result.list B) (z1.list B)) (karFinish B split n result z1) := by
  have hB := L.base
  unfold karatsubaFinish karFinish
  rw [list_length]
  refine Sim.bind (sim_onSlice L.pos _ _ _ fun s => sim_add L _ _) ?_
  rintro ⟨p, c⟩
  refine Sim.bind (Sim.id _) fun _ => ?_
  exact Sim.bind (sim_dlz (by omega) _ _) fun _ => Sim.pure rfl

/-- The type of the packed squaring functions. -/
abbrev SqFn := P → P → P → R (P × P × Nat)

/-- The packed function does the same as the model's. -/
def SimSq (B : Nat) (f : SquareFn) (fP : SqFn) : Prop :=
  ∀ x p w : P, Sim (l3 B) (f (x.list B) (p.list B) (w.list B)) (fP x p w)

def sqKar (B : Nat) (dbg : Bool) (square : SqFn) (x result work : P) : R (P × P × Nat) := do
  let n0 := x.n
  assertR (decide (2 ≤ n0))
  assertR (decide (karatsubaWorkSize n0 ≤ work.n))
  let split := (n0 + 1) / 2
  let nlow0 ← x.dlz B split
  let low0 ← x.slice B 0 nlow0
  let high0 ← x.slice B split x.n
  let (diff0, _, ndiff0) ← low0.subIntoAbs B dbg high0 result
  let (z1, newWork) ← work.split B (2 * split)
  let z1 := zero z1.n
  let d ← diff0.slice B 0 ndiff0
  let (z1, newWork, nz1) ← square d z1 newWork
  let (result, _) ← diff0.clear B 0 (2 * n0)
  let (z0, z2) ← result.split B (2 * split)
  let (z0, newWork, nz0) ← square low0 z0 newWork
  let (z2, newWork, nz2) ← square high0 z2 newWork
  let a ← z0.slice B 0 nz0
  let b ← z2.slice B 0 nz2
  let (result, z1, nz1) ← karSub B dbg split a b z1 nz1 (z0.app B z2)
  let c ← z1.slice B 0 nz1
  let (result, n) ← karFinish B split (2 * n0) result c
  return (result, z1.app B newWork, n)

theorem sim_sqKar {dbg : Bool} (L : Lawful D B) {f : SquareFn} {fP : SqFn} (h : SimSq B f fP) :
    SimSq B (squareKaratsubaInto D dbg f) (sqKar B dbg fP) := by
  have hB := L.base
  intro x result work
  unfold squareKaratsubaInto sqKar
  simp only [list_length]
  refine Sim.bind (Sim.id _) fun _ => ?_
  refine Sim.bind (Sim.id _) fun _ => ?_
  refine Sim.bind (sim_dlz (by omega) _ _) fun _ => ?_
  refine Sim.bind (sim_slice L.pos _ _ _) fun low => ?_
  refine Sim.bind (sim_slice L.pos _ _ _) fun high => ?_
  refine Sim.bind (sim_subIntoAbs L _ _ _) ?_
  rintro ⟨d, s, nd⟩
  refine Sim.bind (sim_split L.pos _ _) ?_
  rintro ⟨z1, nw⟩
  simp only [l2, ll, list_fill L.pos]
  refine Sim.bind (sim_slice L.pos _ _ _) fun d' => ?_
  refine Sim.bind (h _ _ _) ?_
  rintro ⟨z1, nw, nz1⟩
  refine Sim.bind (sim_clear L.pos _ _ _) ?_
  rintro ⟨res, _⟩
  refine Sim.bind (sim_split L.pos _ _) ?_
  rintro ⟨z0, z2⟩
  refine Sim.bind (h _ _ _) ?_
  rintro ⟨z0, nw, nz0⟩
  refine Sim.bind (h _ _ _) ?_
  rintro ⟨z2, nw, nz2⟩
  refine Sim.bind (sim_slice L.pos _ _ _) fun a => ?_
  refine Sim.bind (sim_slice L.pos _ _ _) fun b => ?_
  simp only [l3, list_app L.pos]
  refine Sim.bind (sim_karSub L _ _ _ _ _ _) ?_
  rintro ⟨res, z1, nz1⟩
  refine Sim.bind (sim_slice L.pos _ _ _) fun c => ?_
  refine Sim.bind (sim_karFinish L _ _ _ _) ?_
  rintro ⟨res, n⟩
  refine Sim.pure ?_
  simp only [l2, l3, list_app L.pos]

/-! ## Toom-Cook -/

structure Eval where
  p0 : P
  pinf : P
  p1 : P
  lenP1 : Nat
  pm1 : P
  signPm1 : Bool
  lenPm1 : Nat
  pm2 : P
  signPm2 : Bool
  lenPm2 : Nat

def Eval.lists (B : Nat) (e : Eval) : ToomEval where
  p0 := e.p0.list B
  pinf := e.pinf.list B
  p1 := e.p1.list B
  lenP1 := e.lenP1
  pm1 := e.pm1.list B
  signPm1 := e.signPm1
  lenPm1 := e.lenPm1
  pm2 := e.pm2.list B
  signPm2 := e.signPm2
  lenPm2 := e.lenPm2

def eval (B : Nat) (dbg : Bool) (b : Nat) (x p1 pm1 pm2 : P) : R Eval := do
  let nd0 := x.n
  let minB := min b nd0
  let lenP0 ← x.dlz B minB
  let p0 ← x.slice B 0 lenP0
  let s ← x.slice B minB nd0
  let lenM1 ← s.dlz B (min b (nd0 - minB))
  let m1 ← x.slice B minB (minB + lenM1)
  let pinf ← x.slice B (min (2 * b) nd0) nd0
  let (pm1, r) ← p0.addInto B pinf pm1
  let lenPm1 ← unwrapR r
  let s ← pm1.slice B 0 lenPm1
  let (p1, r) ← s.addInto B m1 p1
  let lenP1 ← unwrapR r
  let (pm1, signPm1, lenPm1) ← pm1.subAbs B lenPm1 m1
  let (pm2, signPm2, lenPm2) ← (do
    if signPm1 then
      let s ← pm1.slice B 0 lenPm1
      pinf.subIntoAbs B dbg s pm2
    else
      let s ← pm1.slice B 0 lenPm1
      let (pm2, r) ← s.addInto B pinf pm2
      let n ← unwrapR r
      return (pm2, false, n))
  let (pm2, carry) ← pm2.onSlice B 0 lenPm2 (dbl B)
  let (pm2, lenPm2) ← pm2.push B lenPm2 carry
  let (pm2, signPm2, lenPm2) ← (do
    if signPm2 then
      let lenPm2 := max lenPm2 lenP0
      let (pm2, carry) ← pm2.onSlice B 0 lenPm2 fun s => s.add B p0
      let (pm2, lenPm2) ← pm2.push B lenPm2 carry
      return (pm2, signPm2, lenPm2)
    else pm2.subAbs B lenPm2 p0)
  return { p0, pinf, p1, lenP1, pm1, signPm1, lenPm1, pm2, signPm2, lenPm2 }

theorem sim_eval {dbg : Bool} (L : Lawful D B) (b : Nat) (x p1 pm1 pm2 : P) :
    Sim (Eval.lists B) (toomEval D dbg b (x.list B) (p1.list B) (pm1.list B) (pm2.list B))
      (eval B dbg b x p1 pm1 pm2) := by
  have hB := L.base
  unfold toomEval eval
  simp only [list_length]
  refine Sim.bind (sim_dlz (by omega) _ _) fun lenP0 => ?_
  refine Sim.bind (sim_slice L.pos _ _ _) fun p0 => ?_
  refine Sim.bind (sim_slice L.pos _ _ _) fun s => ?_
  refine Sim.bind (sim_dlz (by omega) _ _) fun lenM1 => ?_
  refine Sim.bind (sim_slice L.pos _ _ _) fun m1 => ?_
  refine Sim.bind (sim_slice L.pos _ _ _) fun pinf => ?_
  refine Sim.bind (sim_addInto L _ _ _) ?_
  rintro ⟨pm1, r⟩
  refine Sim.bind (Sim.id _) fun n => ?_
  refine Sim.bind (sim_slice L.pos _ _ _) fun s => ?_
  refine Sim.bind (sim_addInto L _ _ _) ?_
  rintro ⟨p1, r⟩
  refine Sim.bind (Sim.id _) fun lenP1 => ?_
  refine Sim.bind (sim_subAbs L _ _ _) ?_
  rintro ⟨pm1, signPm1, lenPm1⟩
  refine Sim.bind (f := l2 B) ?_ ?_
  · refine Sim.ite Iff.rfl (fun _ => ?_) fun _ => ?_
    · refine Sim.bind (sim_slice L.pos _ _ _) fun s => ?_
      exact sim_subIntoAbs L _ _ _
    · refine Sim.bind (sim_slice L.pos _ _ _) fun s => ?_
      refine Sim.bind (sim_addInto L _ _ _) ?_
      rintro ⟨pm2, r⟩
      exact Sim.bind (Sim.id _) fun n => Sim.pure rfl
  rintro ⟨pm2, signPm2, lenPm2⟩
  refine Sim.bind (sim_onSlice L.pos _ _ _ fun s => sim_dbl L _) ?_
  rintro ⟨pm2, c⟩
  refine Sim.bind (sim_push (by omega) _ _ _) ?_
  rintro ⟨pm2, lenPm2⟩
  refine Sim.bind (f := l2 B) ?_ ?_
  · refine Sim.ite Iff.rfl (fun _ => ?_) fun _ => ?_
    · refine Sim.bind (sim_onSlice L.pos _ _ _ fun s => sim_add L _ _) ?_
      rintro ⟨pm2, c⟩
      refine Sim.bind (sim_push (by omega) _ _ _) ?_
      rintro ⟨pm2, n⟩
      exact Sim.pure rfl
    · exact sim_subAbs L _ _ _
  rintro ⟨pm2, signPm2, lenPm2⟩
  exact Sim.pure rfl

/-- Operations with a part of another buffer. -/
def addPart (B : Nat) (p q : P) (len : Nat) : R (P × Bool) := do
  let s ← q.slice B 0 len
  p.add B s
@[inherit_doc addPart]
def subPart (B : Nat) (p q : P) (len : Nat) : R (P × Res Nat) := do
  let s ← q.slice B 0 len
  p.sub B s
@[inherit_doc addPart]
def rsubPart (B : Nat) (p q : P) (len : Nat) : R (P × Res Nat) := do
  let s ← q.slice B 0 len
  p.rsub B s

theorem sim_addPart (L : Lawful D B) (p q : P) (len : Nat) :
    Sim (l2 B) (do addAssignBig D (p.list B) (← Babs.slice (q.list B) 0 len)) (p.addPart B q len) :=
  Sim.bind (sim_slice L.pos _ _ _) fun _ => sim_add L _ _

theorem sim_subPart (L : Lawful D B) (p q : P) (len : Nat) :
    Sim (l2 B) (do subAssignBig D (p.list B) (← Babs.slice (q.list B) 0 len)) (p.subPart B q len) :=
  Sim.bind (sim_slice L.pos _ _ _) fun _ => sim_sub L _ _

theorem sim_rsubPart (L : Lawful D B) (p q : P) (len : Nat) :
    Sim (l2 B) (do rsubAssignBig D (p.list B) (← Babs.slice (q.list B) 0 len)) (p.rsubPart B q len) :=
  Sim.bind (sim_slice L.pos _ _ _) fun _ => sim_rsub L _ _

def r3Second (B : Nat) (r2 : P) (lenR2 : Nat) (signR2 : Bool) (r3 : P) (lenR3 : Nat) (signR3 : Bool) :
    R (P × Nat × Bool) := do
  let (r3, lenR3, signR3, carry) ← (do
    if signR2 != signR3 then
      let lenR3 := max lenR3 lenR2
      let (r3, carry) ← r3.onSlice B 0 lenR3 fun s => s.addPart B r2 lenR2
      return (r3, lenR3, signR2, carry)
    else
      let s ← r2.slice B 0 lenR2
      let (r3, sign, len) ← r3.subAbs B lenR3 s
      return (r3, len, !(signR3 ^^ sign) && len != 0, false))
  let (r3, lenR3, _) ← r3.onSlice B 0 lenR3 fun s => s.shr1 B carry.toNat
  return (r3, lenR3, signR3)

theorem sim_r3Second (L : Lawful D B) (r2 : P) (lenR2 : Nat) (signR2 : Bool) (r3 : P) (lenR3 : Nat)
    (signR3 : Bool) :
    Sim (l2 B) (toomR3Second D (r2.list B) lenR2 signR2 (r3.list B) lenR3 signR3)
      (r3Second B r2 lenR2 signR2 r3 lenR3 signR3) := by
  unfold toomR3Second r3Second
  refine Sim.bind (f := l2 B) ?_ ?_
  · refine Sim.ite Iff.rfl (fun _ => ?_) fun _ => ?_
    · refine Sim.bind (sim_onSlice L.pos _ _ _ fun s => sim_addPart L _ _ _) ?_
      rintro ⟨r3, c⟩
      exact Sim.pure rfl
    · refine Sim.bind (sim_slice L.pos _ _ _) fun s => ?_
      refine Sim.bind (sim_subAbs L _ _ _) ?_
      rintro ⟨r3, sign, len⟩
      exact Sim.pure rfl
  rintro ⟨r3, lenR3, signR3, carry⟩
  refine Sim.bind (sim_onSlice L.pos _ _ _ fun s => sim_shr1 L _ _ (by cases carry <;> simp)) ?_
  rintro ⟨r3, lenR3, _⟩
  exact Sim.pure rfl

def r3Last (B : Nat) (r4 r3 : P) (lenR3 : Nat) (signR3 : Bool) : R (P × Nat) := do
  let lenR4 := r4.n
  if !signR3 then
    let lenR3 := max lenR3 lenR4
    let (r3, carry) ← r3.onSlice B 0 lenR3 fun s => s.add B r4
    let (r3, lenR3) ← r3.push B lenR3 carry
    let (r3, carry) ← r3.onSlice B 0 lenR3 fun s => s.add B r4
    r3.push B lenR3 carry
  else if (← r3.slice B 0 lenR3).lt B r4 then
    let lenR3 := lenR4
    let (r3, _) ← r3.onSlice B 0 lenR4 fun s => s.rsub B r4
    let (r3, carry) ← r3.onSlice B 0 lenR4 fun s => s.add B r4
    r3.push B lenR3 carry
  else
    let (r3, _) ← r3.onSlice B 0 lenR4 fun s => s.sub B r4
    let (r3, r) ← r3.onSlice B 0 lenR4 fun s => s.rsub B r4
    let n ← unwrapR r
    return (r3, n)

theorem sim_r3Last (L : Lawful D B) (r4 r3 : P) (lenR3 : Nat) (signR3 : Bool) :
    Sim (l2 B) (toomR3Last D (r4.list B) (r3.list B) lenR3 signR3) (r3Last B r4 r3 lenR3 signR3) := by
  have hB := L.base
  unfold toomR3Last r3Last
  simp only [list_length]
  refine Sim.ite Iff.rfl (fun _ => ?_) fun _ => ?_
  · refine Sim.bind (sim_onSlice L.pos _ _ _ fun s => sim_add L _ _) ?_
    rintro ⟨r3, c⟩
    refine Sim.bind (sim_push (by omega) _ _ _) ?_
    rintro ⟨r3, n⟩
    refine Sim.bind (sim_onSlice L.pos _ _ _ fun s => sim_add L _ _) ?_
    rintro ⟨r3, c⟩
    exact sim_push (by omega) _ _ _
  refine Sim.bind (sim_slice L.pos _ _ _) fun s => ?_
  rw [list_lt L.pos]
  refine Sim.ite Iff.rfl (fun _ => ?_) fun _ => ?_
  · refine Sim.bind (sim_onSlice L.pos _ _ _ fun s => sim_rsub L _ _) ?_
    rintro ⟨r3, c⟩
    refine Sim.bind (sim_onSlice L.pos _ _ _ fun s => sim_add L _ _) ?_
    rintro ⟨r3, c⟩
    exact sim_push (by omega) _ _ _
  · refine Sim.bind (sim_onSlice L.pos _ _ _ fun s => sim_sub L _ _) ?_
    rintro ⟨r3, c⟩
    refine Sim.bind (sim_onSlice L.pos _ _ _ fun s => sim_rsub L _ _) ?_
    rintro ⟨r3, c⟩
    exact Sim.bind (Sim.id _) fun n => Sim.pure rfl

def r2Last (B : Nat) (r4 r1 : P) (lenR1 : Nat) (r2 : P) (lenR2 : Nat) (signR2 : Bool) : R (P × Nat) := do
  let (r2, lenR2) ← (do
    if signR2 then
      let (r2, r) ← r2.onSlice B 0 lenR1 fun s => s.rsubPart B r1 lenR1
      let n ← unwrapR r
      return (r2, n)
    else
      let lenR2 := max lenR2 lenR1
      let (r2, carry) ← r2.onSlice B 0 lenR2 fun s => s.addPart B r1 lenR1
      r2.push B lenR2 carry)
  let (r2, r) ← r2.onSlice B 0 lenR2 fun s => s.sub B r4
  let n ← unwrapR r
  return (r2, n)

theorem sim_r2Last (L : Lawful D B) (r4 r1 : P) (lenR1 : Nat) (r2 : P) (lenR2 : Nat) (signR2 : Bool) :
    Sim (l2 B) (toomR2Last D (r4.list B) (r1.list B) lenR1 (r2.list B) lenR2 signR2)
      (r2Last B r4 r1 lenR1 r2 lenR2 signR2) := by
  have hB := L.base
  unfold toomR2Last r2Last
  refine Sim.bind (f := l2 B) ?_ ?_
  · refine Sim.ite Iff.rfl (fun _ => ?_) fun _ => ?_
    · refine Sim.bind (sim_onSlice L.pos _ _ _ fun s => sim_rsubPart L _ _ _) ?_
      rintro ⟨r2, r⟩
      exact Sim.bind (Sim.id _) fun n => Sim.pure rfl
    · refine Sim.bind (sim_onSlice L.pos _ _ _ fun s => sim_addPart L _ _ _) ?_
      rintro ⟨r2, c⟩
      exact sim_push (by omega) _ _ _
  rintro ⟨r2, n⟩
  refine Sim.bind (sim_onSlice L.pos _ _ _ fun s => sim_sub L _ _) ?_
  rintro ⟨r2, r⟩
  exact Sim.bind (Sim.id _) fun n => Sim.pure rfl

def r1Last (B : Nat) (r1 : P) (lenR1 : Nat) (r3 : P) (lenR3 : Nat) : R (P × Nat) := do
  let (r1, r) ← r1.onSlice B 0 lenR1 fun s => s.subPart B r3 lenR3
  let n ← unwrapR r
  return (r1, n)

theorem sim_r1Last (L : Lawful D B) (r1 : P) (lenR1 : Nat) (r3 : P) (lenR3 : Nat) :
    Sim (l2 B) (toomR1Last D (r1.list B) lenR1 (r3.list B) lenR3) (r1Last B r1 lenR1 r3 lenR3) := by
  unfold toomR1Last r1Last
  refine Sim.bind (sim_onSlice L.pos _ _ _ fun s => sim_subPart L _ _ _) ?_
  rintro ⟨r1, r⟩
  exact Sim.bind (Sim.id _) fun n => Sim.pure rfl

def interp (B : Nat) (r0 r4 r1 : P) (lenR1 : Nat) (rm1 : P) (lenRm1 : Nat) (rm2 : P) (lenRm2 : Nat) :
    R (P × Nat × P × Nat × P × Nat) := do
  let s ← r1.slice B 0 lenR1
  let (r3, signR3, lenR3) ← rm2.subAbs B lenRm2 s
  let (r3, lenR3, _) ← r3.onSlice B 0 lenR3 fun s => s.div3 B
  let (r1, r) ← r1.onSlice B 0 lenR1 fun s => s.subPart B rm1 lenRm1
  let lenR1 ← unwrapR r
  let (r1, lenR1, _) ← r1.onSlice B 0 lenR1 fun s => s.shr1 B 0
  let (r2, signR2, lenR2) ← rm1.subAbs B lenRm1 r0
  let (r3, lenR3, signR3) ← r3Second B r2 lenR2 signR2 r3 lenR3 signR3
  let (r3, lenR3) ← r3Last B r4 r3 lenR3 signR3
  let (r2, lenR2) ← r2Last B r4 r1 lenR1 r2 lenR2 signR2
  let (r1, lenR1) ← r1Last B r1 lenR1 r3 lenR3
  return (r1, lenR1, r2, lenR2, r3, lenR3)

def li (B : Nat) (r : P × Nat × P × Nat × P × Nat) : List Nat × Nat × List Nat × Nat × List Nat × Nat :=
  (r.1.list B, r.2.1, r.2.2.1.list B, r.2.2.2.1, r.2.2.2.2.1.list B, r.2.2.2.2.2)

theorem sim_interp (L : Lawful D B) (r0 r4 r1 : P) (lenR1 : Nat) (rm1 : P) (lenRm1 : Nat) (rm2 : P)
    (lenRm2 : Nat) :
    Sim (li B) (toomSquareInterp D (r0.list B) (r4.list B) (r1.list B) lenR1 (rm1.list B) lenRm1
      (rm2.list B) lenRm2) (interp B r0 r4 r1 lenR1 rm1 lenRm1 rm2 lenRm2) := by
  unfold toomSquareInterp interp
  refine Sim.bind (sim_slice L.pos _ _ _) fun s => ?_
  refine Sim.bind (sim_subAbs L _ _ _) ?_
  rintro ⟨r3, signR3, lenR3⟩
  refine Sim.bind (sim_onSlice L.pos _ _ _ fun s => sim_div3 L _) ?_
  rintro ⟨r3, lenR3, _⟩
  refine Sim.bind (sim_onSlice L.pos _ _ _ fun s => sim_subPart L _ _ _) ?_
  rintro ⟨r1, r⟩
  refine Sim.bind (Sim.id _) fun n => ?_
  refine Sim.bind (sim_onSlice L.pos _ _ _ fun s => sim_shr1 L _ _ (by omega)) ?_
  rintro ⟨r1, lenR1, _⟩
  refine Sim.bind (sim_subAbs L _ _ _) ?_
  rintro ⟨r2, signR2, lenR2⟩
  refine Sim.bind (sim_r3Second L _ _ _ _ _ _) ?_
  rintro ⟨r3, lenR3, signR3⟩
  refine Sim.bind (sim_r3Last L _ _ _ _) ?_
  rintro ⟨r3, lenR3⟩
  refine Sim.bind (sim_r2Last L _ _ _ _ _ _) ?_
  rintro ⟨r2, lenR2⟩
  refine Sim.bind (sim_r1Last L _ _ _ _) ?_
  rintro ⟨r1, lenR1⟩
  exact Sim.pure rfl

def recompose (B b : Nat) (result r1 : P) (lenR1 : Nat) (r2 : P) (lenR2 : Nat) (r3 : P) (lenR3 : Nat) :
    R P := do
  let (result, _) ← result.onSlice B b result.n fun s => s.addPart B r1 lenR1
  let (result, _) ← result.onSlice B (2 * b) result.n fun s => s.addPart B r2 lenR2
  let (result, _) ← result.onSlice B (3 * b) result.n fun s => s.addPart B r3 lenR3
  return result

theorem sim_recompose (L : Lawful D B) (b : Nat) (result r1 : P) (lenR1 : Nat) (r2 : P) (lenR2 : Nat)
    (r3 : P) (lenR3 : Nat) :
    Sim (list B) (toomRecompose D b (result.list B) (r1.list B) lenR1 (r2.list B) lenR2 (r3.list B) lenR3)
      (recompose B b result r1 lenR1 r2 lenR2 r3 lenR3) := by
  unfold toomRecompose recompose
  rw [list_length]
  refine Sim.bind (sim_onSlice L.pos _ _ _ fun s => sim_addPart L _ _ _) ?_
  rintro ⟨res, _⟩
  simp only [l2, list_length]
  refine Sim.bind (sim_onSlice L.pos _ _ _ fun s => sim_addPart L _ _ _) ?_
  rintro ⟨res, _⟩
  simp only [l2, list_length]
  refine Sim.bind (sim_onSlice L.pos _ _ _ fun s => sim_addPart L _ _ _) ?_
  rintro ⟨res, _⟩
  exact Sim.pure rfl

def sqToom (B : Nat) (dbg : Bool) (square : SqFn) (x result work : P) : R (P × P × Nat) := do
  let nd0 := x.n
  assertR (decide (5 ≤ nd0))
  assertR (decide (toom3WorkSize nd0 ≤ work.n))
  let b := (nd0 + 2) / 3
  let n := 2 * nd0
  let (p1, res) ← result.split B (b + 1)
  let (pm1, pm2) ← res.split B (b + 1)
  let (work, newWork) ← work.split B (6 * b + 10)
  let (r1, work) ← work.split B (2 * b + 3)
  let (rm1, rm2) ← work.split B (2 * b + 3)
  let p ← eval B dbg b x p1 pm1 pm2
  let s ← p.p1.slice B 0 p.lenP1
  let (r1, newWork, lenR1) ← square s r1 newWork
  let s ← p.pm1.slice B 0 p.lenPm1
  let (rm1, newWork, lenRm1) ← square s rm1 newWork
  let (rm1, _) ← rm1.clear B lenRm1 rm1.n
  let s ← p.pm2.slice B 0 p.lenPm2
  let (rm2, newWork, lenRm2) ← square s rm2 newWork
  let (rm2, _) ← rm2.clear B lenRm2 rm2.n
  let (result, _) ← ((p.p1.app B p.pm1).app B p.pm2).clear B 0 n
  let (r0, r4) ← result.split B (min (4 * b) result.n)
  let (r0, newWork, lenR0) ← square p.p0 r0 newWork
  let (r4, newWork, lenR4) ← square p.pinf r4 newWork
  let result := r0.app B r4
  let s0 ← r0.slice B 0 lenR0
  let s4 ← r4.slice B 0 lenR4
  let (r1, lenR1, r2, lenR2, r3, lenR3) ← interp B s0 s4 r1 lenR1 rm1 lenRm1 rm2 lenRm2
  let result ← recompose B b result r1 lenR1 r2 lenR2 r3 lenR3
  let m ← result.dlz B n
  return (result, ((r1.app B r2).app B r3).app B newWork, m)

theorem sim_sqToom {dbg : Bool} (L : Lawful D B) {f : SquareFn} {fP : SqFn} (h : SimSq B f fP) :
    SimSq B (squareToom3Into D dbg f) (sqToom B dbg fP) := by
  have hB := L.base
  intro x result work
  unfold squareToom3Into sqToom
  simp only [list_length]
  refine Sim.bind (Sim.id _) fun _ => ?_
  refine Sim.bind (Sim.id _) fun _ => ?_
  refine Sim.bind (sim_split L.pos _ _) ?_
  rintro ⟨p1, res⟩
  refine Sim.bind (sim_split L.pos _ _) ?_
  rintro ⟨pm1, pm2⟩
  refine Sim.bind (sim_split L.pos _ _) ?_
  rintro ⟨work, nw⟩
  refine Sim.bind (sim_split L.pos _ _) ?_
  rintro ⟨r1, work⟩
  refine Sim.bind (sim_split L.pos _ _) ?_
  rintro ⟨rm1, rm2⟩
  refine Sim.bind (sim_eval L _ _ _ _ _) fun p => ?_
  refine Sim.bind (sim_slice L.pos _ _ _) fun s => ?_
  refine Sim.bind (h _ _ _) ?_
  rintro ⟨r1, nw, lenR1⟩
  refine Sim.bind (sim_slice L.pos _ _ _) fun s => ?_
  refine Sim.bind (h _ _ _) ?_
  rintro ⟨rm1, nw, lenRm1⟩
  simp only [l3, list_length]
  refine Sim.bind (sim_clear L.pos _ _ _) ?_
  rintro ⟨rm1, _⟩
  refine Sim.bind (sim_slice L.pos _ _ _) fun s => ?_
  refine Sim.bind (h _ _ _) ?_
  rintro ⟨rm2, nw, lenRm2⟩
  simp only [l3, list_length]
  refine Sim.bind (sim_clear L.pos _ _ _) ?_
  rintro ⟨rm2, _⟩
  simp only [Eval.lists, list_app L.pos]
  refine Sim.bind (sim_clear L.pos _ _ _) ?_
  rintro ⟨res, _⟩
  simp only [l2, list_length]
  refine Sim.bind (sim_split L.pos _ _) ?_
  rintro ⟨r0, r4⟩
  refine Sim.bind (h _ _ _) ?_
  rintro ⟨r0, nw, lenR0⟩
  refine Sim.bind (h _ _ _) ?_
  rintro ⟨r4, nw, lenR4⟩
  simp only [l3, list_app L.pos]
  refine Sim.bind (sim_slice L.pos _ _ _) fun s0 => ?_
  refine Sim.bind (sim_slice L.pos _ _ _) fun s4 => ?_
  refine Sim.bind (sim_interp L _ _ _ _ _ _ _ _) ?_
  rintro ⟨r1, lenR1, r2, lenR2, r3, lenR3⟩
  refine Sim.bind (sim_recompose L _ _ _ _ _ _ _ _) fun res => ?_
  simp only [li, list_app L.pos]
  exact Sim.bind (sim_dlz (by omega) _ _) fun m => Sim.pure rfl

/-! ## Dispatch -/

def sqWork (B : Nat) (dbg : Bool) : Nat → SqFn
  | 0, _, _, _ => .error .noFuel
  | fuel + 1, x, p, work => do
    if x.n = 0 then return (p, work, 0)
    else
      let n0 := x.n
      assertR (decide (2 * n0 ≤ p.n))
      if toom3Cutoff ≤ n0 then sqToom B dbg (sqWork B dbg fuel) x p work
      else if karatsubaCutoff ≤ n0 then sqKar B dbg (sqWork B dbg fuel) x p work
      else
        let (p, n) ← x.sqLong B p
        return (p, work, n)

theorem list_eq_nil (p : P) : p.list B = [] ↔ p.n = 0 := dig_eq_nil _ _

theorem sim_sqWork {dbg : Bool} (L : Lawful D B) (fuel : Nat) :
    SimSq B (squareIntoWithWork D dbg fuel) (sqWork B dbg fuel) := by
  induction fuel with
  | zero => intro x p w; rfl
  | succ fuel ih =>
    intro x p w
    unfold squareIntoWithWork sqWork
    refine Sim.ite (list_eq_nil x) (fun _ => Sim.pure rfl) fun hx => ?_
    rw [list_eq_nil] at hx
    simp only [list_length]
    refine Sim.bind (Sim.id _) fun _ => ?_
    refine Sim.ite Iff.rfl (fun _ => sim_sqToom L ih _ _ _) fun _ => ?_
    refine Sim.ite Iff.rfl (fun _ => sim_sqKar L ih _ _ _) fun _ => ?_
    refine Sim.bind (sim_sqLong L x p hx) ?_
    rintro ⟨p, n⟩
    exact Sim.pure rfl

def sqInto (B : Nat) (dbg : Bool) (x p : P) : R (P × Nat) := do
  if x.n = 0 then return (p, 0)
  else
    let n0 := x.n
    assertR (decide (2 * n0 ≤ p.n))
    if toom3Cutoff ≤ n0 then
      let (p, _, n) ← sqToom B dbg (sqWork B dbg (mulFuel n0)) x p (zero (toom3WorkSize n0))
      return (p, n)
    else if karatsubaCutoff ≤ n0 then
      let (p, _, n) ← sqKar B dbg (sqWork B dbg (mulFuel n0)) x p (zero (karatsubaWorkSize n0))
      return (p, n)
    else x.sqLong B p

theorem sim_sqInto {dbg : Bool} (L : Lawful D B) (x p : P) :
    Sim (l2 B) (squareInto D dbg (x.list B) (p.list B)) (x.sqInto B dbg p) := by
  unfold squareInto sqInto
  refine Sim.ite (list_eq_nil x) (fun _ => Sim.pure rfl) fun hx => ?_
  rw [list_eq_nil] at hx
  simp only [list_length]
  refine Sim.bind (Sim.id _) fun _ => ?_
  refine Sim.ite Iff.rfl (fun _ => ?_) fun _ => ?_
  · rw [list_zero L.pos]
    refine Sim.bind (sim_sqToom L (sim_sqWork L _) _ _ _) ?_
    rintro ⟨p, w, n⟩
    exact Sim.pure rfl
  refine Sim.ite Iff.rfl (fun _ => ?_) fun _ => sim_sqLong L x p hx
  · rw [list_zero L.pos]
    refine Sim.bind (sim_sqKar L (sim_sqWork L _) _ _ _) ?_
    rintro ⟨p, w, n⟩
    exact Sim.pure rfl

/-- `square`. -/
def sq (B : Nat) (dbg : Bool) (x : P) : R P := do
  if x.n = 0 then return ⟨0, 0⟩
  else
    let (p, n) ← x.sqInto B dbg (zero (2 * x.n))
    return p.take n

theorem sim_sq {dbg : Bool} (L : Lawful D B) (x : P) :
    Sim (list B) (square D dbg (x.list B)) (x.sq B dbg) := by
  unfold square sq
  refine Sim.ite (list_eq_nil x) (fun _ => Sim.pure rfl) fun _ => ?_
  rw [list_length, list_zero L.pos]
  refine Sim.bind (sim_sqInto L _ _) ?_
  rintro ⟨p, n⟩
  refine Sim.pure ?_
  simp only [list_take L.pos]

end Babs.P
