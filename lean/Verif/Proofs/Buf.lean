import Verif.Proofs.MulLong
import Verif.Proofs.UBigAdd
import Verif.Proofs.Safe

/-!
# Helper lemmas: numbers at the start of zero padded buffers
-/

namespace Babs

variable {D : DigitOps} {B : Nat}

/-- What a buffer looks like after digits that are not part of the result may have been
cleared. -/
def Tail (old new : List Nat) : Prop := List.Forall₂ (fun o x => x = o ∨ x = 0) old new

theorem Tail.refl (l : List Nat) : Tail l l := by
  unfold Tail
  induction l with
  | nil => exact List.Forall₂.nil
  | cons d ds ih => exact List.Forall₂.cons (Or.inl rfl) ih

theorem Tail.zeros {l : List Nat} {k : Nat} (h : l.length = k) : Tail l (List.replicate k 0) := by
  subst h
  induction l with
  | nil => exact List.Forall₂.nil
  | cons d ds ih =>
    rw [List.length_cons, List.replicate_succ]; exact List.Forall₂.cons (Or.inr rfl) ih

theorem Tail.length {l l' : List Nat} (h : Tail l l') : l'.length = l.length := by
  unfold Tail at h
  induction h with
  | nil => rfl
  | cons _ _ ih => simp [ih]

theorem Tail.append {a b a' b' : List Nat} (h1 : Tail a a') (h2 : Tail b b') :
    Tail (a ++ b) (a' ++ b') := by
  induction h1 with
  | nil => exact h2
  | cons h _ ih => exact List.Forall₂.cons h ih

theorem Tail.trans {a b c : List Nat} (h1 : Tail a b) (h2 : Tail b c) : Tail a c := by
  unfold Tail at *
  induction h1 generalizing c with
  | nil => cases h2; exact List.Forall₂.nil
  | cons h _ ih =>
    cases h2 with
    | cons h' h'' => exact List.Forall₂.cons (by omega) (ih h'')

theorem Tail.of_zeros {k : Nat} {l : List Nat} (h : Tail (List.replicate k 0) l) :
    l = List.replicate k 0 := by
  induction k generalizing l with
  | zero => cases h; rfl
  | succ k ih =>
    rw [List.replicate_succ] at h ⊢
    cases h with
    | cons h h' => rw [ih h']; congr 1; omega

theorem Tail.digs {l l' : List Nat} (hB : 0 < B) (h : Tail l l') (hl : Digs B l) : Digs B l' := by
  unfold Tail at h
  induction h with
  | nil => exact hl
  | cons h _ ih =>
    rw [digs_cons] at hl ⊢
    refine ⟨?_, ih hl.2⟩
    rcases h with rfl | rfl
    · exact hl.1
    · exact hB

/-- What is known about a buffer after a part at the front is overwritten by something whose own
tail comes from a cleared buffer. -/
theorem Tail.drop {l l' : List Nat} (h : Tail l l') (k : Nat) : Tail (l.drop k) (l'.drop k) := by
  unfold Tail at h
  induction h generalizing k with
  | nil => simp only [List.drop_nil]; exact List.Forall₂.nil
  | cons h h' ih =>
    cases k with
    | zero => exact List.Forall₂.cons h h'
    | succ k => simpa using ih k

theorem Tail.take {l l' : List Nat} (h : Tail l l') (k : Nat) : Tail (l.take k) (l'.take k) := by
  unfold Tail at h
  induction h generalizing k with
  | nil => simp only [List.take_nil]; exact List.Forall₂.nil
  | cons h h' ih =>
    cases k with
    | zero => exact List.Forall₂.nil
    | succ k => simp only [List.take_succ_cons]; exact List.Forall₂.cons h (ih k)

theorem Tail.front {l t : List Nat} {n N : Nat} (h : Tail (l.drop N) t) (h1 : n ≤ N)
    (h2 : N ≤ l.length) : Tail (l.drop n) (List.replicate (N - n) 0 ++ t) := by
  have e : l.drop n = (l.drop n).take (N - n) ++ l.drop N := by
    conv_lhs => rw [← List.take_append_drop (N - n) (l.drop n), List.drop_drop]
    rw [show n + (N - n) = N by omega]
  rw [e]
  exact Tail.append (Tail.zeros (by simp; omega)) h

/-! ## Buffers -/

/-- The buffer holds the number `v` in its first `n` digits, and zeros after that. -/
structure Buf (B : Nat) (buf : List Nat) (n v : Nat) : Prop where
  digs : Digs B buf
  le : n ≤ buf.length
  val_eq : val B buf = v
  zeros : buf = buf.take n ++ List.replicate (buf.length - n) 0

theorem Buf.mono {buf : List Nat} {n v k : Nat} (h : Buf B buf n v) (h1 : n ≤ k)
    (h2 : k ≤ buf.length) : Buf B buf k v := by
  refine ⟨h.digs, h2, h.val_eq, ?_⟩
  have e : buf.take k = buf.take n ++ List.replicate (k - n) 0 := by
    conv_lhs => rw [h.zeros]
    rw [List.take_append, List.take_take, List.take_replicate]
    simp only [List.length_take]
    congr 2 <;> omega
  rw [e, List.append_assoc, List.replicate_append_replicate]
  conv_lhs => rw [h.zeros]
  congr 2; omega

theorem Buf.take_val {buf : List Nat} {n v : Nat} (h : Buf B buf n v) : val B (buf.take n) = v := by
  rw [← h.val_eq]
  conv_rhs => rw [h.zeros]
  simp

theorem Buf.take_digs {buf : List Nat} {n v : Nat} (h : Buf B buf n v) : Digs B (buf.take n) :=
  h.digs.take n

theorem slice_take {buf : List Nat} {k : Nat} (h2 : k ≤ buf.length) : slice buf 0 k = .ok (buf.take k) := by
  rw [slice_ok (by omega) h2]; rfl

theorem Buf.take_len {buf : List Nat} {n v : Nat} (h : Buf B buf n v) :
    (buf.take n).length = n := by simp [h.le]

theorem Buf.lt {buf : List Nat} {n v : Nat} (h : Buf B buf n v) : v < B ^ n := by
  have := val_lt h.take_digs
  rwa [h.take_val, h.take_len] at this

/-- Build a buffer from its parts. -/
theorem Buf.of {a : List Nat} {k v n : Nat} (hB : 0 < B) (ha : Digs B a) (hv : val B a = v)
    (hn : a.length = n) : Buf B (a ++ List.replicate k 0) n v := by
  subst hn
  refine ⟨by simp [ha, digs_replicate hB], by simp, by simp [hv], ?_⟩
  rw [List.take_left' rfl]
  simp

theorem Buf.of_take {buf : List Nat} {n k v : Nat} (hd : Digs B buf) (hn : n ≤ buf.length)
    (hv : val B (buf.take n) = v) (hz : buf = buf.take n ++ List.replicate k 0) :
    Buf B buf n v := by
  refine ⟨hd, hn, ?_, ?_⟩
  · rw [hz, val_append_zeros]; exact hv
  · have hl := congrArg List.length hz
    simp only [List.length_append, List.length_take, List.length_replicate] at hl
    rw [show buf.length - n = k by omega]
    exact hz

/-- The number written to the first `k` digits of a padded buffer. -/
theorem onSlice_buf {α : Type} {buf : List Nat} {n v k : Nat} {f : List Nat → R (List Nat × α)}
    (h : Buf B buf n v) (h1 : n ≤ k) (h2 : k ≤ buf.length) {r : List Nat} {x : α}
    (hf : f (buf.take k) = .ok (r, x)) :
    onSlice buf 0 k f = .ok (r ++ List.replicate (buf.length - k) 0, x) := by
  have hz := (h.mono h1 h2).zeros
  have h3 := onSlice_append (p := []) (s := buf.take k) (q := List.replicate (buf.length - k) 0)
    (a := 0) (b := k) (f := f) rfl (by simp; omega)
  rw [List.nil_append, ← hz, hf] at h3
  rw [h3]; rfl

theorem Buf.add (L : Lawful D B) {buf l : List Nat} {n v k : Nat} (h : Buf B buf n v)
    (hl : Digs B l) (h1 : n ≤ k) (h2 : k ≤ buf.length) (h3 : l.length ≤ k) :
    ∃ buf' c v', onSlice buf 0 k (fun s => addAssignBig D s l) = .ok (buf', c) ∧
      buf'.length = buf.length ∧ Buf B buf' k v' ∧ v' + B ^ k * c.toNat = v + val B l := by
  have hk := h.mono h1 h2
  obtain ⟨r, c, e1, e2, e3, e4⟩ := addAssignBig_spec L (buf.take k) l hk.take_digs hl
    (by rw [hk.take_len]; exact h3)
  rw [hk.take_len] at e2 e4
  refine ⟨_, c, val B r, onSlice_buf h h1 h2 e1, by simp; omega, Buf.of L.pos e3 rfl e2, ?_⟩
  rw [e4, hk.take_val]

/-- Subtraction from a padded buffer: what is left, modulo `B ^ k`. -/
theorem Buf.sub (L : Lawful D B) {buf l : List Nat} {n v k : Nat} (h : Buf B buf n v)
    (hl : Digs B l) (h1 : n ≤ k) (h2 : k ≤ buf.length) (h3 : l.length ≤ k) :
    ∃ buf' res, onSlice buf 0 k (fun s => subAssignBig D s l) = .ok (buf', res) ∧
      buf'.length = buf.length ∧
      ((v < val B l ∧ res = .error .underflow ∧ ∃ v', Buf B buf' k v' ∧ v' + val B l = v + B ^ k) ∨
       (val B l ≤ v ∧ ∃ nd, res = .ok nd ∧ nd ≤ k ∧ Buf B buf' nd (v - val B l) ∧
        (k = l.length ∨ (Canon (buf.take k) ∧ (k = l.length + 1 →
          nd = k ∨ val B l + B ^ (l.length - 1) ≤ v)) → Canon (buf'.take nd)))) := by
  have hk := h.mono h1 h2
  obtain ⟨r, res, e1, e2⟩ := subAssignBig_spec L (buf.take k) l hk.take_digs hl
    (by rw [hk.take_len]; exact h3)
  obtain ⟨q1, q2, q3⟩ := e2
  rw [hk.take_len] at q1 q3
  rw [hk.take_val] at q3
  refine ⟨_, res, onSlice_buf h h1 h2 e1, by simp; omega, ?_⟩
  rcases q3 with ⟨a1, a2, a3⟩ | ⟨a1, nd, a2, a3, a4, a5, a6, -⟩
  · exact Or.inl ⟨a1, a2, val B r, Buf.of L.pos q2 rfl q1, a3⟩
  · have ht : (r ++ List.replicate (buf.length - k) 0).take nd = r.take nd :=
      List.take_append_of_le_length (by omega)
    refine Or.inr ⟨a1, nd, a2, a3, Buf.of_take (k := buf.length - nd) ?_ ?_ ?_ ?_, ?_⟩
    · simp [q2, digs_replicate L.pos]
    · simp; omega
    · rw [ht, val_take_zeros a5]; omega
    · rw [ht]
      conv_lhs => rw [a5]
      rw [List.append_assoc, List.replicate_append_replicate]
      congr 2; omega
    · rw [ht]; exact a6

/-- Reverse subtraction in a padded buffer. -/
theorem Buf.rsub (L : Lawful D B) {buf l : List Nat} {n v k : Nat} (h : Buf B buf n v)
    (hl : Digs B l) (h1 : n ≤ k) (h2 : k ≤ buf.length) (h3 : l.length = k) :
    ∃ buf' res, onSlice buf 0 k (fun s => rsubAssignBig D s l) = .ok (buf', res) ∧
      buf'.length = buf.length ∧
      ((val B l < v ∧ res = .error .underflow ∧ ∃ v', Buf B buf' k v' ∧ v' + v = val B l + B ^ k) ∨
       (v ≤ val B l ∧ ∃ nd, res = .ok nd ∧ nd ≤ k ∧ Buf B buf' nd (val B l - v) ∧
        Canon (buf'.take nd))) := by
  have hk := h.mono h1 h2
  obtain ⟨r, res, e1, e2⟩ := rsubAssignBig_spec L (buf.take k) l hk.take_digs hl
    (by rw [hk.take_len]; exact h3.symm)
  obtain ⟨q1, q2, q3⟩ := e2
  rw [h3] at q1 q3
  rw [hk.take_val, hk.take_len] at q3
  refine ⟨_, res, onSlice_buf h h1 h2 e1, by simp; omega, ?_⟩
  rcases q3 with ⟨a1, a2, a3⟩ | ⟨a1, nd, a2, a3, a4, a5, a6, -⟩
  · exact Or.inl ⟨a1, a2, val B r, Buf.of L.pos q2 rfl q1, a3⟩
  · have ht : (r ++ List.replicate (buf.length - k) 0).take nd = r.take nd :=
      List.take_append_of_le_length (by omega)
    refine Or.inr ⟨a1, nd, a2, a3, Buf.of_take (k := buf.length - nd) ?_ ?_ ?_ ?_, ?_⟩
    · simp [q2, digs_replicate L.pos]
    · simp; omega
    · rw [ht, val_take_zeros a5]; omega
    · rw [ht]
      conv_lhs => rw [a5]
      rw [List.append_assoc, List.replicate_append_replicate]
      congr 2; omega
    · rw [ht]; exact a6 (Or.inl rfl)

/-! ## Additions that do not leave the front of a buffer -/

/-- `a + B^m t` and `a' + B^m t'` with small `a`, `a'` agree only if the parts agree. -/
theorem split_unique {m a a' t t' : Nat} (h1 : a < B ^ m) (h2 : a' < B ^ m)
    (h : a + B ^ m * t = a' + B ^ m * t') : a = a' ∧ t = t' := by
  have e1 : (a + B ^ m * t) % B ^ m = a := by
    rw [Nat.add_mul_mod_self_left, Nat.mod_eq_of_lt h1]
  have e2 : (a' + B ^ m * t') % B ^ m = a' := by
    rw [Nat.add_mul_mod_self_left, Nat.mod_eq_of_lt h2]
  have : a = a' := by rw [← e1, h, e2]
  subst this
  have h3 : B ^ m * t = B ^ m * t' := by omega
  exact ⟨rfl, Nat.eq_of_mul_eq_mul_left (by omega) h3⟩

theorem front_unchanged {r u t : List Nat} {c : Bool} {z : Nat} (hr : Digs B r)
    (ht : Digs B t) (hl : r.length = u.length + t.length)
    (hv : val B r + B ^ r.length * c.toNat = val B (u ++ t) + z)
    (hz : val B u + z < B ^ u.length) :
    c = false ∧ ∃ u', r = u' ++ t ∧ u'.length = u.length ∧ Digs B u' ∧ val B u' = val B u + z := by
  have h1 := val_take_add_drop B r u.length (by omega)
  have h2 := val_lt (hr.take u.length)
  have h3 : (r.take u.length).length = u.length := by simp; omega
  have h4 : (r.drop u.length).length = t.length := by simp; omega
  rw [h3] at h2
  have h5 : r.length = u.length + t.length := hl
  rw [val_append] at hv
  have h6 : val B (r.take u.length) + B ^ u.length * (val B (r.drop u.length) + B ^ t.length * c.toNat)
      = (val B u + z) + B ^ u.length * val B t := by
    rw [h5, pow_add] at hv
    rw [← h1] at hv
    linarith
  obtain ⟨h7, h8⟩ := split_unique h2 hz h6
  have h9 := val_lt ht
  have hc : c = false := by
    cases c with
    | false => rfl
    | true => simp at h8; omega
  subst hc
  simp at h8
  refine ⟨rfl, r.take u.length, ?_, h3, hr.take _, h7⟩
  rw [← val_inj (hr.drop _) ht h4 h8, List.take_append_drop]

theorem onSlice_suffix {α : Type} {p s : List Nat} {a : Nat} {f : List Nat → R (List Nat × α)}
    (hp : p.length = a) : onSlice (p ++ s) a (p ++ s).length f
      = (do let r ← f s; return (p ++ r.1, r.2)) := by
  have := onSlice_append (p := p) (s := s) (q := []) (a := a) (b := (p ++ s).length) (f := f) hp
    (by simp; omega)
  simp only [List.append_nil] at this
  exact this

/-- Adding `z` at offset `off` to the number in the front `u` of `u ++ t`. -/
theorem add_front (L : Lawful D B) {u t z : List Nat} {off : Nat} (hu : Digs B u) (ht : Digs B t)
    (hz : Digs B z) (hoff : off + z.length ≤ u.length)
    (hv : val B u + B ^ off * val B z < B ^ u.length) :
    ∃ u', onSlice (u ++ t) off (u ++ t).length (fun s => addAssignBig D s z)
        = .ok (u' ++ t, false) ∧ u'.length = u.length ∧ Digs B u' ∧
      val B u' = val B u + B ^ off * val B z := by
  obtain ⟨p, s, rfl, hp⟩ : ∃ p s, u = p ++ s ∧ p.length = off :=
    ⟨u.take off, u.drop off, (List.take_append_drop _ _).symm, by simp; omega⟩
  subst hp
  rw [digs_append] at hu
  rw [List.length_append, pow_add, val_append] at hv
  have hv' : val B s + val B z < B ^ s.length := by
    by_contra hcon
    push Not at hcon
    have := Nat.mul_le_mul_left (B ^ p.length) hcon
    have e : B ^ p.length * (val B s + val B z) = B ^ p.length * val B s + B ^ p.length * val B z := by
      ring
    omega
  obtain ⟨r, c, e1, e2, e3, e4⟩ := addAssignBig_spec L (s ++ t) z (by simp [hu.2, ht]) hz
    (by simp at hoff ⊢; omega)
  rw [← e2] at e4
  obtain ⟨rfl, s', rfl, f1, f2, f3⟩ := front_unchanged e3 ht (by simpa using e2) e4 hv'
  refine ⟨p ++ s', ?_, by simp [f1], by simp [hu.1, f2], ?_⟩
  · rw [List.append_assoc, onSlice_suffix rfl, e1]
    simp
  · rw [val_append, val_append, f3]; ring

/-- Incrementing at offset `off` the number in the front `u` of `u ++ t`. -/
theorem inc_front (L : Lawful D B) {u t : List Nat} {off : Nat} (hu : Digs B u) (ht : Digs B t)
    (hoff : off ≤ u.length) (hv : val B u + B ^ off < B ^ u.length) :
    ∃ u', onSlice (u ++ t) off (u ++ t).length (incAssign D)
        = .ok (u' ++ t, false) ∧ u'.length = u.length ∧ Digs B u' ∧
      val B u' = val B u + B ^ off := by
  obtain ⟨p, s, rfl, hp⟩ : ∃ p s, u = p ++ s ∧ p.length = off :=
    ⟨u.take off, u.drop off, (List.take_append_drop _ _).symm, by simp; omega⟩
  subst hp
  rw [digs_append] at hu
  rw [List.length_append, pow_add, val_append] at hv
  have hv' : val B s + 1 < B ^ s.length := by
    by_contra hcon
    push Not at hcon
    have := Nat.mul_le_mul_left (B ^ p.length) hcon
    have e : B ^ p.length * (val B s + 1) = B ^ p.length * val B s + B ^ p.length := by
      ring
    omega
  obtain ⟨r, c, e1, e2, e3, e4⟩ := incAssign_spec L (s ++ t) (by simp [hu.2, ht])
  rw [← e2] at e4
  obtain ⟨rfl, s', rfl, f1, f2, f3⟩ := front_unchanged e3 ht (by simpa using e2) e4 hv'
  refine ⟨p ++ s', ?_, by simp [f1], by simp [hu.1, f2], ?_⟩
  · rw [List.append_assoc, onSlice_suffix rfl, e1]
    simp
  · rw [val_append, val_append, f3]; ring

/-! ## Differences with sign -/

/-- The outcome of `sub_big_into_abs_sign` and `sub_assign_big_abs_sign`. -/
structure AbsPost (B : Nat) (a b buf : List Nat) (res : List Nat × Bool × Nat) : Prop where
  len : res.1.length = buf.length
  digs : Digs B buf → Digs B res.1
  le : res.2.2 ≤ max a.length b.length
  le_buf : res.2.2 ≤ buf.length
  val_eq : (val B (res.1.take res.2.2) : ℤ)
    = if res.2.1 then (val B b : ℤ) - val B a else (val B a : ℤ) - val B b
  tail : ∃ k, res.1 = res.1.take res.2.2 ++ List.replicate k 0 ++ buf.drop (max a.length b.length)
  canon : Canon a → Canon b → ∀ lo, near lo B (val B a) (val B b) = false →
    res.2.2 < lo ∨ Canon (res.1.take res.2.2)

/-- Digits beyond the operands are not touched. -/
theorem AbsPost.drop {a b buf : List Nat} {res : List Nat × Bool × Nat} (h : AbsPost B a b buf res)
    (hbuf : max a.length b.length ≤ buf.length) {k : Nat} (hk : max a.length b.length ≤ k) :
    res.1.drop k = buf.drop k := by
  obtain ⟨j, hj⟩ := h.tail
  have hl := congrArg List.length hj
  have hn := h.len
  simp only [List.length_append, List.length_drop] at hl
  rw [hj, show k = max a.length b.length + (k - max a.length b.length) by omega, ← List.drop_drop,
    List.drop_left' (by simp only [List.length_append]; omega), List.drop_drop]

theorem absPost_of {a b x y buf r : List Nat} {nd : Nat} {sgn : Bool} (hB : 2 ≤ B)
    (hyd : Digs B y) (hy : y.length ≤ x.length)
    (hbuf : x.length ≤ buf.length) (h : SubPost B x y r (.ok nd))
    (hs : (sgn = true ∧ x = b ∧ y = a) ∨ (sgn = false ∧ x = a ∧ y = b)) :
    AbsPost B a b buf (r ++ buf.drop x.length, sgn, nd) := by
  obtain ⟨q1, q2, q3⟩ := h
  rcases q3 with ⟨-, a2, -⟩ | ⟨a1, nd', a2, a3, a4, a5, a6, a7⟩
  · cases a2
  · injection a2 with a2
    subst a2
    have ht : (r ++ buf.drop x.length).take nd = r.take nd :=
      List.take_append_of_le_length (by omega)
    have hmax : max a.length b.length = x.length := by
      rcases hs with ⟨-, rfl, rfl⟩ | ⟨-, rfl, rfl⟩ <;> omega
    refine ⟨by simp; omega, fun hd => by simp [q2, hd.drop], by simp only; omega,
      by simp only; omega, ?_, ⟨x.length - nd, ?_⟩, ?_⟩
    · simp only [ht]
      rw [val_take_zeros a5]
      rcases hs with ⟨rfl, rfl, rfl⟩ | ⟨rfl, rfl, rfl⟩
      · simp only [if_true]; omega
      · simp only [Bool.false_eq_true, if_false]; omega
    · simp only [ht]
      rw [hmax, ← a5]
    · simp only [ht]
      intro ca cb lo hn
      have hxy : Canon x ∧ Canon y ∧ near lo B (val B x) (val B y) = false := by
        rcases hs with ⟨-, rfl, rfl⟩ | ⟨-, rfl, rfl⟩
        · exact ⟨cb, ca, by rw [near_comm]; exact hn⟩
        · exact ⟨ca, cb, hn⟩
      rcases sub_canon hB hxy.1 hyd hxy.2.1 a1 hxy.2.2 a3 with h | h
      · exact Or.inl h
      · exact Or.inr (a6 (Or.inr ⟨hxy.1, h⟩))

/-- The panics of the differences: only `unwrap`, and not for numbers in normal form. -/
def subFail (a b : List Nat) : Panic → Prop := fun p => p = .unwrap ∧ ¬ (Canon a ∧ Canon b)

theorem subBigIntoAbsSign_spec {dbg : Bool} (L : Lawful D B) {a b buf : List Nat}
    (ha : Digs B a) (hb : Digs B b) (hbuf : max a.length b.length ≤ buf.length) :
    Sp (subFail a b) (subBigIntoAbsSign D dbg a b buf) (AbsPost B a b buf) := by
  unfold subBigIntoAbsSign
  refine Sp.bind_eq (a := ()) (by simp [debugAssertR, hbuf]) ?_
  by_cases h : ltBig a b = true
  · rw [if_pos h]
    have hlen : a.length ≤ b.length := by
      by_contra hcon
      rw [ltBig_longer (by omega)] at h; simp at h
    obtain ⟨r, res, e1, e2⟩ := subBigInto_spec L b a buf hb ha hlen (by omega)
    rw [e1, ok_bind]
    cases res with
    | error e =>
      refine ⟨rfl, ?_⟩
      rintro ⟨ca, cb⟩
      obtain ⟨-, -, q3⟩ := e2
      rcases q3 with ⟨a1, -, -⟩ | ⟨-, nd, a2, -⟩
      · have := (ltBig_canon L.pos ha hb ca cb).mp h
        omega
      · cases a2
    | ok nd => exact absPost_of (by have := L.base; omega) ha hlen (by omega) e2 (Or.inl ⟨rfl, rfl, rfl⟩)
  · rw [if_neg h]
    have hlen : b.length ≤ a.length := by
      by_contra hcon
      exact h (ltBig_shorter (by omega))
    obtain ⟨r, res, e1, e2⟩ := subBigInto_spec L a b buf ha hb hlen (by omega)
    rw [e1, ok_bind]
    cases res with
    | error e =>
      refine ⟨rfl, ?_⟩
      rintro ⟨ca, cb⟩
      obtain ⟨-, -, q3⟩ := e2
      rcases q3 with ⟨a1, -, -⟩ | ⟨-, nd, a2, -⟩
      · have := mt (ltBig_canon L.pos ha hb ca cb).mpr h
        omega
      · cases a2
    | ok nd => exact absPost_of (by have := L.base; omega) hb hlen (by omega) e2 (Or.inr ⟨rfl, rfl, rfl⟩)

end Babs
