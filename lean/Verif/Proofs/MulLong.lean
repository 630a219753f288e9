import Verif.Proofs.MulDigit

/-!
# Helper lemmas: schoolbook multiplication and squaring
-/

namespace Babs

variable {D : DigitOps} {B : Nat}

theorem addProd_step (L : Lawful D B) {a f g c : Nat} (ha : a < B) (hf : f < B) (hg : g < B)
    (hc : c < B) : ∃ d c', D.addProd a f g c = .ok (d, c') ∧ d < B ∧ c' < B ∧
      d + B * c' = a + f * g + c := by
  have h := mul_pred_lt hf hg
  refine ⟨_, _, L.addProd a f g c ha hf hg hc, Nat.mod_lt _ L.pos, ?_, Nat.mod_add_div _ _⟩
  rw [Nat.div_lt_iff_lt_mul L.pos]; omega

theorem addProdRow_spec (L : Lawful D B) (d1 : Nat) (hd : d1 < B) (l s : List Nat) (c : Nat)
    (hl : Digs B l) (hs : Digs B s) (hlen : s.length = l.length) (hc : c < B) :
    ∃ r c', addProdRow D d1 l s c = .ok (r, c') ∧ r.length = l.length ∧ Digs B r ∧ c' < B ∧
      val B r + B ^ l.length * c' = val B s + val B l * d1 + c := by
  induction l generalizing s c with
  | nil =>
    have : s = [] := List.eq_nil_of_length_eq_zero (by simpa using hlen)
    subst this
    exact ⟨[], c, rfl, rfl, hs, hc, by simp⟩
  | cons a as ih =>
    cases s with
    | nil => simp at hlen
    | cons e es =>
      rw [digs_cons] at hl hs
      obtain ⟨d, c1, e1, e2, e3, e4⟩ := addProd_step L hs.1 hl.1 hd hc
      obtain ⟨r, c2, f1, f2, f3, f4, f5⟩ := ih es c1 hl.2 hs.2 (by simpa using hlen) e3
      refine ⟨d :: r, c2, by simp [addProdRow, e1, f1], by simp [f2], by simp [e2, f3], f4, ?_⟩
      simp only [val_cons, List.length_cons, pow_succ]
      zify at e4 f5 ⊢
      linear_combination e4 + (B : ℤ) * f5

theorem setR_append {p q : List Nat} {x v k : Nat} (h : p.length = k) :
    setR (p ++ x :: q) k v = .ok (p ++ v :: q) := by
  subst h
  rw [setR_ok (by simp)]
  simp

/-- The rows of the schoolbook multiplication.  `c` is the part the next row is added to, `z` are
the digits that are still to be written. -/
theorem mulLongGo_spec (L : Lawful D B) (l0 l1 p c z q : List Nat) (off : Nat) (h0 : Digs B l0)
    (h1 : Digs B l1) (hc : Digs B c) (hp : p.length = off) (hcl : c.length = l0.length)
    (hz : z.length = l1.length) :
    ∃ r, mulLongGo D l0 l1 off (p ++ c ++ z ++ q) = .ok (p ++ r ++ q) ∧
      r.length = l0.length + l1.length ∧ Digs B r ∧
      val B r = val B c + val B l0 * val B l1 := by
  induction l1 generalizing p c z off with
  | nil =>
    have : z = [] := List.eq_nil_of_length_eq_zero (by simpa using hz)
    subst this
    exact ⟨c, by simp [mulLongGo], by simp [hcl], hc, by simp⟩
  | cons d ds ih =>
    cases z with
    | nil => simp at hz
    | cons z0 zs =>
      rw [digs_cons] at h1
      obtain ⟨r, k, e1, e2, e3, e4, e5⟩ := addProdRow_spec L d h1.1 l0 c 0 h0 hc hcl L.pos
      unfold mulLongGo
      have hsplit : p ++ c ++ (z0 :: zs) ++ q = p ++ c ++ (z0 :: zs ++ q) := by simp
      rw [hsplit, onSlice_append hp (by omega), e1, ok_bind]
      simp only [pure_eq_ok, ok_bind]
      rw [List.cons_append, setR_append (by simp [e2, hp]), ok_bind]
      obtain ⟨h, c2, hh⟩ : ∃ h c2, r ++ [k] = h :: c2 := by
        cases r with
        | nil => exact ⟨k, [], rfl⟩
        | cons u us => exact ⟨u, us ++ [k], rfl⟩
      have hl2 : c2.length = l0.length := by
        have := congrArg List.length hh
        simp at this; omega
      have hd2 : Digs B (h :: c2) := by rw [← hh]; simp [e3, e4]
      rw [digs_cons] at hd2
      have hv2 : h + B * val B c2 = val B c + val B l0 * d := by
        have := congrArg (val B) hh
        rw [val_snoc, e2, e5] at this
        simpa using this.symm
      obtain ⟨r2, f1, f2, f3, f4⟩ := ih (p ++ [h]) c2 zs (off + 1) h1.2 hd2.2 (by simp [hp]) hl2
        (by simpa using hz)
      have hre : p ++ r ++ k :: (zs ++ q) = p ++ [h] ++ c2 ++ zs ++ q := by
        have : r ++ k :: (zs ++ q) = (r ++ [k]) ++ (zs ++ q) := by simp
        rw [List.append_assoc, this, hh]
        simp
      rw [hre, f1]
      refine ⟨h :: r2, by simp, by simp [f2]; omega, by simp [hd2.1, f3], ?_⟩
      simp only [val_cons]
      rw [f4]
      zify at hv2 ⊢
      linear_combination hv2

/-- Zero filling the first `k` digits of a buffer. -/
theorem onSlice_fill {l : List Nat} {k : Nat} (h : k ≤ l.length) :
    onSlice l 0 k (fun s => .ok (fillWith 0 s, ())) = .ok (List.replicate k 0 ++ l.drop k, ()) := by
  have := onSlice_append (p := []) (s := l.take k) (q := l.drop k) (a := 0) (b := k)
    (f := fun s => (.ok (fillWith 0 s, ()) : R (List Nat × Unit))) rfl (by simp; omega)
  simp only [List.nil_append, List.take_append_drop] at this
  rw [this]
  simp only [fillWith, ok_bind, pure_eq_ok, List.length_take, Nat.min_eq_left h]

/-- What schoolbook multiplication leaves in the result buffer. -/
structure LongPost (B : Nat) (nd v : Nat) (buf : List Nat) (res : List Nat × Nat) : Prop where
  ex : ∃ r, res.1 = r ++ buf.drop nd ∧ r.length = nd ∧ Digs B r ∧ val B r = v ∧ res.2 ≤ nd ∧
    r = r.take res.2 ++ List.replicate (nd - res.2) 0 ∧ Canon (r.take res.2)

theorem longPost_of {v nd : Nat} {r buf : List Nat} (h2 : r.length = nd) (h3 : Digs B r)
    (h4 : val B r = v) :
    ∃ n, dropLeadingZeros (r ++ buf.drop nd) nd = .ok n ∧
      LongPost B nd v buf (r ++ buf.drop nd, n) := by
  obtain ⟨n, e1, e2, e3, e4⟩ := dropLeadingZeros_spec (r ++ buf.drop nd) nd (by simp; omega)
  rw [List.take_left' h2, List.take_append_of_le_length (by omega)] at e3
  rw [List.take_append_of_le_length (by omega)] at e4
  exact ⟨n, e1, ⟨r, rfl, h2, h3, h4, e2, e3, e4⟩⟩

theorem mulBigLongInto_spec (L : Lawful D B) (l0 l1 buf : List Nat) (h0 : Digs B l0)
    (h1 : Digs B l1) (hb : l0.length + l1.length ≤ buf.length) :
    ∃ res, mulBigLongInto D l0 l1 buf = .ok res ∧
      LongPost B (l0.length + l1.length) (val B l0 * val B l1) buf res := by
  have hB := L.pos
  unfold mulBigLongInto
  simp only []
  rw [onSlice_fill hb, ok_bind]
  simp only []
  have hz : List.replicate (l0.length + l1.length) 0 ++ buf.drop (l0.length + l1.length)
      = [] ++ List.replicate l0.length 0 ++ List.replicate l1.length 0
        ++ buf.drop (l0.length + l1.length) := by
    rw [List.nil_append, List.replicate_append_replicate]
  obtain ⟨r, e1, e2, e3, e4⟩ := mulLongGo_spec L l0 l1 [] (List.replicate l0.length 0)
    (List.replicate l1.length 0) (buf.drop (l0.length + l1.length)) 0 h0 h1 (digs_replicate hB) rfl
    (by simp) (by simp)
  rw [hz, e1, ok_bind, List.nil_append]
  obtain ⟨n, f1, f2⟩ := longPost_of (buf := buf) e2 e3
    (show val B r = val B l0 * val B l1 by simpa using e4)
  rw [f1]
  exact ⟨_, rfl, f2⟩

/-! ## Squaring -/

/-- The sum of the squares of the digits, at their places. -/
def diag (B : Nat) : List Nat → Nat
  | [] => 0
  | d :: ds => d * d + B * (B * diag B ds)

theorem diag_snoc (l : List Nat) (d : Nat) :
    diag B (l ++ [d]) = diag B l + B ^ (2 * l.length) * (d * d) := by
  induction l with
  | nil => simp [diag]
  | cons a as ih =>
    simp only [List.cons_append, diag, ih, List.length_cons, Nat.mul_add, pow_add, Nat.mul_one]
    ring

theorem squareLongGo_spec (L : Lawful D B) (done rest s q : List Nat) (h0 : Digs B done)
    (h1 : Digs B rest) (hs : Digs B s) (hlen : s.length + 1 = 2 * done.length)
    (hv : 2 * val B s + diag B done = val B done ^ 2) :
    ∃ r, squareLongGo D done rest (s ++ List.replicate (1 + 2 * rest.length) 0 ++ q)
        = .ok (r ++ [0] ++ q) ∧
      r.length + 1 = 2 * (done.length + rest.length) ∧ Digs B r ∧
      2 * val B r + diag B (done ++ rest) = val B (done ++ rest) ^ 2 := by
  have hB := L.pos
  induction rest generalizing done s with
  | nil => exact ⟨s, by simp [squareLongGo], by simpa using hlen, hs, by simpa using hv⟩
  | cons d ds ih =>
    rw [digs_cons] at h1
    have hcut : Digs B ((s ++ [0]).drop done.length) := by
      apply Digs.drop; simp [hs, hB]
    obtain ⟨r, c, e1, e2, e3, e4, e5⟩ := addProdRow_spec L d h1.1 done
      ((s ++ [0]).drop done.length) 0 h0 hcut (by simp; omega) hB
    unfold squareLongGo
    simp only []
    have hsplit : s ++ List.replicate (1 + 2 * (d :: ds).length) 0 ++ q
        = (s ++ [0]).take done.length ++ (s ++ [0]).drop done.length
          ++ (0 :: List.replicate (1 + 2 * ds.length) 0 ++ q) := by
      rw [List.take_append_drop]
      have : List.replicate (1 + 2 * (d :: ds).length) 0
          = 0 :: 0 :: List.replicate (1 + 2 * ds.length) 0 := by
        rw [show 1 + 2 * (d :: ds).length = (1 + 2 * ds.length) + 1 + 1 by simp; omega]
        rfl
      rw [this]; simp
    have hlt : ((s ++ [0]).take done.length).length = done.length := by simp; omega
    rw [hsplit, onSlice_append hlt (by simp; omega), e1, ok_bind]
    simp only [pure_eq_ok, ok_bind, List.cons_append]
    rw [setR_append (by simp [e2]; omega), ok_bind]
    have hd' : Digs B ((s ++ [0]).take done.length ++ r ++ [c]) := by
      simp only [digs_append, digs_cons, digs_nil, and_true]
      refine ⟨⟨?_, e3⟩, e4⟩
      apply Digs.take; simp [hs, hB]
    have hv' : val B ((s ++ [0]).take done.length ++ r ++ [c])
        = val B s + B ^ done.length * (val B done * d) := by
      have h2 := val_take_add_drop B (s ++ [0]) done.length (by simp; omega)
      rw [val_snoc, val_append]
      simp only [List.length_append, hlt, e2]
      have h3 : val B (s ++ [0]) = val B s := by rw [val_snoc]; simp
      rw [h3] at h2
      rw [pow_add]
      zify at e5 h2 ⊢
      linear_combination (B : ℤ) ^ done.length * e5 + h2
    obtain ⟨r2, f1, f2, f3, f4⟩ := ih (done ++ [d]) ((s ++ [0]).take done.length ++ r ++ [c])
      (by simp [h0, h1.1]) h1.2 hd' (by simp [e2]; omega) (by
        rw [hv', diag_snoc, val_snoc]
        rw [Nat.mul_comm 2 done.length, pow_mul]
        zify at hv ⊢
        linear_combination hv)
    have hre : (s ++ [0]).take done.length ++ r ++ c :: (List.replicate (1 + 2 * ds.length) 0 ++ q)
        = ((s ++ [0]).take done.length ++ r ++ [c]) ++ List.replicate (1 + 2 * ds.length) 0 ++ q := by
      simp
    rw [hre, f1]
    refine ⟨r2, rfl, ?_, f3, ?_⟩
    · simp at f2 ⊢; omega
    · simpa using f4

theorem squareDiagGo_spec (L : Lawful D B) (l s : List Nat) (c : Bool) (hl : Digs B l)
    (hs : Digs B s) (hlen : s.length = 2 * l.length) :
    ∃ r c', squareDiagGo D l s c = .ok (r, c') ∧ r.length = s.length ∧ Digs B r ∧
      val B r + B ^ s.length * c'.toNat = val B s + diag B l + c.toNat := by
  have hB := L.base
  induction l generalizing s c with
  | nil =>
    have : s = [] := List.eq_nil_of_length_eq_zero (by simpa using hlen)
    subst this
    exact ⟨[], c, by simp [squareDiagGo], rfl, hs, by simp [diag]⟩
  | cons d ds ih =>
    match s, hlen with
    | [], h => simp at h
    | [_], h => simp at h; omega
    | s0 :: s1 :: ss, hlen =>
      rw [digs_cons] at hl
      rw [digs_cons, digs_cons] at hs
      have hcB : c.toNat < B := lt_of_le_of_lt (toNat_le_one c) (by omega)
      obtain ⟨d', c1, e1, e2, e3, e4⟩ := addProd_step L hs.1 hl.1 hl.1 hcB
      obtain ⟨d'', c2, f1, f2, f3⟩ := addCarry_step' L s1 c1 hs.2.1 e3
      obtain ⟨r, c3, g1, g2, g3, g4⟩ := ih ss c2 hl.2 hs.2.2 (by simp at hlen; omega)
      refine ⟨d' :: d'' :: r, c3, by simp [squareDiagGo, e1, f1, g1], by simp [g2],
        by simp [e2, f2, g3], ?_⟩
      simp only [val_cons, List.length_cons, diag, pow_succ]
      zify at e4 f3 g4 ⊢
      linear_combination e4 + (B : ℤ) * f3 + (B : ℤ) * B * g4

theorem squareLongInto_spec {dbg : Bool} (L : Lawful D B) (l buf : List Nat) (h0 : Digs B l)
    (hne : l ≠ []) (hb : 2 * l.length ≤ buf.length) :
    ∃ res, squareLongInto D dbg l buf = .ok res ∧
      LongPost B (2 * l.length) (val B l ^ 2) buf res := by
  have hB := L.pos
  obtain ⟨d, ds, rfl⟩ : ∃ d ds, l = d :: ds := by
    cases l with
    | nil => contradiction
    | cons d ds => exact ⟨d, ds, rfl⟩
  have h0' := h0
  rw [digs_cons] at h0
  unfold squareLongInto
  simp only []
  rw [onSlice_fill hb, ok_bind]
  simp only []
  have hz : List.replicate (2 * (d :: ds).length) 0 ++ buf.drop (2 * (d :: ds).length)
      = [0] ++ List.replicate (1 + 2 * ds.length) 0 ++ buf.drop (2 * (d :: ds).length) := by
    rw [show 2 * (d :: ds).length = (1 + 2 * ds.length) + 1 by simp; omega]
    simp [List.replicate_succ]
  obtain ⟨r, e1, e2, e3, e4⟩ := squareLongGo_spec L [d] ds [0] (buf.drop (2 * (d :: ds).length))
    (by simp [h0.1]) h0.2 (by simp [hB]) (by simp) (by simp [diag]; ring)
  have ht : (d :: ds).take 1 = [d] := rfl
  have hdr : (d :: ds).drop 1 = ds := rfl
  rw [hz, ht, hdr, e1, ok_bind]
  simp only [List.singleton_append] at e4
  set nd := 2 * (d :: ds).length with hnd
  have hdl : (d :: ds).length = ds.length + 1 := rfl
  have hrl : (r ++ [0]).length = nd := by simp at e2 ⊢; omega
  -- doubling
  obtain ⟨r2, c2, f1, f2, f3, f4⟩ := doubleCarryAssign_spec L (r ++ [0]) false (by simp [e3, hB])
  have hon : ∀ (s : List Nat) (q : List Nat) (α : Type) (f : List Nat → R (List Nat × α)),
      s.length = nd → onSlice (s ++ q) 0 nd f = (do let x ← f s; return (x.1 ++ q, x.2)) := by
    intro s q α f hs
    have := onSlice_append (p := []) (s := s) (q := q) (a := 0) (b := nd) (f := f) rfl (by omega)
    simpa using this
  rw [hon _ _ _ _ hrl, f1, ok_bind]
  simp only [pure_eq_ok, ok_bind]
  have hsq : val B (d :: ds) ^ 2 < B ^ nd := by
    have h := val_lt h0'
    rw [hnd, Nat.mul_comm, pow_mul]
    exact Nat.pow_lt_pow_left h (by omega)
  have hv0 : val B (r ++ [0]) = val B r := by rw [val_snoc]; simp
  rw [hrl, hv0] at f4
  have hc2 : c2.toNat = 0 := by
    rcases Nat.eq_zero_or_pos c2.toNat with h | h
    · exact h
    · have : B ^ nd * 1 ≤ B ^ nd * c2.toNat := Nat.mul_le_mul_left _ h
      simp at f4; omega
  rw [hc2] at f4
  have hr2 : r2.length = nd := by rw [f2, hrl]
  obtain ⟨r3, c3, g1, g2, g3, g4⟩ := squareDiagGo_spec L (d :: ds) r2 false h0' f3 (by omega)
  rw [hon _ _ _ _ hr2, g1, ok_bind]
  simp only [pure_eq_ok, ok_bind]
  have hc3 : c3 = false := by
    cases c3 with
    | false => rfl
    | true => rw [hr2] at g4; simp at g4 f4; omega
  subst hc3
  have hv3 : val B r3 = val B (d :: ds) ^ 2 := by simp at g4 f4; omega
  have hda : debugAssertR dbg (!false) = .ok () := by simp [debugAssertR]
  rw [hda, ok_bind]
  obtain ⟨n, i1, i2⟩ := longPost_of (buf := buf) (nd := nd) (by omega) g3 hv3
  rw [i1]
  exact ⟨_, rfl, i2⟩

end Babs
