import Verif.Proofs.BufOps

/-!
# Helper lemmas: the interpolation step of Toom-Cook multiplication
-/

namespace Babs

variable {D : DigitOps} {B : Nat}

/-- The first `n` digits of the buffer are the number `v`. -/
structure Pre (B : Nat) (buf : List Nat) (n v : Nat) : Prop where
  digs : Digs B buf
  le : n ≤ buf.length
  take_val : val B (buf.take n) = v

theorem Buf.pre {buf : List Nat} {n v : Nat} (h : Buf B buf n v) : Pre B buf n v :=
  ⟨h.digs, h.le, h.take_val⟩

theorem Pre.take_len {buf : List Nat} {n v : Nat} (h : Pre B buf n v) :
    (buf.take n).length = n := by simp [h.le]

theorem Pre.lt {buf : List Nat} {n v : Nat} (h : Pre B buf n v) : v < B ^ n := by
  have := val_lt (h.digs.take n)
  rwa [h.take_val, h.take_len] at this

theorem Pre.len_le_of_lt {buf : List Nat} {n v k : Nat} (hB : 2 ≤ B) (h : Pre B buf n v)
    (hc : Canon (buf.take n)) (hv : v < B ^ k) : n ≤ k := by
  have := length_bound (s := 0) (M := v) hB hc (by rw [h.take_val]) (by simpa using hv) (Nat.zero_le k)
  rw [h.take_len] at this
  omega

theorem onSlice_take {α : Type} {buf : List Nat} {k : Nat} {f : List Nat → R (List Nat × α)}
    (h2 : k ≤ buf.length) {r : List Nat} {x : α} (hf : f (buf.take k) = .ok (r, x)) :
    onSlice buf 0 k f = .ok (r ++ buf.drop k, x) := by
  have h3 := onSlice_append (p := []) (s := buf.take k) (q := buf.drop k)
    (a := 0) (b := k) (f := f) rfl (by simp; omega)
  rw [List.nil_append, List.take_append_drop, hf] at h3
  rw [h3]; rfl

theorem Buf.of_norm {r : List Nat} {nd j k v : Nat} (hB : 0 < B) (hr : Digs B r)
    (hn : nd ≤ r.length) (hz : r = r.take nd ++ List.replicate j 0) (hv : val B r = v) :
    Buf B (r ++ List.replicate k 0) nd v ∧
      (r ++ List.replicate k 0).take nd = r.take nd := by
  have ht : (r ++ List.replicate k 0).take nd = r.take nd := List.take_append_of_le_length hn
  refine ⟨Buf.of_take (k := j + k) (by simp [hr, digs_replicate hB]) (by simp; omega) ?_ ?_, ht⟩
  · rw [ht, val_take_zeros hz, hv]
  · rw [ht]
    conv_lhs => rw [hz]
    rw [List.append_assoc, List.replicate_append_replicate]

theorem Pre.of_norm {r t : List Nat} {nd j v : Nat} (hr : Digs B r) (ht : Digs B t)
    (hn : nd ≤ r.length) (hz : r = r.take nd ++ List.replicate j 0) (hv : val B r = v) :
    Pre B (r ++ t) nd v ∧ (r ++ t).take nd = r.take nd := by
  have h : (r ++ t).take nd = r.take nd := List.take_append_of_le_length hn
  exact ⟨⟨by simp [hr, ht], by simp; omega, by rw [h, val_take_zeros hz, hv]⟩, h⟩

/-- `r3 = (r(-2) - r(1)) / 3`. -/
theorem toomR3First_spec (L : Lawful D B) {T : Prop} {r1 rm2 : List Nat} {lenR1 lenRm2 v1 v2 : Nat}
    {s2 : Bool} {t : ℤ} (h1 : Pre B r1 lenR1 v1) (h2 : Buf B rm2 lenRm2 v2)
    (hlen : lenR1 ≤ rm2.length) (ht : sv s2 v2 - v1 = 3 * t)
    (hT : T → Canon (r1.take lenR1) ∧ Canon (rm2.take lenRm2)) :
    Sp (fun p => p = .unwrap ∧ ¬ T) (toomR3First D r1 lenR1 rm2 lenRm2 s2) (fun res =>
      ∃ m, Buf B res.1 res.2.1 m ∧ res.1.length = rm2.length ∧ sv res.2.2 m = t ∧
        Canon (res.1.take res.2.1)) := by
  unfold toomR3First
  simp only [slice_take h1.le, ok_bind]
  refine Sp.bind (P := fun res => ∃ m, Buf B res.1 res.2.1 m ∧ res.1.length = rm2.length ∧
    sv res.2.2.1 (res.2.2.2.toNat * B ^ res.2.1 + m) = 3 * t) ?_ ?_
  · cases s2 with
    | true =>
      rw [if_pos rfl]
      obtain ⟨buf', c, v', e1, e2, e3, e4⟩ := h2.add L (h1.digs.take lenR1) (k := max lenRm2 lenR1)
        (by omega) (by have := h2.le; omega) (by rw [h1.take_len]; omega)
      rw [e1, ok_bind]
      refine ⟨v', e3, e2, ?_⟩
      rw [← ht]
      rw [h1.take_val] at e4
      have e5 : (c.toNat * B ^ max lenRm2 lenR1 + v') = v2 + v1 := by rw [← e4]; ring
      simp only []
      rw [e5]
      simp; ring
    | false =>
      rw [if_neg (by simp)]
      refine Sp.bind (subAssignBigAbsSign_spec (T := T) L h2 (h1.digs.take lenR1)
        (by rw [h1.take_len]; exact hlen) (fun t => (hT t).symm)) ?_
      rintro ⟨r3, s, len⟩ ⟨m, e1, e2, e3, e4, -⟩
      simp only [] at e1 e2 e3 e4
      refine ⟨m, e1, e2, ?_⟩
      rw [h1.take_val] at e4
      simp only [Bool.toNat_false, zero_mul, zero_add]
      rw [e4, ← ht, sv_false]
  rintro ⟨r3, len, s, c⟩ ⟨m, e1, e2, e3⟩
  simp only [] at e1 e2 e3 ⊢
  obtain ⟨r, nd, rem, f1, f2, f3, f4, f5, f6, f7, f8⟩ := div3CarryAssign_spec L (r3.take len)
    c.toNat e1.take_digs (by have := toNat_le_one c; omega)
  rw [e1.take_len] at f2 f5 f6 f7
  rw [e1.take_val] at f5
  rw [onSlice_buf e1 (le_refl _) e1.le f1, ok_bind]
  have hle := e1.le
  obtain ⟨g1, g2⟩ := Buf.of_norm (k := r3.length - len) L.pos f3 (by omega) f7 rfl
  refine ⟨val B r, g1, by simp; omega, ?_, ?_⟩
  · simp only []
    rw [← f5] at e3
    cases s <;> simp at e3 ⊢ <;> omega
  · simp only []; rw [g2]; exact f8

/-- `r1 = (r(1) - r(-1)) / 2`. -/
theorem toomR1First_spec (L : Lawful D B) {T : Prop} {r1 rm1 : List Nat} {lenR1 lenRm1 v1 v2 t : Nat}
    {s : Bool} (h1 : Pre B r1 lenR1 v1) (h1' : s = true → Buf B r1 lenR1 v1)
    (h2 : Pre B rm1 lenRm1 v2) (hlen : lenRm1 ≤ r1.length) (ht : (v1 : ℤ) - sv s v2 = 2 * t)
    (hT : T → Canon (rm1.take lenRm1)) :
    Sp (fun p => p = .unwrap ∧ ¬ T) (toomR1First D r1 lenR1 rm1 lenRm1 s) (fun res =>
      Pre B res.1 res.2 t ∧ res.1.length = r1.length ∧ Canon (res.1.take res.2)) := by
  unfold toomR1First
  simp only [slice_take h2.le, ok_bind]
  refine Sp.bind (P := fun res => ∃ m, Pre B res.1 res.2.1 m ∧ res.1.length = r1.length ∧
    res.2.2.toNat * B ^ res.2.1 + m = 2 * t) ?_ ?_
  · cases s with
    | true =>
      rw [if_pos rfl]
      obtain ⟨buf', c, v', e1, e2, e3, e4⟩ := (h1' rfl).add L (h2.digs.take lenRm1)
        (k := max lenR1 lenRm1) (by omega) (by have := h1.le; omega) (by rw [h2.take_len]; omega)
      rw [e1, ok_bind]
      refine ⟨v', e3.pre, e2, ?_⟩
      rw [h2.take_val] at e4
      simp only []
      simp at ht
      have e5 : (c.toNat * B ^ max lenR1 lenRm1 + v') = v1 + v2 := by rw [← e4]; ring
      omega
    | false =>
      rw [if_neg (by simp)]
      have hle : lenRm1 ≤ lenR1 ∨ lenR1 < lenRm1 := by omega
      rcases hle with hle | hle
      · obtain ⟨r, res, e1, e2⟩ := subAssignBig_spec L (r1.take lenR1) (rm1.take lenRm1)
          (h1.digs.take _) (h2.digs.take _) (by rw [h1.take_len, h2.take_len]; exact hle)
        rw [onSlice_take h1.le e1, ok_bind]
        have q1 := e2.len
        have q3 := e2.cases
        rw [h1.take_len] at q1 q3
        rw [h1.take_val, h2.take_val] at q3
        simp at ht
        rcases q3 with ⟨a1, a2, a3⟩ | ⟨a1, nd, a2, a3, a4, a5, -, -⟩
        · omega
        · subst a2
          simp only [unwrapR, ok_bind, pure_eq_ok]
          have hr := (Pre.of_norm e2.digs (h1.digs.drop lenR1) (by omega) a5 rfl).1
          have := h1.le
          refine ⟨val B r, hr, by simp; omega, ?_⟩
          simp; omega
      · have : subAssignBig D (r1.take lenR1) (rm1.take lenRm1) = .ok (r1.take lenR1, .error .underflow) := by
          simp only [subAssignBig]
          rw [if_pos (by rw [h1.take_len, h2.take_len]; exact hle)]; rfl
        rw [onSlice_take h1.le this, ok_bind]
        refine ⟨rfl, fun t => ?_⟩
        have h3 := (hT t).length_le L.pos (h1.digs.take lenR1) (by
          rw [h1.take_val, h2.take_val]; simp at ht; omega)
        rw [h1.take_len, h2.take_len] at h3
        omega
  rintro ⟨r, len, c⟩ ⟨m, e1, e2, e3⟩
  simp only [] at e1 e2 e3 ⊢
  obtain ⟨r', nd, rem, f1, f2, f3, f4, f5, f6, f7, f8⟩ := shrWithin_spec L (r.take len) 1
    c.toNat (e1.digs.take _) (by have := L.base; omega) (by have := toNat_le_one c; omega)
  rw [e1.take_len] at f2 f5 f6 f7
  rw [e1.take_val] at f5
  rw [onSlice_take e1.le f1, ok_bind]
  have hle := e1.le
  obtain ⟨g1, g2⟩ := Pre.of_norm (t := r.drop len) (v := t) f3 (e1.digs.drop _) (by omega) f7
    (by omega)
  refine ⟨g1, by simp; omega, ?_⟩
  simp only []
  rw [g2]; exact f8

/-- `r2 = r(-1) - r(0)`. -/
theorem toomR2First_spec (L : Lawful D B) {T : Prop} {r0 rm1 : List Nat} {lenRm1 v1 c0 k : Nat} {s : Bool}
    (h0 : Rep B r0 c0) (h1 : Buf B rm1 lenRm1 v1) (hk : k ≤ rm1.length) (hl1 : lenRm1 ≤ k)
    (hl0 : r0.length ≤ k) (hv : v1 + c0 < B ^ k)
    (hT : T → Canon (rm1.take lenRm1) ∧ (s = false → near 1 B v1 c0 = false)) :
    Sp (fun p => p = .unwrap ∧ ¬ T) (toomR2First D r0 rm1 lenRm1 s) (fun res =>
      ∃ m, Buf B res.1 res.2.1 m ∧ res.1.length = rm1.length ∧ res.2.1 ≤ k ∧
        sv res.2.2 m = sv s v1 - c0 ∧ (T → Canon (res.1.take res.2.1))) := by
  unfold toomR2First
  cases s with
  | true =>
    rw [if_pos rfl]
    obtain ⟨buf1, c, buf', n', e1, e2, e3, e4, e5, e6⟩ := h1.addPush L (k := k) h0.digs hk hl1 hl0
      (by rw [h0.val_eq]; exact hv)
    simp only []
    rw [e1, ok_bind]
    simp only []
    rw [e2, ok_bind]
    rw [h0.val_eq] at e4
    refine ⟨_, e4, e3, e5, ?_, fun t => e6 (hT t).1 h0.canon⟩
    simp; ring
  | false =>
    rw [if_neg (by simp)]
    refine Sp.bind (subAssignBigAbsSign_spec (T := T) L h1 h0.digs (by omega)
      (fun t => ⟨(hT t).1, h0.canon⟩)) ?_
    rintro ⟨r, s, len⟩ ⟨m, e1, e2, e3, e4, e5⟩
    simp only [] at e1 e2 e3 e4 e5
    rw [h0.val_eq] at e4 e5
    exact ⟨m, e1, e2, by simp only []; omega, e4, fun t => (e5 t).2 ((hT t).2 rfl)⟩

/-- `r3 = (r2 - r3) / 2`. -/
theorem toomR3Second_spec (L : Lawful D B) {T : Prop} {r2 r3 : List Nat} {lenR2 lenR3 v2 v3 : Nat}
    {s2 s3 : Bool} {t : ℤ} (h2 : Pre B r2 lenR2 v2) (h3 : Buf B r3 lenR3 v3)
    (hlen : lenR2 ≤ r3.length) (ht : sv s2 v2 - sv s3 v3 = 2 * t)
    (hT : T → Canon (r2.take lenR2) ∧ Canon (r3.take lenR3)) :
    Sp (fun p => p = .unwrap ∧ ¬ T) (toomR3Second D r2 lenR2 s2 r3 lenR3 s3) (fun res =>
      ∃ m, Buf B res.1 res.2.1 m ∧ res.1.length = r3.length ∧ Canon (res.1.take res.2.1) ∧
        sv res.2.2 m = t) := by
  unfold toomR3Second
  simp only [slice_take h2.le, ok_bind]
  refine Sp.bind (P := fun res => ∃ m, Buf B res.1 res.2.1 m ∧ res.1.length = r3.length ∧
    sv res.2.2.1 (res.2.2.2.toNat * B ^ res.2.1 + m) = 2 * t) ?_ ?_
  · by_cases hs : s2 = s3
    · subst hs
      rw [if_neg (by simp)]
      refine Sp.bind (subAssignBigAbsSign_spec (T := T) L h3 (h2.digs.take lenR2)
        (by rw [h2.take_len]; exact hlen) (fun t => (hT t).symm)) ?_
      rintro ⟨r, s, len⟩ ⟨m, e1, e2, e3, e4, -⟩
      simp only [] at e1 e2 e3 e4
      refine ⟨m, e1, e2, ?_⟩
      rw [h2.take_val] at e4
      simp only [Bool.toNat_false, zero_mul, zero_add]
      rw [← ht]
      by_cases h0 : len = 0
      · have hm := e1.lt
        rw [h0] at hm
        have hm0 : m = 0 := by simpa using hm
        subst hm0
        cases s2 <;> cases s <;> simp [h0] at e4 ⊢ <;> omega
      · have : (len != 0) = true := by simp [h0]
        rw [this, Bool.and_true]
        cases s2 <;> cases s <;> simp at e4 ⊢ <;> omega
    · rw [if_pos (by simpa using hs)]
      obtain ⟨buf', c, v', e1, e2, e3, e4⟩ := h3.add L (h2.digs.take lenR2) (k := max lenR3 lenR2)
        (by omega) (by have := h3.le; omega) (by rw [h2.take_len]; omega)
      rw [e1, ok_bind]
      refine ⟨v', e3, e2, ?_⟩
      rw [← ht]
      rw [h2.take_val] at e4
      have e5 : (c.toNat * B ^ max lenR3 lenR2 + v') = v3 + v2 := by rw [← e4]; ring
      simp only []
      rw [e5]
      cases s2 <;> cases s3 <;> simp at hs ⊢ <;> omega
  rintro ⟨r, len, s, c⟩ ⟨m, e1, e2, e3⟩
  simp only [] at e1 e2 e3 ⊢
  obtain ⟨r', nd, rem, f1, f2, f3, f4, f5, f6, f7, f8⟩ := shrWithin_spec L (r.take len) 1
    c.toNat e1.take_digs (by have := L.base; omega) (by have := toNat_le_one c; omega)
  rw [e1.take_len] at f2 f5 f6 f7
  rw [e1.take_val] at f5
  rw [onSlice_buf e1 (le_refl _) e1.le f1, ok_bind]
  have hle := e1.le
  obtain ⟨g1, g2⟩ := Buf.of_norm (k := r.length - len) L.pos f3 (by omega) f7 rfl
  refine ⟨val B r', g1, by simp; omega, ?_, ?_⟩
  · simp only []; rw [g2]; exact f8
  · simp only []
    rw [← f5] at e3
    cases s <;> simp at e3 ⊢ <;> omega

/-- `r3 = r3 + 2 r4`. -/
theorem toomR3Last_spec (L : Lawful D B) {r4 r3 : List Nat} {lenR3 v c3 c4 k : Nat} {s : Bool}
    (h4 : Rep B r4 c4) (h3 : Buf B r3 lenR3 v) (hc : Canon (r3.take lenR3))
    (hv : sv s v = (c3 : ℤ) - 2 * c4) (hk : k ≤ r3.length) (hb : c3 + 2 * c4 < B ^ k)
    (hl4 : r4.length ≤ k) :
    Tot (toomR3Last D r4 r3 lenR3 s) (fun res =>
      Pre B res.1 res.2 c3 ∧ res.1.length = r3.length ∧ Canon (res.1.take res.2)) := by
  have hB : 2 ≤ B := by have := L.base; omega
  have hl3 : lenR3 ≤ k := h3.len_le_of_lt hB hc (by cases s <;> simp at hv <;> omega)
  have hv4 := h4.val_eq
  unfold toomR3Last
  simp only []
  cases s with
  | false =>
    simp at hv
    rw [if_pos (by simp)]
    obtain ⟨buf1, c, buf2, n2, e1, e2, e3, e4, e5, e6⟩ := h3.addPush L (k := k) h4.digs hk hl3 hl4
      (by omega)
    have hn : max n2 r4.length = n2 := by
      refine Nat.max_eq_left ?_
      exact h4.len_le_buf L.pos e4 (by omega)
    obtain ⟨buf3, c', buf4, n4, f1, f2, f3, f4, f5, f6⟩ := e4.addPush L (k := k) h4.digs (by omega)
      e5 hl4 (by omega)
    rw [hn] at f1 f2
    rw [e1, ok_bind]
    simp only []
    rw [e2, ok_bind]
    simp only []
    rw [f1, ok_bind]
    simp only []
    rw [f2]
    rw [show v + val B r4 + val B r4 = c3 by omega] at f4
    exact ⟨f4.pre, by simp only []; omega, f6 (e6 hc h4.canon) h4.canon⟩
  | true =>
    simp at hv
    rw [if_neg (by simp), slice_take h3.le, ok_bind]
    have hlt := ltBig_canon L.pos h3.take_digs h4.digs hc h4.canon
    rw [h3.take_val] at hlt
    by_cases h : ltBig (r3.take lenR3) r4 = true
    · rw [if_pos h]
      rw [hlt] at h
      have hle : lenR3 ≤ r4.length := h3.len_le L.pos hc h4.digs (by omega)
      obtain ⟨buf', res, e1, e2, e3⟩ := h3.rsub L h4.digs hle (by omega) rfl
      rw [e1, ok_bind]
      simp only []
      rcases e3 with ⟨a1, -, -⟩ | ⟨a1, nd, rfl, a3, a4, a5⟩
      · omega
      obtain ⟨buf2, c, buf3, n3, f1, f2, f3, f4, f5, f6⟩ := a4.addPush L (k := k) h4.digs (by omega)
        (by omega) hl4 (by omega)
      rw [Nat.max_eq_right a3] at f1 f2
      rw [f1, ok_bind]
      simp only []
      rw [f2]
      rw [show val B r4 - v + val B r4 = c3 by omega] at f4
      exact ⟨f4.pre, by simp only []; omega, f6 a5 h4.canon⟩
    · rw [if_neg h]
      rw [hlt] at h
      have hle : r4.length ≤ lenR3 := h4.len_le_buf L.pos h3 (by omega)
      have hle' := h3.le
      have hlen : (r3.take r4.length).length = r4.length := by rw [List.length_take]; omega
      have h34 := val_take_add_drop B r3 r4.length (by omega)
      rw [h3.val_eq] at h34
      have hc4 := val_lt h4.digs
      obtain ⟨r, res, e1, e2⟩ := subAssignBig_spec L (r3.take r4.length) r4
        (h3.digs.take _) h4.digs (by omega)
      have q1 := e2.len
      have q2 := e2.digs
      have q3 := e2.cases
      rw [hlen] at q1 q3
      have hlo := val_lt (h3.digs.take r4.length)
      rw [hlen] at hlo
      have hr : val B r + c4 = v := by
        generalize B ^ r4.length = Q at *
        generalize val B (r3.drop r4.length) = hi at *
        have hhi : hi = 0 ∨ hi = 1 ∨ 2 ≤ hi := by omega
        rcases hhi with rfl | rfl | hhi
        · rcases q3 with ⟨a1, -, a3⟩ | ⟨a1, nd, -, -, a4, -⟩ <;> omega
        · rcases q3 with ⟨a1, -, a3⟩ | ⟨a1, nd, -, -, a4, -⟩ <;> omega
        · have : Q * 2 ≤ Q * hi := Nat.mul_le_mul_left _ hhi
          omega
      rw [onSlice_take (by omega) e1, ok_bind]
      simp only []
      have ht : (r ++ r3.drop r4.length).take r4.length = r := List.take_left' q1
      have hd : (r ++ r3.drop r4.length).drop r4.length = r3.drop r4.length := List.drop_left' q1
      obtain ⟨r', res', f1, f2⟩ := rsubAssignBig_spec L r r4 q2 h4.digs q1
      rw [onSlice_take (by simp; omega) (by rw [ht]; exact f1), ok_bind, hd]
      have g1 := f2.len
      rcases f2.cases with ⟨a1, -, -⟩ | ⟨a1, nd, rfl, a3, a4, a5, a6, -⟩
      · omega
      simp only [unwrapR, ok_bind, pure_eq_ok]
      obtain ⟨i1, i2⟩ := Pre.of_norm (t := r3.drop r4.length) (v := c3) f2.digs (h3.digs.drop _)
        (by omega) a5 (by omega)
      refine ⟨i1, by simp; omega, ?_⟩
      simp only []
      rw [i2]
      exact a6 (Or.inl q1.symm)

theorem subAssignBig_nil (l : List Nat) :
    ∃ nd, subAssignBig D l [] = .ok (l, .ok nd) ∧ nd ≤ l.length ∧ Canon (l.take nd) ∧
      l = l.take nd ++ List.replicate (l.length - nd) 0 := by
  obtain ⟨nd, e1, e2, e3, e4⟩ := dropLeadingZeros_spec l l.length (le_refl _)
  rw [List.take_length] at e3
  refine ⟨nd, ?_, e2, e4, e3⟩
  have hz : zipDigits D.subCarry l [] false = .ok (l, false) := by cases l <;> rfl
  simp only [subAssignBig]
  rw [if_neg (by simp), hz, ok_bind]
  simp only [Bool.false_eq_true, if_false]
  rw [e1]; rfl

/-- `r2 = r2 + r1 - r4`. -/
theorem toomR2Last_spec {E : Panic → Prop} (L : Lawful D B) {r4 r1 r2 : List Nat} {lenR1 lenR2 t v c2 c4 k : Nat}
    {s : Bool} (h4 : Rep B r4 c4) (h1 : Pre B r1 lenR1 t)
    (h2 : Buf B r2 lenR2 v) (hv : sv s v + t = (c2 : ℤ) + c4) (hk : k ≤ r2.length)
    (hl2 : lenR2 ≤ k) (hl1 : lenR1 ≤ k) (hb : c2 + c4 < B ^ k) :
    Sp E (toomR2Last D r4 r1 lenR1 r2 lenR2 s) (fun res =>
      Pre B res.1 res.2 c2 ∧ res.1.length = r2.length ∧ res.2 ≤ k ∧
        (c4 = 0 → Canon (res.1.take res.2))) := by
  have hB : 2 ≤ B := by have := L.base; omega
  have ht := h1.lt
  unfold toomR2Last
  simp only [slice_take h1.le, ok_bind]
  refine Sp.bind (P := fun res => Buf B res.1 res.2 (c2 + c4) ∧ res.1.length = r2.length ∧
    res.2 ≤ k) ?_ ?_
  · cases s with
    | true =>
      simp at hv
      rw [if_pos rfl]
      have h2' := h2.shrink L.pos (k := lenR1) (by omega) (by omega)
      obtain ⟨buf', res, e1, e2, e3⟩ := h2'.rsub L (h1.digs.take lenR1) (le_refl _) (by omega)
        h1.take_len
      rw [e1, ok_bind]
      rw [h1.take_val] at e3
      rcases e3 with ⟨a1, -, -⟩ | ⟨a1, nd, rfl, a3, a4, a5⟩
      · omega
      simp only [unwrapR, ok_bind, pure_eq_ok]
      rw [show t - v = c2 + c4 by omega] at a4
      exact ⟨a4, e2, by simp only []; omega⟩
    | false =>
      simp at hv
      rw [if_neg (by simp)]
      obtain ⟨buf1, c, buf', n', e1, e2, e3, e4, e5, -⟩ := h2.addPush L (k := k)
        (h1.digs.take lenR1) hk hl2 (by rw [h1.take_len]; exact hl1)
        (by rw [h1.take_val]; omega)
      rw [h1.take_len] at e1 e2
      rw [h1.take_val] at e4
      rw [e1, ok_bind]
      simp only []
      rw [e2]
      rw [show v + t = c2 + c4 by omega] at e4
      exact ⟨e4, e3, e5⟩
  rintro ⟨r, len⟩ ⟨e1, e2, e3⟩
  simp only [] at e1 e2 e3 ⊢
  by_cases hz : r4 = []
  · have hc4 : c4 = 0 := by rw [← h4.val_eq, hz]; rfl
    subst hz hc4
    obtain ⟨nd, f1, f2, f3, f4⟩ := subAssignBig_nil (D := D) (r.take len)
    rw [onSlice_take e1.le f1, ok_bind, List.take_append_drop]
    simp only [unwrapR, ok_bind, pure_eq_ok]
    rw [e1.take_len] at f2
    have htk : (r.take len).take nd = r.take nd := by rw [List.take_take, Nat.min_eq_left f2]
    rw [htk] at f3
    refine ⟨⟨e1.digs, by simp only []; have := e1.le; omega, ?_⟩, e2, by simp only []; omega,
      fun _ => f3⟩
    simp only []
    rw [← htk, val_take_zeros f4, e1.take_val]; omega
  · have hne : c4 ≠ 0 := by
      intro h0
      exact hz (by
        have := (h4.canon.val_eq_zero L.pos).mp (by rw [h4.val_eq, h0])
        exact this)
    have hle : r4.length ≤ len := h4.len_le_buf L.pos e1 (by omega)
    obtain ⟨buf', res, f1, f2, f3⟩ := e1.sub L h4.digs (le_refl _) e1.le hle
    rw [f1, ok_bind]
    rw [h4.val_eq] at f3
    rcases f3 with ⟨a1, -, -⟩ | ⟨a1, nd, rfl, a3, a4, a5⟩
    · omega
    simp only [unwrapR, ok_bind, pure_eq_ok]
    rw [Nat.add_sub_cancel] at a4
    exact ⟨a4.pre, by simp only []; omega, by simp only []; omega, fun h => absurd h hne⟩

/-- `r1 = r1 - r3`. -/
theorem toomR1Last_spec (L : Lawful D B) {r1 r3 : List Nat} {lenR1 lenR3 c1 c3 : Nat}
    (h1 : Pre B r1 lenR1 (c1 + c3)) (hc1 : Canon (r1.take lenR1)) (h3 : Pre B r3 lenR3 c3)
    (hc3 : Canon (r3.take lenR3)) :
    Tot (toomR1Last D r1 lenR1 r3 lenR3) (fun res =>
      Pre B res.1 res.2 c1 ∧ res.1.length = r1.length ∧
        (Canon (res.1.take res.2) ∨ res.2 ≤ lenR3 + 1)) := by
  have hle : lenR3 ≤ lenR1 := by
    have := hc3.length_le L.pos (h1.digs.take lenR1) (by rw [h3.take_val, h1.take_val]; omega)
    rwa [h3.take_len, h1.take_len] at this
  unfold toomR1Last
  simp only [slice_take h3.le, ok_bind]
  obtain ⟨r, res, e1, e2⟩ := subAssignBig_spec L (r1.take lenR1) (r3.take lenR3)
    (h1.digs.take _) (h3.digs.take _) (by rw [h1.take_len, h3.take_len]; exact hle)
  rw [onSlice_take h1.le e1, ok_bind]
  have q1 := e2.len
  have q3 := e2.cases
  rw [h1.take_len, h3.take_len] at q3
  rw [h1.take_len] at q1
  rw [h1.take_val, h3.take_val] at q3
  have hle1 := h1.le
  rcases q3 with ⟨a1, -, -⟩ | ⟨a1, nd, rfl, a3, a4, a5, a6, -⟩
  · omega
  simp only [unwrapR, ok_bind, pure_eq_ok]
  obtain ⟨i1, i2⟩ := Pre.of_norm (t := r1.drop lenR1) (v := c1) e2.digs (h1.digs.drop _)
    (by omega) a5 (by omega)
  refine ⟨i1, by simp; omega, ?_⟩
  simp only []
  rw [i2]
  by_cases h : lenR1 = lenR3 + 1
  · right; omega
  · left; exact a6 (Or.inr ⟨hc1, fun h' => absurd h' h⟩)

/-- The coefficients that interpolation gives. -/
structure InterpPost (B k c1 c2 c3 c4 : Nat) (k1 k2 k3 : Nat)
    (res : List Nat × Nat × List Nat × Nat × List Nat × Nat) : Prop where
  r1 : Pre B res.1 res.2.1 c1
  l1 : res.1.length = k1
  n1 : Canon (res.1.take res.2.1) ∨ res.2.1 ≤ res.2.2.2.2.2 + 1
  r2 : Pre B res.2.2.1 res.2.2.2.1 c2
  l2 : res.2.2.1.length = k2
  n2 : res.2.2.2.1 ≤ k
  c2 : c4 = 0 → Canon (res.2.2.1.take res.2.2.2.1)
  r3 : Pre B res.2.2.2.2.1 res.2.2.2.2.2 c3
  l3 : res.2.2.2.2.1.length = k3
  n3 : Canon (res.2.2.2.2.1.take res.2.2.2.2.2)

theorem toomInterp_spec (L : Lawful D B) {T : Prop} {r0 r4 r1 rm1 rm2 : List Nat}
    {lenR1 lenRm1 lenRm2 c0 c1 c2 c3 c4 v1 w1 w2 k : Nat} {s1 s2 : Bool}
    (h0 : Rep B r0 c0) (h4 : Rep B r4 c4) (h1 : Pre B r1 lenR1 v1)
    (h1' : s1 = true → Buf B r1 lenR1 v1)
    (hm1 : Buf B rm1 lenRm1 w1) (hcm1 : Canon (rm1.take lenRm1)) (hm2 : Buf B rm2 lenRm2 w2)
    (e1 : v1 = c0 + c1 + c2 + c3 + c4) (e2 : sv s1 w1 = (c0 : ℤ) - c1 + c2 - c3 + c4)
    (e3 : sv s2 w2 = (c0 : ℤ) - 2 * c1 + 4 * c2 - 8 * c3 + 16 * c4)
    (hS : 2 * (c0 + c1 + c2 + c3 + c4) < B ^ k) (hk1 : k ≤ r1.length) (hk2 : k ≤ rm1.length)
    (hk3 : k ≤ rm2.length) (hl1 : lenR1 ≤ rm2.length)
    (hT : T → Canon (r1.take lenR1) ∧ Canon (rm2.take lenRm2) ∧
      (s1 = false → near 1 B w1 c0 = false)) :
    Sp (fun p => p = .unwrap ∧ ¬ T)
      (toomInterp D r0 r4 r1 lenR1 rm1 lenRm1 s1 rm2 lenRm2 s2)
      (InterpPost B k c1 c2 c3 c4 r1.length rm1.length rm2.length) := by
  have hB : 2 ≤ B := by have := L.base; omega
  have hl0 : r0.length ≤ k := by
    have := length_bound (s := 0) (M := c0) (k := k) hB h0.canon (by rw [h0.val_eq])
      (by rw [pow_zero, one_mul]; omega) (by omega)
    omega
  have hl4 : r4.length ≤ k := by
    have := length_bound (s := 0) (M := c4) (k := k) hB h4.canon (by rw [h4.val_eq])
      (by rw [pow_zero, one_mul]; omega) (by omega)
    omega
  have hw1 : w1 + c0 < B ^ k := by cases s1 <;> simp at e2 <;> omega
  have hlm1 : lenRm1 ≤ k := hm1.len_le_of_lt hB hcm1 (by omega)
  unfold toomInterp
  refine Sp.bind (toomR3First_spec L (t := -c1 + c2 - 3 * c3 + 5 * c4) h1 hm2 hl1
    (by rw [e3, e1]; push_cast; ring) (fun t => ⟨(hT t).1, (hT t).2.1⟩)) ?_
  rintro ⟨r3, len3, s3⟩ ⟨v3, f1, f2, f3, f4⟩
  simp only [] at f1 f2 f3 f4 ⊢
  refine Sp.bind (toomR1First_spec L (t := c1 + c3) h1 h1' hm1.pre (by omega)
    (by rw [e2, e1]; push_cast; ring) (fun _ => hcm1)) ?_
  rintro ⟨r1', len1⟩ ⟨g1, g2, g3⟩
  simp only [] at g1 g2 g3 ⊢
  have hlen1 : len1 ≤ k := g1.len_le_of_lt hB g3 (by omega)
  refine Sp.bind (toomR2First_spec L (k := k) (s := s1) h0 hm1 hk2 hlm1 hl0 hw1
    (fun t => ⟨hcm1, (hT t).2.2⟩)) ?_
  rintro ⟨r2, len2, s2'⟩ ⟨v2, i1, i2, i3, i4, i5⟩
  simp only [] at i1 i2 i3 i4 i5 ⊢
  refine Sp.bind (toomR3Second_spec L (t := c3 - 2 * c4) (s2 := s2') (s3 := s3) i1.pre f1 (by omega)
    (by rw [i4, e2, f3]; ring) (fun t => ⟨i5 t, f4⟩)) ?_
  rintro ⟨r3', len3', s3'⟩ ⟨v3', j1, j2, j3, j4⟩
  simp only [] at j1 j2 j3 j4 ⊢
  refine Sp.bind (toomR3Last_spec L (k := k) h4 j1 j3 j4 (by omega) (by omega) hl4).sp ?_
  rintro ⟨r3'', len3''⟩ ⟨m1, m2, m3⟩
  simp only [] at m1 m2 m3 ⊢
  refine Sp.bind (toomR2Last_spec L (k := k) (s := s2') (c2 := c2) h4 g1 i1
    (by rw [i4, e2]; push_cast; ring) (by omega) i3 hlen1 (by omega)) ?_
  rintro ⟨r2', len2'⟩ ⟨n1, n2, n3, n4⟩
  simp only [] at n1 n2 n3 n4 ⊢
  refine Sp.bind (toomR1Last_spec L g1 g3 m1 m3).sp ?_
  rintro ⟨r1'', len1'⟩ ⟨o1, o2, o3⟩
  simp only [] at o1 o2 o3 ⊢
  exact ⟨o1, by simp only []; omega, o3, n1, by simp only []; omega, n3, n4, m1,
    by simp only []; omega, m3⟩

theorem toomSquareInterp_eq (r0 r4 r1 : List Nat) (lenR1 : Nat) (rm1 : List Nat) (lenRm1 : Nat)
    (rm2 : List Nat) (lenRm2 : Nat) :
    toomSquareInterp D r0 r4 r1 lenR1 rm1 lenRm1 rm2 lenRm2
      = toomInterp D r0 r4 r1 lenR1 rm1 lenRm1 false rm2 lenRm2 false := by
  unfold toomSquareInterp toomInterp toomR3First toomR1First toomR2First
  simp only [Bool.false_eq_true, if_false, bind_assoc, pure_bind, Bool.toNat_false]

/-- Adding the coefficients to the product. -/
theorem toomRecompose_spec (L : Lawful D B) {b n k c0 c1 c2 c3 c4 l1 l2 l3 : Nat}
    {result r1 r2 r3 : List Nat} (hd : Digs B result)
    (hv : val B result = c0 + B ^ (4 * b) * c4) (hn : n ≤ result.length) (hb : 3 * b ≤ n)
    (hV : c0 + B ^ b * c1 + B ^ (2 * b) * c2 + B ^ (3 * b) * c3 + B ^ (4 * b) * c4 < B ^ n)
    (h1 : Pre B r1 l1 c1) (n1 : Canon (r1.take l1) ∨ l1 ≤ l3 + 1)
    (h2 : Pre B r2 l2 c2) (n2 : l2 ≤ k) (n2' : c4 = 0 → Canon (r2.take l2))
    (h3 : Pre B r3 l3 c3) (n3 : Canon (r3.take l3)) (hk : c4 ≠ 0 → 2 * b + k ≤ n)
    (hb1 : 1 ≤ b) :
    Tot (toomRecompose D b result r1 l1 r2 l2 r3 l3) (fun res =>
      res.length = result.length ∧ Digs B res ∧
      val B res = c0 + B ^ b * c1 + B ^ (2 * b) * c2 + B ^ (3 * b) * c3 + B ^ (4 * b) * c4) := by
  have hB : 2 ≤ B := by have := L.base; omega
  have hpow : B ^ n ≤ B ^ result.length := Nat.pow_le_pow_right L.pos hn
  have b3 : 3 * b + l3 ≤ n := by
    have := length_bound (s := 3 * b) (M := c3) (k := n) hB n3 (by rw [h3.take_val]) (by omega) hb
    rwa [h3.take_len] at this
  have b1 : b + l1 ≤ n := by
    rcases n1 with h | h
    · have := length_bound (s := b) (M := c1) (k := n) hB h (by rw [h1.take_val]) (by omega)
        (by omega)
      rwa [h1.take_len] at this
    · omega
  have b2 : 2 * b + l2 ≤ n := by
    by_cases h : c4 = 0
    · have := length_bound (s := 2 * b) (M := c2) (k := n) hB (n2' h) (by rw [h2.take_val])
        (by omega) (by omega)
      rwa [h2.take_len] at this
    · have := hk h
      omega
  unfold toomRecompose
  simp only [slice_take h1.le, slice_take h2.le, slice_take h3.le, ok_bind]
  obtain ⟨u1, e1, e2, e3, e4⟩ := add_front L (t := []) (off := b) hd (digs_nil B)
    (h1.digs.take l1) (by rw [h1.take_len]; omega) (by rw [h1.take_val]; omega)
  simp only [List.append_nil] at e1
  rw [e1, ok_bind]
  simp only []
  rw [h1.take_val] at e4
  obtain ⟨u2, f1, f2, f3, f4⟩ := add_front L (t := []) (off := 2 * b) e3 (digs_nil B)
    (h2.digs.take l2) (by rw [h2.take_len]; omega) (by rw [h2.take_val, e4, e2]; omega)
  simp only [List.append_nil] at f1
  rw [f1, ok_bind]
  simp only []
  rw [h2.take_val] at f4
  obtain ⟨u3, g1, g2, g3, g4⟩ := add_front L (t := []) (off := 3 * b) f3 (digs_nil B)
    (h3.digs.take l3) (by rw [h3.take_len]; omega) (by rw [h3.take_val, f4, e4, f2, e2]; omega)
  simp only [List.append_nil] at g1
  rw [g1, ok_bind]
  rw [h3.take_val] at g4
  exact ⟨by simp only []; omega, g3, by simp only []; omega⟩

end Babs
