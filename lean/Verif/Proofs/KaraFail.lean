import Verif.Proofs.KaraExact

/-!
# Helper lemmas: products that panic, whatever the buffers hold
-/

namespace Babs

variable {D : DigitOps} {B : Nat}

theorem ok_of_bind {α β : Type} {x : R α} {f : α → R β} {r : β} (h : (x >>= f) = .ok r) :
    ∃ a, x = .ok a ∧ f a = .ok r := by
  cases x with
  | ok a => exact ⟨a, rfl, h⟩
  | error p => cases h

theorem ok_of_assert {c : Bool} {a : Unit} (h : assertR c = .ok a) : c = true := by
  cases c with
  | true => rfl
  | false => cases h

theorem ok_of_slice {l r : List Nat} {a b : Nat} (h : slice l a b = .ok r) :
    b ≤ l.length ∧ r = (l.take b).drop a := by
  unfold slice at h
  split_ifs at h with hc
  · exact ⟨hc.2, (Except.ok.inj h).symm⟩

/-- If Karatsuba multiplication returns then the differences of the halves and the three products do. -/
theorem mulKaratsubaInto_ok {dbg : Bool} (L : Lawful D B) {mul : MulFn}
    {x y result work : List Nat} {out : List Nat × List Nat × Nat} {s : Nat}
    (hx : Digs B x) (hy : Digs B y) (hlen : x.length + y.length ≤ result.length)
    (hs : (max x.length y.length + 1) / 2 = s)
    (hs2 : 2 * s ≤ x.length + y.length)
    (hout : mulKaratsubaInto D dbg mul x y result work = .ok out) :
    ∃ l0 h0 l1 h1 d0 d1 : List Nat, Digs B l0 ∧ Canon l0 ∧ Digs B h0 ∧ Digs B l1 ∧ Canon l1 ∧
      Digs B h1 ∧ Digs B d0 ∧ Digs B d1 ∧
      h0.length = x.length - s ∧ h1.length = y.length - s ∧
      l0.length ≤ min s x.length ∧ l1.length ≤ min s y.length ∧
      d0.length ≤ x.length ∧ d1.length ≤ y.length ∧
      val B x = val B l0 + B ^ s * val B h0 ∧ val B y = val B l1 + B ^ s * val B h1 ∧
      halvesFail B h0.length (val B l0) (val B h0) = false ∧
      halvesFail B h1.length (val B l1) (val B h1) = false ∧
      d0.length = halvesDigits B h0.length (val B l0) (val B h0) ∧
      d1.length = halvesDigits B h1.length (val B l1) (val B h1) ∧
      val B d0 = Nat.dist (val B l0) (val B h0) ∧ val B d1 = Nat.dist (val B l1) (val B h1) ∧
      (∃ p w r, mul d0 d1 p w = .ok r) ∧ (∃ p w r, mul l0 l1 p w = .ok r) ∧
      (∃ p w r, mul h0 h1 p w = .ok r) := by
  unfold mulKaratsubaInto at hout
  simp only [] at hout
  obtain ⟨_, a1, hout⟩ := ok_of_bind hout
  obtain ⟨_, a2, hout⟩ := ok_of_bind hout
  rw [hs] at hout
  obtain ⟨nl0, low0, high0, p1, p2, p3, p4, p5, p6, p7, p8, p9, p10, -⟩ := kara_split hx s
  obtain ⟨nl1, low1, high1, q1, q2, q3, q4, q5, q6, q7, q8, q9, q10, -⟩ := kara_split hy s
  rw [p1, ok_bind] at hout
  simp only [] at hout
  rw [p2, ok_bind, q1, ok_bind] at hout
  simp only [] at hout
  rw [q2, ok_bind, splitAtR_ok (by omega), ok_bind] at hout
  simp only [] at hout
  rw [p3, ok_bind] at hout
  obtain ⟨⟨diff0, sign0, nd0⟩, b1, hout⟩ := ok_of_bind hout
  have c1 := subBigIntoAbsSign_exact (dbg := dbg) (buf := result.take s) L p5 p6 p7
    (by rw [List.length_take]; omega)
  rw [b1] at c1
  obtain ⟨c2, c3, c4, c5⟩ := c1
  simp only [] at hout c4 c5
  rw [q3, ok_bind] at hout
  obtain ⟨⟨diff1, sign1, nd1⟩, b2, hout⟩ := ok_of_bind hout
  have e1 := subBigIntoAbsSign_exact (dbg := dbg) (buf := result.drop s) L q5 q6 q7
    (by rw [List.length_drop]; omega)
  rw [b2] at e1
  obtain ⟨e2, e3, e4, e5⟩ := e1
  simp only [] at hout e4 e5
  obtain ⟨⟨z1, w0⟩, -, hout⟩ := ok_of_bind hout
  obtain ⟨sd0, b3, hout⟩ := ok_of_bind hout
  obtain ⟨sd1, b4, hout⟩ := ok_of_bind hout
  obtain ⟨g1, rfl⟩ := ok_of_slice b3
  obtain ⟨g2, rfl⟩ := ok_of_slice b4
  rw [List.drop_zero, List.drop_zero] at hout
  obtain ⟨⟨z1', w1, nz1⟩, b5, hout⟩ := ok_of_bind hout
  obtain ⟨⟨r1, _⟩, -, hout⟩ := ok_of_bind hout
  obtain ⟨⟨z0, z2⟩, -, hout⟩ := ok_of_bind hout
  simp only [ok_bind] at hout
  obtain ⟨⟨z0', w2, nz0⟩, b6, hout⟩ := ok_of_bind hout
  obtain ⟨⟨z2', w3, nz2⟩, b7, hout⟩ := ok_of_bind hout
  refine ⟨low0, high0, low1, high1, _, _, p5, p7, p6, q5, q7, q6, c5, e5, by omega, by omega,
    p9, q9, ?_, ?_, p8, q8, by simpa using c2, by simpa using e2,
    by rw [List.length_take, Nat.min_eq_left g1]; exact c4,
    by rw [List.length_take, Nat.min_eq_left g2]; exact e4,
    eq_dist c3.val_eq, eq_dist e3.val_eq, ⟨_, _, _, b5⟩, ⟨_, _, _, b6⟩, ⟨_, _, _, b7⟩⟩
  · have := c3.le
    simp only [] at this
    rw [List.length_take]; omega
  · have := e3.le
    simp only [] at this
    rw [List.length_take]; omega

theorem mulBigIntoWithWork_ok {dbg : Bool} (L : Lawful D B) (fuel : Nat) :
    ∀ {x y product work : List Nat} {out : List Nat × List Nat × Nat} (d : Nat),
    Digs B x → Digs B y → min x.length y.length < 128 →
    mulBigIntoWithWork D dbg fuel x y product work = .ok out →
    karaPanics B d x.length (val B x) y.length (val B y) = false := by
  induction fuel with
  | zero => intro x y product work out d _ _ _ h; cases h
  | succ fuel ih =>
    intro x y product work out d hx hy hmin hout
    cases d with
    | zero => rfl
    | succ d =>
      by_cases h2 : x.length < 20 ∨ y.length < 20
      · exact if_pos h2
      unfold mulBigIntoWithWork at hout
      rw [if_neg (by rintro (rfl | rfl) <;> simp at h2)] at hout
      simp only [] at hout
      obtain ⟨_, a1, hout⟩ := ok_of_bind hout
      have hlen := of_decide_eq_true (ok_of_assert a1)
      rw [if_neg (by unfold toom3Cutoff; omega), if_pos (by unfold karatsubaCutoff; omega)] at hout
      obtain ⟨l0, h0, l1, h1, d0, d1, p5, p7, p6, q5, q7, q6, r5, r6, k0, k1, m0, m1, i0, i1, p8, q8, f0, f1,
        n0, n1, v0, v1, ⟨_, _, _, c0⟩, ⟨_, _, _, c1⟩, ⟨_, _, _, c2⟩⟩ :=
        mulKaratsubaInto_ok (s := (max x.length y.length + 1) / 2) L hx hy hlen rfl (by omega) hout
      have hB := L.base
      have hl0v := lt_of_lt_of_le (val_lt p5) (Nat.pow_le_pow_right (by omega : 0 < B) (show l0.length ≤ _ from
        le_trans m0 (Nat.min_le_left _ _)))
      have hl1v := lt_of_lt_of_le (val_lt q5) (Nat.pow_le_pow_right (by omega : 0 < B) (show l1.length ≤ _ from
        le_trans m1 (Nat.min_le_left _ _)))
      have e0 := ih d r5 r6 (by omega) c0
      have e1 := ih d p5 q5 (by omega) c1
      have e2 := ih d p6 q6 (by omega) c2
      have hPs : 0 < B ^ ((max x.length y.length + 1) / 2) := Nat.pow_pos (by omega)
      rw [karaPanics_succ h2 rfl, p8, q8, Nat.add_mul_mod_self_left, Nat.add_mul_mod_self_left,
        Nat.mod_eq_of_lt hl0v, Nat.mod_eq_of_lt hl1v, Nat.add_mul_div_left _ _ hPs,
        Nat.add_mul_div_left _ _ hPs, Nat.div_eq_of_lt hl0v, Nat.div_eq_of_lt hl1v, Nat.zero_add,
        Nat.zero_add, size_canon (by omega) p5 p7, size_canon (by omega) q5 q7, ← k0, ← k1, f0, f1,
        ← n0, ← n1, ← v0, ← v1, e0, e1, e2]
      rfl

/-- The low part of an operand in Toom-Cook multiplication. -/
theorem toomEval_ok {dbg : Bool} (L : Lawful D B) {b : Nat} {x p1 pm1 pm2 : List Nat} {p : ToomEval}
    (hx : Digs B x) (h : toomEval D dbg b x p1 pm1 pm2 = .ok p) :
    Digs B p.p0 ∧ Canon p.p0 ∧ p.p0.length ≤ b ∧ val B p.p0 = val B x % B ^ b := by
  have hB := L.base
  unfold toomEval at h
  simp only [] at h
  obtain ⟨n0, e1, e2, e3, e4⟩ := dropLeadingZeros_spec x (min b x.length) (Nat.min_le_right _ _)
  rw [e1, ok_bind, slice_take (by omega), ok_bind] at h
  have hp : p.p0 = x.take n0 := by
    obtain ⟨_, -, h⟩ := ok_of_bind h
    obtain ⟨_, -, h⟩ := ok_of_bind h
    obtain ⟨_, -, h⟩ := ok_of_bind h
    obtain ⟨_, -, h⟩ := ok_of_bind h
    obtain ⟨_, -, h⟩ := ok_of_bind h
    obtain ⟨_, -, h⟩ := ok_of_bind h
    obtain ⟨_, -, h⟩ := ok_of_bind h
    obtain ⟨_, -, h⟩ := ok_of_bind h
    obtain ⟨_, -, h⟩ := ok_of_bind h
    obtain ⟨_, -, h⟩ := ok_of_bind h
    obtain ⟨_, -, h⟩ := ok_of_bind h
    obtain ⟨_, -, h⟩ := ok_of_bind h
    obtain ⟨_, -, h⟩ := ok_of_bind h
    obtain ⟨_, -, h⟩ := ok_of_bind h
    exact (congrArg ToomEval.p0 (Except.ok.inj h)).symm
  rw [hp]
  refine ⟨hx.take _, e4, by rw [List.length_take]; omega, ?_⟩
  have h1 : val B (x.take n0) = val B (x.take (min b x.length)) := by
    rw [e3, val_append_zeros]
  rw [h1]
  have h2 := val_take_add_drop B x (min b x.length) (by omega)
  rcases Nat.le_total b x.length with hb | hb
  · rw [Nat.min_eq_left hb] at h2 ⊢
    have h3 := val_lt (hx.take b)
    rw [List.length_take, Nat.min_eq_left hb] at h3
    rw [← h2, Nat.add_mul_mod_self_left, Nat.mod_eq_of_lt h3]
  · rw [Nat.min_eq_right hb, List.take_length]
    exact (Nat.mod_eq_of_lt (lt_of_lt_of_le (val_lt hx) (Nat.pow_le_pow_right (by omega) hb))).symm

/-- If Toom-Cook multiplication returns then the product of the low parts does. -/
theorem mulToom3Into_ok {dbg : Bool} (L : Lawful D B) {mul : MulFn} {x y result work : List Nat}
    {out : List Nat × List Nat × Nat} (hx : Digs B x) (hy : Digs B y)
    (hout : mulToom3Into D dbg mul x y result work = .ok out) :
    ∃ p q : List Nat, Rep B p (val B x % B ^ ((max x.length y.length + 2) / 3)) ∧
      Rep B q (val B y % B ^ ((max x.length y.length + 2) / 3)) ∧
      ∃ b w r, mul p q b w = .ok r := by
  unfold mulToom3Into at hout
  simp only [] at hout
  obtain ⟨_, -, hout⟩ := ok_of_bind hout
  obtain ⟨_, -, hout⟩ := ok_of_bind hout
  obtain ⟨_, -, hout⟩ := ok_of_bind hout
  obtain ⟨_, -, hout⟩ := ok_of_bind hout
  obtain ⟨_, -, hout⟩ := ok_of_bind hout
  obtain ⟨_, -, hout⟩ := ok_of_bind hout
  obtain ⟨_, -, hout⟩ := ok_of_bind hout
  obtain ⟨_, -, hout⟩ := ok_of_bind hout
  obtain ⟨p, hp, hout⟩ := ok_of_bind hout
  obtain ⟨q, hq, hout⟩ := ok_of_bind hout
  obtain ⟨_, -, hout⟩ := ok_of_bind hout
  obtain ⟨_, -, hout⟩ := ok_of_bind hout
  obtain ⟨_, -, hout⟩ := ok_of_bind hout
  obtain ⟨_, -, hout⟩ := ok_of_bind hout
  obtain ⟨_, -, hout⟩ := ok_of_bind hout
  obtain ⟨_, -, hout⟩ := ok_of_bind hout
  obtain ⟨_, -, hout⟩ := ok_of_bind hout
  obtain ⟨_, -, hout⟩ := ok_of_bind hout
  obtain ⟨_, -, hout⟩ := ok_of_bind hout
  obtain ⟨_, -, hout⟩ := ok_of_bind hout
  obtain ⟨_, -, hout⟩ := ok_of_bind hout
  obtain ⟨_, -, hout⟩ := ok_of_bind hout
  obtain ⟨_, -, hout⟩ := ok_of_bind hout
  obtain ⟨r, hr, hout⟩ := ok_of_bind hout
  obtain ⟨a1, a2, -, a3⟩ := toomEval_ok L hx hp
  obtain ⟨b1, b2, -, b3⟩ := toomEval_ok L hy hq
  exact ⟨p.p0, q.p0, ⟨a1, a2, a3⟩, ⟨b1, b2, b3⟩, _, _, _, hr⟩

/-! ## Squares -/

theorem squareKaratsubaInto_ok {dbg : Bool} (L : Lawful D B) {square : SquareFn}
    {x result work : List Nat} {out : List Nat × List Nat × Nat} {s : Nat}
    (hx : Digs B x) (hlen : 2 * x.length ≤ result.length) (h20 : 20 ≤ x.length)
    (hs : (x.length + 1) / 2 = s)
    (hout : squareKaratsubaInto D dbg square x result work = .ok out) :
    ∃ l h d : List Nat, Digs B l ∧ Canon l ∧ Digs B h ∧ Digs B d ∧
      h.length = x.length - s ∧ l.length ≤ s ∧ d.length ≤ x.length ∧
      val B x = val B l + B ^ s * val B h ∧
      halvesFail B h.length (val B l) (val B h) = false ∧
      d.length = halvesDigits B h.length (val B l) (val B h) ∧
      val B d = Nat.dist (val B l) (val B h) ∧
      (∃ p w r, square d p w = .ok r) ∧ (∃ p w r, square l p w = .ok r) ∧
      (∃ p w r, square h p w = .ok r) := by
  unfold squareKaratsubaInto at hout
  simp only [] at hout
  obtain ⟨_, a1, hout⟩ := ok_of_bind hout
  obtain ⟨_, a2, hout⟩ := ok_of_bind hout
  rw [hs] at hout
  obtain ⟨nl, e1, e2, e3, e4⟩ := dropLeadingZeros_spec x s (by omega)
  rw [e1, ok_bind, slice_take (by omega), ok_bind, slice_ok (by omega) (le_refl _), ok_bind,
    List.take_length] at hout
  have p5 : Digs B (x.take nl) := hx.take _
  have p6 : Digs B (x.drop s) := hx.drop _
  have p8 : val B x = val B (x.take nl) + B ^ s * val B (x.drop s) := by
    have h1 := val_take_add_drop B x s (by omega)
    rw [e3, val_append_zeros] at h1
    exact h1.symm
  have hl0 : (x.take nl).length ≤ s := by rw [List.length_take]; omega
  have hh0 : (x.drop s).length = x.length - s := by rw [List.length_drop]
  obtain ⟨⟨diff, sign, nd⟩, b1, hout⟩ := ok_of_bind hout
  have c1 := subBigIntoAbsSign_exact (dbg := dbg) (buf := result) L p5 p6 e4 (by omega)
  rw [b1] at c1
  obtain ⟨c2, c3, c4, c5⟩ := c1
  simp only [] at hout c4 c5
  obtain ⟨⟨z1, w0⟩, -, hout⟩ := ok_of_bind hout
  obtain ⟨sd, b3, hout⟩ := ok_of_bind hout
  obtain ⟨g1, rfl⟩ := ok_of_slice b3
  rw [List.drop_zero] at hout
  obtain ⟨⟨z1', w1, nz1⟩, b5, hout⟩ := ok_of_bind hout
  obtain ⟨⟨r1, _⟩, -, hout⟩ := ok_of_bind hout
  obtain ⟨⟨z0, z2⟩, -, hout⟩ := ok_of_bind hout
  obtain ⟨⟨z0', w2, nz0⟩, b6, hout⟩ := ok_of_bind hout
  obtain ⟨⟨z2', w3, nz2⟩, b7, hout⟩ := ok_of_bind hout
  refine ⟨_, _, _, p5, e4, p6, c5, hh0, hl0, ?_, p8, by simpa using c2,
    by rw [List.length_take, Nat.min_eq_left g1]; exact c4, eq_dist c3.val_eq,
    ⟨_, _, _, b5⟩, ⟨_, _, _, b6⟩, ⟨_, _, _, b7⟩⟩
  have := c3.le
  simp only [] at this
  rw [List.length_take]; omega

theorem squareIntoWithWork_ok {dbg : Bool} (L : Lawful D B) (fuel : Nat) :
    ∀ {x product work : List Nat} {out : List Nat × List Nat × Nat} (d : Nat),
    Digs B x → x.length < 128 →
    squareIntoWithWork D dbg fuel x product work = .ok out →
    karaPanics B d x.length (val B x) x.length (val B x) = false := by
  induction fuel with
  | zero => intro x product work out d _ _ h; cases h
  | succ fuel ih =>
    intro x product work out d hx hmin hout
    cases d with
    | zero => rfl
    | succ d =>
      by_cases h2 : x.length < 20 ∨ x.length < 20
      · exact if_pos h2
      unfold squareIntoWithWork at hout
      rw [if_neg (by rintro rfl; simp at h2)] at hout
      simp only [] at hout
      obtain ⟨_, a1, hout⟩ := ok_of_bind hout
      have hlen := of_decide_eq_true (ok_of_assert a1)
      rw [if_neg (by unfold toom3Cutoff; omega), if_pos (by unfold karatsubaCutoff; omega)] at hout
      obtain ⟨l0, h0, d0, p5, p7, p6, r5, k0, m0, i0, p8, f0, n0, v0, ⟨_, _, _, c0⟩, ⟨_, _, _, c1⟩,
        ⟨_, _, _, c2⟩⟩ :=
        squareKaratsubaInto_ok (s := (x.length + 1) / 2) L hx hlen (by omega) rfl hout
      have hB := L.base
      have hl0v := lt_of_lt_of_le (val_lt p5) (Nat.pow_le_pow_right (by omega : 0 < B) m0)
      have e0 := ih d r5 (by omega) c0
      have e1 := ih d p5 (by omega) c1
      have e2 := ih d p6 (by omega) c2
      have hPs : 0 < B ^ ((x.length + 1) / 2) := Nat.pow_pos (by omega)
      rw [karaPanics_succ h2 rfl, Nat.max_self, p8, Nat.add_mul_mod_self_left,
        Nat.mod_eq_of_lt hl0v, Nat.add_mul_div_left _ _ hPs, Nat.div_eq_of_lt hl0v, Nat.zero_add,
        size_canon (by omega) p5 p7, ← k0, f0, ← n0, ← v0, e0, e1, e2]
      rfl

/-- If Toom-Cook squaring returns then the square of the low part does. -/
theorem squareToom3Into_ok {dbg : Bool} (L : Lawful D B) {square : SquareFn} {x result work : List Nat}
    {out : List Nat × List Nat × Nat} (hx : Digs B x)
    (hout : squareToom3Into D dbg square x result work = .ok out) :
    ∃ p : List Nat, Rep B p (val B x % B ^ ((x.length + 2) / 3)) ∧
      ∃ b w r, square p b w = .ok r := by
  unfold squareToom3Into at hout
  simp only [] at hout
  obtain ⟨_, -, hout⟩ := ok_of_bind hout
  obtain ⟨_, -, hout⟩ := ok_of_bind hout
  obtain ⟨_, -, hout⟩ := ok_of_bind hout
  obtain ⟨_, -, hout⟩ := ok_of_bind hout
  obtain ⟨_, -, hout⟩ := ok_of_bind hout
  obtain ⟨_, -, hout⟩ := ok_of_bind hout
  obtain ⟨_, -, hout⟩ := ok_of_bind hout
  obtain ⟨p, hp, hout⟩ := ok_of_bind hout
  obtain ⟨_, -, hout⟩ := ok_of_bind hout
  obtain ⟨_, -, hout⟩ := ok_of_bind hout
  obtain ⟨_, -, hout⟩ := ok_of_bind hout
  obtain ⟨_, -, hout⟩ := ok_of_bind hout
  obtain ⟨_, -, hout⟩ := ok_of_bind hout
  obtain ⟨_, -, hout⟩ := ok_of_bind hout
  obtain ⟨_, -, hout⟩ := ok_of_bind hout
  obtain ⟨_, -, hout⟩ := ok_of_bind hout
  obtain ⟨_, -, hout⟩ := ok_of_bind hout
  obtain ⟨_, -, hout⟩ := ok_of_bind hout
  obtain ⟨r, hr, hout⟩ := ok_of_bind hout
  obtain ⟨a1, a2, -, a3⟩ := toomEval_ok L hx hp
  exact ⟨p.p0, ⟨a1, a2, a3⟩, _, _, _, hr⟩

end Babs
