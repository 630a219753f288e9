import Verif.Props.Laws
import Verif.Props.DivSafe
import Verif.Props.SquareFresh
import Verif.Props.SquareLong

/-!
# C14, C41: powers that panic or are wrong, and laws of powers and division for numbers of any size
-/

namespace Babs.Props

variable (t : DType) (dbg : Bool)

/-! ## Powers -/

/-- C14, refuted: every power of the number of `square_panics` but the first two panics. -/
theorem pow_panics (e : Nat) (he : 2 ≤ e) :
    Panics (UBig.pow t dbg (karatsubaWitness t.radix) e) .unwrap := by
  have h : Babs.square (t.ops dbg) dbg (karatsubaWitness t.radix) = .error .unwrap := square_panics t dbg
  show Babs.pow (t.ops dbg) dbg (karatsubaWitness t.radix) e = .error .unwrap
  unfold Babs.pow
  rw [if_neg (by omega), if_neg (by omega)]
  split_ifs with h2
  · exact h
  all_goals
    unfold powLoop
    rw [if_neg (by omega), h]
    rfl

/-- C14, refuted: the second power of the number of `square_wrong` is returned, but it is not right. -/
theorem pow_wrong :
    Rep t.radix (longWitness t) (longNumber t.radix) ∧
    Returns (UBig.pow t dbg (longWitness t) 2) fun z =>
      ∃ k, Rep t.radix z k ∧ k ≠ longNumber t.radix ^ 2 := square_wrong t dbg

/-- C41 (in part): `x ^ (a + b)` is the product of `x ^ a` and `x ^ b`, for numbers of any size, if the
squares and products met are right.  Missing: those that are not (C10, C13). -/
theorem pow_add_safe_partial (x : List Nat) (m a b d : Nat) (hx : Rep t.radix x m)
    (ha : powSafe t.radix d m a) (ha' : powFresh t.radix d m a)
    (hb : powSafe t.radix d m b) (hb' : powFresh t.radix d m b)
    (hs : powSafe t.radix d m (a + b)) (hs' : powFresh t.radix d m (a + b))
    (hm : mulSafe t.radix d (m ^ a) (m ^ b) = true) :
    ∃ p q r, UBig.pow t dbg x a = .ok p ∧ UBig.pow t dbg x b = .ok q ∧
      UBig.pow t dbg x (a + b) = .ok r ∧ UBig.mul t dbg p q = .ok r := by
  obtain ⟨p, hp, hp'⟩ := pow_fresh_exact_partial t dbg x m a d hx ha ha'
  obtain ⟨q, hq, hq'⟩ := pow_fresh_exact_partial t dbg x m b d hx hb hb'
  obtain ⟨r, hr, hr'⟩ := pow_fresh_exact_partial t dbg x m (a + b) d hx hs hs'
  obtain ⟨s, hm, hm'⟩ := mul_safe_exact_partial t dbg p q _ _ d hp' hq' hm
  rw [← pow_add] at hm'
  exact ⟨p, q, r, hp, hq, hr, by rw [hm, hm'.unique hr']⟩

/-- C41 (in part): `(x ^ a) ^ b` is `x ^ (a * b)`, under the same condition. -/
theorem pow_pow_safe_partial (x : List Nat) (m a b d : Nat) (hx : Rep t.radix x m)
    (ha : powSafe t.radix d m a) (ha' : powFresh t.radix d m a)
    (hb : powSafe t.radix d (m ^ a) b) (hb' : powFresh t.radix d (m ^ a) b)
    (hs : powSafe t.radix d m (a * b)) (hs' : powFresh t.radix d m (a * b)) :
    ∃ p r, UBig.pow t dbg x a = .ok p ∧ UBig.pow t dbg x (a * b) = .ok r ∧
      UBig.pow t dbg p b = .ok r := by
  obtain ⟨p, hp, hp'⟩ := pow_fresh_exact_partial t dbg x m a d hx ha ha'
  obtain ⟨q, hq, hq'⟩ := pow_fresh_exact_partial t dbg p (m ^ a) b d hp' hb hb'
  obtain ⟨r, hr, hr'⟩ := pow_fresh_exact_partial t dbg x m (a * b) d hx hs hs'
  rw [← pow_mul] at hq'
  exact ⟨p, r, hp, hr, by rw [hq, hq'.unique hr']⟩

/-- C41 (in part): `(x * y) ^ a` is the product of `x ^ a` and `y ^ a`, under the same condition. -/
theorem mul_pow_safe_partial (x y : List Nat) (m n a d : Nat) (hx : Rep t.radix x m)
    (hy : Rep t.radix y n) (h : mulSafe t.radix d m n = true)
    (hm : powSafe t.radix d m a) (hm' : powFresh t.radix d m a)
    (hn : powSafe t.radix d n a) (hn' : powFresh t.radix d n a)
    (hs : powSafe t.radix d (m * n) a) (hs' : powFresh t.radix d (m * n) a)
    (ha : mulSafe t.radix d (m ^ a) (n ^ a) = true) :
    ∃ p q r s, UBig.mul t dbg x y = .ok p ∧ UBig.pow t dbg x a = .ok q ∧
      UBig.pow t dbg y a = .ok r ∧ UBig.pow t dbg p a = .ok s ∧ UBig.mul t dbg q r = .ok s := by
  obtain ⟨p, hp, hp'⟩ := mul_safe_exact_partial t dbg x y m n d hx hy h
  obtain ⟨q, hq, hq'⟩ := pow_fresh_exact_partial t dbg x m a d hx hm hm'
  obtain ⟨r, hr, hr'⟩ := pow_fresh_exact_partial t dbg y n a d hy hn hn'
  obtain ⟨s, hs, hs'⟩ := pow_fresh_exact_partial t dbg p (m * n) a d hp' hs hs'
  obtain ⟨u, hu, hu'⟩ := mul_safe_exact_partial t dbg q r _ _ d hq' hr' ha
  rw [← mul_pow] at hu'
  exact ⟨p, q, r, s, hp, hq, hr, hs, by rw [hu, hu'.unique hs']⟩

/-- C41: the laws hold without a condition for the binary powers of two, whatever their sizes. -/
theorem pow_laws_pow2 (w : Width) (x y : List Nat) (i j a b : Nat)
    (hx : Rep (DType.bin w).radix x (2 ^ i)) (hy : Rep (DType.bin w).radix y (2 ^ j)) :
    (∃ p q r, UBig.pow (.bin w) dbg x a = .ok p ∧ UBig.pow (.bin w) dbg x b = .ok q ∧
      UBig.pow (.bin w) dbg x (a + b) = .ok r ∧ UBig.mul (.bin w) dbg p q = .ok r) ∧
    (∃ p r, UBig.pow (.bin w) dbg x a = .ok p ∧ UBig.pow (.bin w) dbg x (a * b) = .ok r ∧
      UBig.pow (.bin w) dbg p b = .ok r) ∧
    ∃ p q r s, UBig.mul (.bin w) dbg x y = .ok p ∧ UBig.pow (.bin w) dbg x a = .ok q ∧
      UBig.pow (.bin w) dbg y a = .ok r ∧ UBig.pow (.bin w) dbg p a = .ok s ∧
      UBig.mul (.bin w) dbg q r = .ok s := by
  obtain ⟨p, hp, hp'⟩ := pow_pow2_any_exact_partial dbg w x i a hx
  obtain ⟨q, hq, hq'⟩ := pow_pow2_any_exact_partial dbg w x i b hx
  obtain ⟨r, hr, hr'⟩ := pow_pow2_any_exact_partial dbg w x i (a + b) hx
  obtain ⟨s, hs, hs'⟩ := pow_pow2_any_exact_partial dbg w x i (a * b) hx
  obtain ⟨u, hu, hu'⟩ := pow_pow2_any_exact_partial dbg w p (i * a) b hp'
  obtain ⟨v, hv, hv'⟩ := mul_pow2_exact_partial dbg w p q _ _ hp' hq'
  obtain ⟨xy, hxy, hxy'⟩ := mul_pow2_exact_partial dbg w x y _ _ hx hy
  obtain ⟨p2, hp2, hp2'⟩ := pow_pow2_any_exact_partial dbg w y j a hy
  obtain ⟨p3, hp3, hp3'⟩ := pow_pow2_any_exact_partial dbg w xy (i + j) a hxy'
  obtain ⟨p4, hp4, hp4'⟩ := mul_pow2_exact_partial dbg w p p2 _ _ hp' hp2'
  rw [← mul_add] at hv'
  rw [mul_assoc] at hu'
  rw [← add_mul] at hp4'
  exact ⟨⟨p, q, r, hp, hq, hr, by rw [hv, hv'.unique hr']⟩,
    ⟨p, s, hp, hs, by rw [hu, hu'.unique hs']⟩,
    ⟨xy, p, p2, p3, hxy, hp, hp2, hp3, by rw [hp4, hp4'.unique hp3']⟩⟩

/-! ## Division of products -/

/-- If the division of `x * y + z` by `y` is right, it gives `x` and `z`. -/
theorem mul_div_of_exact {x y z p : List Nat} {m n k : Nat} (hx : Rep t.radix x m)
    (hz : Rep t.radix z k) (hk : k < n)
    (h : DivisionExact t dbg (fun _ => False) p y (m * n + k) n) :
    UBig.div t dbg p y = .ok x ∧ UBig.rem t dbg p y = .ok z := by
  obtain ⟨q, h3, h4⟩ := tot_iff.mp h.div
  obtain ⟨r, h5, h6⟩ := tot_iff.mp h.rem
  rw [Nat.mul_comm, Nat.mul_add_div (by omega), Nat.div_eq_of_lt hk, Nat.add_zero] at h4
  rw [Nat.mul_comm, Nat.mul_add_mod, Nat.mod_eq_of_lt hk] at h6
  exact ⟨by rw [h3, h4.unique hx], by rw [h5, h6.unique hz]⟩

/-- C41 (in part): dividing `x * y + z` by `y`, where `z < y`, gives the quotient `x` and the remainder
`z`, for numbers of any size, if the product and the division are right.  Missing: the products that
panic (C10), and the divisions that panic or are wrong (C17). -/
theorem mul_div_safe_partial (x y z : List Nat) (m n k d : Nat) (hx : Rep t.radix x m)
    (hy : Rep t.radix y n) (hz : Rep t.radix z k) (hk : k < n) (hm : mulSafe t.radix d m n = true)
    (hf : ScaleFits t.radix y)
    (ht : (∃ w, t = .dec w) ∨ if size t.radix n < 20
      then NoTie t.radix (m * n + k) (size t.radix (m * n + k)) y
      else NoBlockTie t.radix (m * n + k) (size t.radix (m * n + k)) y)
    (hs : 20 ≤ size t.radix n →
      NoBlockPanic (productOk t.radix) t.radix (m * n + k) (size t.radix (m * n + k)) y) :
    ∃ p s, UBig.mul t dbg x y = .ok p ∧ UBig.add t dbg p z = .ok s ∧
      UBig.div t dbg s y = .ok x ∧ UBig.rem t dbg s y = .ok z := by
  have hb := (ops_lawful t dbg).base
  obtain ⟨p, hp, hp'⟩ := mul_safe_exact_partial t dbg x y m n d hx hy hm
  obtain ⟨s, hs1, hs2⟩ := add_exact t dbg p z _ _ hp' hz
  refine ⟨p, s, hp, hs1, mul_div_of_exact t dbg hx hz hk ?_⟩
  rw [show size t.radix n = y.length by
    rw [← hy.val_eq]; exact size_canon (by omega) hy.digs hy.canon] at ht hs
  rw [show size t.radix (m * n + k) = s.length by
    rw [← hs2.val_eq]; exact size_canon (by omega) hs2.digs hs2.canon] at ht hs
  exact (div_exact_partial t dbg s y _ n hs2 hy (by omega) hf ht).weaken fun _ h => h.2.2 (hs h.2.1)

/-- C41: the same without a condition for binary types, if `y` is the product of a digit and a power of
two and the product is returned. -/
theorem mul_div_binary_of_returned (w : Width) (x y z p s : List Nat) (m f j k : Nat)
    (hx : Rep (DType.bin w).radix x m) (hy : Rep (DType.bin w).radix y (f * 2 ^ j))
    (hf : f < (DType.bin w).radix) (hz : Rep (DType.bin w).radix z k) (hk : k < f * 2 ^ j)
    (hp : UBig.mul (.bin w) dbg x y = .ok p) (hs : UBig.add (.bin w) dbg p z = .ok s) :
    UBig.div (.bin w) dbg s y = .ok x ∧ UBig.rem (.bin w) dbg s y = .ok z := by
  have h1 := mul_exact_or_unwrap _ dbg x y _ _ hx hy
  rw [hp] at h1
  obtain ⟨s', h2, h3⟩ := add_exact _ dbg p z _ _ h1 hz
  rw [hs] at h2
  cases h2
  exact mul_div_of_exact _ dbg hx hz hk
    (div_binary_digit_pow2_exact dbg w s y _ f j h3 hy hf (by omega))

/-- C41: the same for all types, if `y` is the product of a digit and a power of the radix. -/
theorem mul_div_radix_of_returned (x z p s : List Nat) (m f j k : Nat)
    (hx : Rep t.radix x m) (hf : f < t.radix) (hf0 : f ≠ 0)
    (hz : Rep t.radix z k) (hk : k < f * t.radix ^ j)
    (hp : UBig.mul t dbg x (List.replicate j 0 ++ [f]) = .ok p) (hs : UBig.add t dbg p z = .ok s) :
    UBig.div t dbg s (List.replicate j 0 ++ [f]) = .ok x ∧
      UBig.rem t dbg s (List.replicate j 0 ++ [f]) = .ok z := by
  have hb := (ops_lawful t dbg).pos
  have hy : Rep t.radix (List.replicate j 0 ++ [f]) (f * t.radix ^ j) := by
    refine ⟨by simp [digs_replicate hb, hf], canon_snoc.mpr hf0, ?_⟩
    rw [val_zeros_append, Nat.mul_comm]; simp
  have h1 := mul_exact_or_unwrap t dbg x _ _ _ hx hy
  rw [hp] at h1
  obtain ⟨s', h2, h3⟩ := add_exact t dbg p z _ _ h1 hz
  rw [hs] at h2
  cases h2
  exact mul_div_of_exact t dbg hx hz hk (div_radix_power_exact t dbg s _ j f h3 hf hf0)

/-! ## The hypotheses can be met -/

/-- A test for `powSafe` and `powFresh`, for exponents below `2 ^ 12`. -/
def powGood (b m e : Nat) : Bool :=
  (List.range 12).all fun i => decide (e < 2 ^ (i + 1)) ||
    (squareSafe b 20 (m ^ 2 ^ i) &&
      (e / 2 ^ (i + 1) % 2 == 0 || mulSafe b 20 (m ^ (e % 2 ^ (i + 1))) (m ^ 2 ^ (i + 1))))

theorem powGood_spec {b m e : Nat} (he : e < 2 ^ 12) (h : powGood b m e = true) :
    powSafe b 20 m e ∧ powFresh b 20 m e := by
  have key : ∀ i, 2 ^ (i + 1) ≤ e → squareSafe b 20 (m ^ 2 ^ i) = true ∧
      (e / 2 ^ (i + 1) % 2 = 1 → mulSafe b 20 (m ^ (e % 2 ^ (i + 1))) (m ^ 2 ^ (i + 1)) = true) := by
    intro i hi
    have h1 : i < 12 := by
      by_contra hc
      have : 2 ^ 12 ≤ 2 ^ (i + 1) := Nat.pow_le_pow_right (by omega) (by omega)
      omega
    have h2 := List.all_eq_true.mp h i (List.mem_range.mpr h1)
    simp only [Bool.or_eq_true, decide_eq_true_eq, Bool.and_eq_true, beq_iff_eq] at h2
    rcases h2 with h2 | ⟨h2, h3⟩
    · omega
    · exact ⟨h2, fun h4 => h3.resolve_left (by omega)⟩
  unfold squareSafe at key
  simp only [Bool.and_eq_true] at key
  exact ⟨fun i hi => ⟨(key i hi).1.1, (key i hi).2⟩, fun i hi => (key i hi).1.2⟩

/-- Powers of 1691 decimal digits of two places. -/
example : powSafe 100 20 7 4000 ∧ powFresh 100 20 7 4000 := powGood_spec (by decide) (by decide +kernel)
example : 100 ^ 1690 ≤ 7 ^ 4000 := by decide +kernel
/-- The conditions of `pow_add_safe_partial`. -/
example : (powSafe 100 20 7 3000 ∧ powFresh 100 20 7 3000) ∧ (powSafe 100 20 7 1000 ∧ powFresh 100 20 7 1000) ∧
    mulSafe 100 20 (7 ^ 3000) (7 ^ 1000) = true :=
  ⟨powGood_spec (by decide) (by decide +kernel), powGood_spec (by decide) (by decide +kernel),
    by decide +kernel⟩
/-- The other conditions of `pow_pow_safe_partial`, for `(7 ^ 80) ^ 50`. -/
example : (powSafe 100 20 7 80 ∧ powFresh 100 20 7 80) ∧
    (powSafe 100 20 (7 ^ 80) 50 ∧ powFresh 100 20 (7 ^ 80) 50) :=
  ⟨powGood_spec (by decide) (by decide +kernel), powGood_spec (by decide) (by decide +kernel)⟩
/-- The other conditions of `mul_pow_safe_partial`, for `(7 * 3) ^ 2000`. -/
example : (powSafe 100 20 7 2000 ∧ powFresh 100 20 7 2000) ∧ (powSafe 100 20 3 2000 ∧ powFresh 100 20 3 2000) ∧
    (powSafe 100 20 (7 * 3) 2000 ∧ powFresh 100 20 (7 * 3) 2000) ∧
    mulSafe 100 20 (7 ^ 2000) (3 ^ 2000) = true :=
  ⟨powGood_spec (by decide) (by decide +kernel), powGood_spec (by decide) (by decide +kernel),
    powGood_spec (by decide) (by decide +kernel), by decide +kernel⟩

/-- A product of 500 and 201 decimal digits, divided by the latter. -/
example : let y := mixed 100 200 12345 ++ [72]
    let m := val 100 (mixed 100 500 777)
    mulSafe 100 20 m (val 100 y) = true ∧ ScaleFits 100 y ∧ size 100 (val 100 y) = 201 ∧
    NoBlockPanic (productOk 100) 100 (m * val 100 y + 1) (size 100 (m * val 100 y + 1)) y := by
  intro y m
  have hs : Scale 100 y 0 := ⟨72, by decide +kernel, by decide, by decide⟩
  refine ⟨by decide +kernel, scaleFits_of hs (by decide +kernel), by decide +kernel,
    noBlockPanic_of (n := 208) hs ?_ (by decide +kernel)⟩
  have hl : y.length = 201 := by decide +kernel
  rw [hl]
  exact ⟨4, by decide, by decide, by decide, by decide, by decide⟩

end Babs.Props
