import Verif.Proofs.DivBzTie
import Verif.Proofs.DivLengths
import Verif.Proofs.DivUnfit
import Verif.Proofs.KaraWitness
import Verif.Props.DivSafe

/-!
# C54: for which lengths of dividend and divisor division is safe
-/

namespace Babs.Props

variable (t : DType) (dbg : Bool)

/-! ## Helpers -/

theorem lead_digit {b v : Nat} {y : List Nat} (hb : 2 ≤ b) (hy : Rep b y v) (hl : 0 < y.length) :
    y.getLast? = some (v / b ^ (y.length - 1)) := by
  obtain ⟨u, d, rfl⟩ : ∃ u d, y = u ++ [d] :=
    ⟨y.dropLast, y.getLast (List.length_pos_iff.mp hl), (List.dropLast_concat_getLast _).symm⟩
  have h1 := hy.val_eq
  rw [val_append, show val b [d] = d by simp [val]] at h1
  have h2 : val b u < b ^ u.length := val_lt (fun a ha => hy.digs a (by simp [ha]))
  rw [List.getLast?_concat, List.length_append, List.length_singleton, Nat.add_sub_cancel, ← h1,
    Nat.add_mul_div_left _ _ (Nat.pow_pos (by omega)), Nat.div_eq_of_lt h2, Nat.zero_add]

theorem rep_ge {b v : Nat} {y : List Nat} (hb : 2 ≤ b) (hy : Rep b y v) (hl : 0 < y.length) :
    b ^ (y.length - 1) ≤ v := by
  by_contra h
  have := hy.length_le hb (Nat.lt_of_not_le h)
  omega

/-- The leading digits of the scaled and extended divisor. -/
theorem scaled_lead {b v n s : Nat} {y : List Nat} (hb : 2 ≤ b) (hy : Rep b y v) (hl : 0 < y.length)
    (hn : y.length ≤ n) : 2 ^ s ≤ v * 2 ^ s * b ^ (n - y.length) / b ^ (n - 1) := by
  rw [Nat.le_div_iff_mul_le (Nat.pow_pos (by omega))]
  calc 2 ^ s * b ^ (n - 1) = b ^ (y.length - 1) * 2 ^ s * b ^ (n - y.length) := by
        rw [Nat.mul_comm (b ^ _), Nat.mul_assoc, ← pow_add]; congr 2; omega
    _ ≤ v * 2 ^ s * b ^ (n - y.length) :=
        Nat.mul_le_mul_right _ (Nat.mul_le_mul_right _ (rep_ge hb hy hl))

/-- The leading digits of a scaled and extended dividend. -/
theorem scaled_dividend {b m n s c : Nat} {x : List Nat} (hb : 2 ≤ b) (hx : Rep b x m) (j i Z : Nat)
    (hj : j ≤ n) (h : x.length + n ≤ c + j) :
    m * 2 ^ s * b ^ (n - j) / b ^ i % Z / b ^ c < 2 ^ s := by
  rw [Nat.div_lt_iff_lt_mul (Nat.pow_pos (by omega))]
  refine lt_of_le_of_lt (le_trans (Nat.mod_le _ _) (Nat.div_le_self _ _)) ?_
  have hm := val_lt hx.digs
  rw [hx.val_eq] at hm
  calc m * 2 ^ s * b ^ (n - j) < b ^ x.length * 2 ^ s * b ^ (n - j) :=
        Nat.mul_lt_mul_of_pos_right (Nat.mul_lt_mul_of_pos_right hm (Nat.pow_pos (by omega)))
          (Nat.pow_pos (by omega))
    _ = 2 ^ s * b ^ (x.length + (n - j)) := by rw [pow_add]; ring
    _ ≤ 2 ^ s * b ^ c := Nat.mul_le_mul_left _ (Nat.pow_le_pow_right (by omega) (by omega))

/-! ## Short dividends -/

/-- C54: a dividend with fewer than `leafDigits` digits more than the divisor is divided without panic.
(As everywhere, if the scaled divisor fits and, for binary types, no tie occurs.) -/
theorem div_short_dividend_exact (x y : List Nat) (m n : Nat) (hx : Rep t.radix x m)
    (hy : Rep t.radix y n) (hl : 20 ≤ y.length) (hk : x.length < y.length + leafDigits y.length)
    (hf : ScaleFits t.radix y) (ht : (∃ w, t = .dec w) ∨ NoBlockTie t.radix m x.length y) :
    DivisionExact t dbg (fun _ => False) x y m n := by
  have hb := (ops_lawful t dbg).base
  have hn : n ≠ 0 := by
    have := rep_ge (by omega) hy (by omega)
    have : 0 < t.radix ^ (y.length - 1) := Nat.pow_pos (by omega)
    omega
  refine div_safe_exact_partial t dbg 3 x y m n hx hy hn hl hf ht ?_
  intro s _ N hN i hi
  have hN1 : y.length ≤ N := by obtain ⟨_, _, _, h, _⟩ := hN; exact h
  obtain ⟨e, he⟩ := hN.leaf
  have h10 := le_leafDigits hl
  have h20 := leafDigits_lt y.length
  have hp : e < 2 ^ e := Nat.lt_two_pow_self
  have hp' : 2 ^ e ≤ N := by rw [he]; exact Nat.le_mul_of_pos_left _ (by omega)
  rw [he]
  refine bzSafe_of_short (by omega) h10 h20 (fun u v hu => ?_) e _ _ _ (by omega) ?_
  · exact mulSafe_short 2 (Or.inl (Nat.lt_succ_of_le (size_le (by omega) hu)))
  · rw [← he, hy.val_eq]
    exact lt_of_lt_of_le (scaled_dividend (by omega) hx y.length _ _ hN1 (by omega))
      (scaled_lead (by omega) hy (by omega) hN1)

/-- C54: for binary types, a dividend that is no longer than the divisor is divided correctly, whatever
its length. -/
theorem div_binary_not_longer_exact (w : Width) (x y : List Nat) (m n : Nat)
    (hx : Rep (DType.bin w).radix x m) (hy : Rep (DType.bin w).radix y n) (hn : n ≠ 0)
    (hk : x.length ≤ y.length) : DivisionExact (.bin w) dbg (fun _ => False) x y m n := by
  have hb := (ops_lawful (.bin w) dbg).base
  by_cases hl : y.length < 20
  · exact div_same_length_exact dbg w x y m n hx hy hn hl hk
  have hl' : 20 ≤ y.length := by omega
  have h10 := le_leafDigits hl'
  have h20 := leafDigits_lt y.length
  refine div_short_dividend_exact _ dbg x y m n hx hy hl' (by omega) (scaleFits_binary w y n hy)
    (Or.inr ?_)
  intro s _ N hN i hi
  have hN1 : y.length ≤ N := by obtain ⟨_, _, _, h, _⟩ := hN; exact h
  obtain ⟨e, he⟩ := hN.leaf
  have key := bzTieFree_of_short (b := (DType.bin w).radix) (by omega) h10 e (N + 1)
    (m * 2 ^ s * (DType.bin w).radix ^ (N - y.length) / (DType.bin w).radix ^ (i * N)
      % (val (DType.bin w).radix y * 2 ^ s * (DType.bin w).radix ^ (N - y.length)
        * (DType.bin w).radix ^ N))
    (val (DType.bin w).radix y * 2 ^ s * (DType.bin w).radix ^ (N - y.length)) (by
      rw [← he, hy.val_eq]
      exact lt_of_lt_of_le (scaled_dividend (by omega) hx y.length _ _ hN1 (by omega))
        (scaled_lead (by omega) hy (by omega) hN1)) h20
  rwa [← he] at key

/-! ## Longer dividends -/

/-- The divisor and the dividend that lead to a panic. -/
theorem exists_div_panics (k j : Nat) (hj : 20 ≤ j) (hk : j + leafDigits j ≤ k) :
    ∃ x y m n, Rep t.radix x m ∧ Rep t.radix y n ∧ x.length = k ∧ y.length = j ∧ n ≤ m ∧
      ScaleFits t.radix y ∧ NoBlockTie t.radix m k y ∧
      ¬ NoBlockPanic (fun _ _ => true) t.radix m k y := by
  have hb := (ops_lawful t true).base
  obtain ⟨b, hbe⟩ : ∃ b, b = t.radix := ⟨_, rfl⟩
  rw [← hbe] at hb ⊢
  obtain ⟨n0, hn0⟩ : ∃ n0, n0 = leafDigits j := ⟨_, rfl⟩
  have h10 : 10 ≤ n0 := hn0 ▸ le_leafDigits hj
  have h20 : n0 < 20 := hn0 ▸ leafDigits_lt j
  rw [← hn0] at hk
  have hb0 : 0 < b := by omega
  have hpos : ∀ i, 0 < b ^ i := fun i => Nat.pow_pos hb0
  have h1 : b ^ n0 = b * b ^ (n0 - 1) := by rw [← pow_succ']; congr 1; omega
  have hq := hpos (n0 - 1)
  have hq1 : b ≤ b ^ (n0 - 1) := by
    calc b = b ^ 1 := (pow_one b).symm
      _ ≤ _ := Nat.pow_le_pow_right hb0 (by omega)
  -- the divisor
  obtain ⟨n, hn⟩ : ∃ n, n = (b ^ n0 - 1) * b ^ (j - n0) := ⟨_, rfl⟩
  have hnlt : n < b ^ j := by
    calc n < b ^ n0 * b ^ (j - n0) := by
          rw [hn]; exact Nat.mul_lt_mul_of_pos_right (by have := hpos n0; omega) (hpos _)
      _ = b ^ j := by rw [← pow_add]; congr 1; omega
  have hnge : (b - 1) * b ^ (j - 1) ≤ n := by
    calc (b - 1) * b ^ (j - 1) = (b - 1) * b ^ (n0 - 1) * b ^ (j - n0) := by
          rw [Nat.mul_assoc, ← pow_add]; congr 2; omega
      _ ≤ n := by
          rw [hn]
          refine Nat.mul_le_mul_right _ ?_
          rw [h1, Nat.sub_mul, Nat.one_mul]; omega
  obtain ⟨y, hy⟩ := exists_rep (B := b) (by omega) n
  have hbj : b ^ (j - 1) ≤ n := by
    refine le_trans ?_ hnge
    exact Nat.le_mul_of_pos_left _ (by omega)
  have hyl : y.length = j := by
    have h2 := size_of_bounds (B := b) (k := j - 1) (by omega) hbj
      (by rwa [show j - 1 + 1 = j by omega])
    have h3 := size_canon (B := b) (by omega) hy.digs hy.canon
    rw [hy.val_eq] at h3
    omega
  -- the dividend
  obtain ⟨u, c, hu, huk⟩ : ∃ u c, (u = 0 ∨ u = 2 ∧ n0 ≤ c) ∧
      b ^ (k - 1) ≤ u * n * b ^ c + (b - 1) * b ^ (j + n0 - 1) ∧
      u * n * b ^ c + (b - 1) * b ^ (j + n0 - 1) < b ^ k := by
    have hbk : b ^ k = b * b ^ (k - 1) := by rw [← pow_succ']; congr 1; omega
    have hpk := hpos (k - 1)
    by_cases hke : k = j + n0
    · refine ⟨0, 0, Or.inl rfl, ?_, ?_⟩
      · rw [hke]; simp only [Nat.zero_mul, Nat.zero_add]
        exact Nat.le_mul_of_pos_left _ (by omega)
      · rw [hbk, ← hke]; simp only [Nat.zero_mul, Nat.zero_add]
        exact Nat.mul_lt_mul_of_pos_right (by omega) hpk
    · refine ⟨2, k - j - 1, Or.inr ⟨rfl, by omega⟩, ?_, ?_⟩
      · refine le_trans ?_ (Nat.le_add_right _ _)
        have h2 : b ^ (k - 1) = b ^ j * b ^ (k - j - 1) := by rw [← pow_add]; congr 1; omega
        rw [h2]
        refine Nat.mul_le_mul_right _ ?_
        have h3 : b ^ j = b * b ^ (j - 1) := by rw [← pow_succ']; congr 1; omega
        have h4 : b ≤ 2 * (b - 1) := by omega
        have h5 := Nat.mul_le_mul_right (b ^ (j - 1)) h4
        rw [Nat.mul_assoc] at h5
        omega
      · have h2 : n * b ^ (k - j - 1) < b ^ (k - 1) := by
          calc n * b ^ (k - j - 1) < b ^ j * b ^ (k - j - 1) :=
                Nat.mul_lt_mul_of_pos_right hnlt (hpos _)
            _ = b ^ (k - 1) := by rw [← pow_add]; congr 1; omega
        have h3 : (b - 1) * b ^ (j + n0 - 1) < b ^ (k - 1) := by
          calc (b - 1) * b ^ (j + n0 - 1) < b * b ^ (j + n0 - 1) :=
                Nat.mul_lt_mul_of_pos_right (by omega) (hpos _)
            _ = b ^ (j + n0) := by rw [← pow_succ']; congr 1; omega
            _ ≤ b ^ (k - 1) := Nat.pow_le_pow_right hb0 (by omega)
        have h4 := Nat.mul_le_mul_right (b ^ (k - 1)) (show 3 ≤ b by omega)
        rw [Nat.mul_assoc]
        omega
  obtain ⟨m, hm⟩ : ∃ m, m = u * n * b ^ c + (b - 1) * b ^ (j + n0 - 1) := ⟨_, rfl⟩
  rw [← hm] at huk
  obtain ⟨x, hx⟩ := exists_rep (B := b) (by omega) m
  have hxl : x.length = k := by
    have h2 := size_of_bounds (B := b) (k := k - 1) (by omega) huk.1
      (by rw [show k - 1 + 1 = k by omega]; exact huk.2)
    have h3 := size_canon (B := b) (by omega) hx.digs hx.canon
    rw [hx.val_eq] at h3
    omega
  -- the scale is one
  have hsc : Scale b y 0 := by
    refine ⟨n / b ^ (j - 1), by rw [← hyl]; exact lead_digit (by omega) hy (by omega), ?_, ?_⟩
    · rw [pow_zero, Nat.mul_one, Nat.div_lt_iff_lt_mul (hpos _)]
      have h3 : b ^ j = b * b ^ (j - 1) := by rw [← pow_succ']; congr 1; omega
      omega
    · have h3 : b - 1 ≤ n / b ^ (j - 1) := (Nat.le_div_iff_mul_le (hpos _)).mpr hnge
      simp; omega
  -- the blocks
  have ext : ∀ N, j ≤ N → n * b ^ (N - j) = (b ^ n0 - 1) * b ^ (N - n0) := by
    intro N hN
    rw [hn, Nat.mul_assoc, ← pow_add]; congr 2; omega
  have extm : ∀ N, j ≤ N → m * b ^ (N - j)
      = u * ((b ^ n0 - 1) * b ^ (N - n0)) * b ^ c + (b - 1) * b ^ (N + n0 - 1) := by
    intro N hN
    rw [← ext N hN, hm, Nat.add_mul, Nat.mul_assoc (b - 1), ← pow_add,
      show j + n0 - 1 + (N - j) = N + n0 - 1 by omega]
    ring
  refine ⟨x, y, m, n, hx, hy, hxl, hyl, ?_, scaleFits_of hsc ?_, ?_, ?_⟩
  · refine le_trans (le_trans (Nat.le_of_lt hnlt) ?_) huk.1
    exact Nat.pow_le_pow_right hb0 (by omega)
  · rw [hy.val_eq, hyl, pow_zero, Nat.mul_one]; exact hnlt
  · intro s hs N hN i _
    rw [hs.unique hsc, hy.val_eq, pow_zero, Nat.mul_one, Nat.mul_one, hyl]
    rw [hyl] at hN
    have hN1 : j ≤ N := by obtain ⟨_, _, _, h, _⟩ := hN; exact h
    obtain ⟨e, he⟩ := hN.leaf
    rw [← hn0] at he
    have hd : n0 ∣ N := ⟨_, he⟩
    rw [extm N hN1, ext N hN1, Nat.mul_assoc (b ^ n0 - 1) _ (b ^ N), ← pow_add]
    have hlead := leadSmall_mod (b := b) (by omega) (n0 := n0) (s := N - n0 + N) (by omega)
      (leadSmall_div (leadSmall_witness hb h10 N u c hd (by omega) hu) (Dvd.dvd.mul_left hd i))
    have key := bzTieFree_lead (by omega) h10 h20 e (N + 1) _ hlead
    rwa [← he] at key
  · intro h
    have hN : IsBlockLen j (blockSize j) := blockSize_isBlockLen (by omega)
    obtain ⟨N, hNe⟩ : ∃ N, N = blockSize j := ⟨_, rfl⟩
    rw [← hNe] at hN
    have hN1 : j ≤ N := by obtain ⟨_, _, _, h, _⟩ := hN; exact h
    obtain ⟨e, he⟩ := hN.leaf
    rw [← hn0] at he
    have key := h 0 hsc N (by rwa [hyl]) 0 (Nat.zero_le _)
    rw [hy.val_eq, pow_zero, Nat.mul_one, Nat.mul_one, hyl, Nat.zero_mul, pow_zero, Nat.div_one,
      extm N hN1, ext N hN1] at key
    obtain ⟨z, hz⟩ : ∃ z, z = (b ^ n0 - 1) * b ^ (N - n0) := ⟨_, rfl⟩
    have hlast : (b - 1) * b ^ (N + n0 - 1) < z * b ^ n0 := by
      rw [hz, Nat.mul_assoc, ← pow_add, show N - n0 + n0 = N by omega,
        show N + n0 - 1 = n0 - 1 + N by omega, pow_add, ← Nat.mul_assoc]
      refine Nat.mul_lt_mul_of_pos_right ?_ (hpos _)
      rw [h1, Nat.sub_mul, Nat.one_mul]
      have h4 : b ^ (n0 - 1) ≤ b * b ^ (n0 - 1) := Nat.le_mul_of_pos_left _ hb0
      omega
    have hzN : z * b ^ n0 ≤ z * b ^ N :=
      Nat.mul_le_mul_left _ (Nat.pow_le_pow_right hb0 (by omega))
    obtain ⟨u', hu', hmod⟩ : ∃ u', (u' = 0 ∨ u' = 2 ∧ n0 ≤ c ∧ c < N) ∧
        (u * z * b ^ c + (b - 1) * b ^ (N + n0 - 1)) % (z * b ^ N)
          = u' * z * b ^ c + (b - 1) * b ^ (N + n0 - 1) := by
      rcases hu with rfl | ⟨rfl, hc⟩
      · refine ⟨0, Or.inl rfl, Nat.mod_eq_of_lt ?_⟩
        rw [Nat.zero_mul, Nat.zero_mul, Nat.zero_add]
        omega
      · by_cases hcN : c < N
        · refine ⟨2, Or.inr ⟨rfl, hc, hcN⟩, Nat.mod_eq_of_lt ?_⟩
          have h5 : z * b ^ n0 ≤ z * b ^ c :=
            Nat.mul_le_mul_left _ (Nat.pow_le_pow_right hb0 hc)
          have h6 : z * (b ^ c * b) ≤ z * b ^ N := by
            rw [← pow_succ]
            exact Nat.mul_le_mul_left _ (Nat.pow_le_pow_right hb0 (by omega))
          have h7 : z * (b ^ c * 3) ≤ z * (b ^ c * b) :=
            Nat.mul_le_mul_left _ (Nat.mul_le_mul_left _ (by omega))
          have h8 : 2 * z * b ^ c + z * b ^ c = z * (b ^ c * 3) := by ring
          omega
        · refine ⟨0, Or.inl rfl, ?_⟩
          have e2 : 2 * z * b ^ c = z * b ^ N * (2 * b ^ (c - N)) := by
            rw [show b ^ c = b ^ N * b ^ (c - N) by rw [← pow_add]; congr 1; omega]
            ring
          rw [e2, Nat.mul_add_mod, Nat.mod_eq_of_lt (by omega)]
          simp
    rw [← hz, hmod, hz] at key
    have hf := bzSafe_false (M := fun _ _ => true) hb h10 h20 e (N + 1) u' c (by rwa [← he])
    rw [← he] at hf
    rw [hf] at key
    cases key

/-- C54, refuted for all longer dividends, in every type: there are numbers of `k` and `j` digits, whose
division panics. -/
theorem div_unsafe_lengths (k j : Nat) (hj : 20 ≤ j) (hk : j + leafDigits j ≤ k) :
    ∃ x y m n, Rep t.radix x m ∧ Rep t.radix y n ∧ x.length = k ∧ y.length = j ∧
      DivisionPanics t dbg x y := by
  obtain ⟨x, y, m, n, hx, hy, hxl, hyl, hmn, hf, ht, hp⟩ := exists_div_panics t k j hj hk
  rw [← hxl] at ht hp
  exact ⟨x, y, m, n, hx, hy, hxl, hyl, div_panics_of_equal_leading t dbg x y m n hx hy (by omega) hf
    (Or.inr ht) hmn hp⟩

/-- C54: for which lengths division is safe.  All divisions of a number of `k` digits by a number of `j`
digits, 20 or more, are exact (if the scaled divisor fits and, for binary types, no tie occurs) if and
only if the dividend has fewer than `leafDigits j` digits more than the divisor. -/
theorem div_safe_lengths (k j : Nat) (hj : 20 ≤ j) :
    (∀ x y m n, Rep t.radix x m → Rep t.radix y n → x.length = k → y.length = j →
      ScaleFits t.radix y → (∃ w, t = .dec w) ∨ NoBlockTie t.radix m x.length y →
      Returns (UBig.div t dbg x y) fun z => Rep t.radix z (m / n)) ↔ k < j + leafDigits j := by
  constructor
  · intro h
    by_contra hcon
    obtain ⟨x, y, m, n, hx, hy, hxl, hyl, hmn, hf, ht, hp⟩ :=
      exists_div_panics t k j hj (by omega)
    rw [← hxl] at ht hp
    obtain ⟨z, hz, -⟩ := h x y m n hx hy hxl hyl hf (Or.inr ht)
    rcases (div_panics_of_equal_leading t dbg x y m n hx hy (by omega) hf (Or.inr ht) hmn hp).div with
      h | h <;> rw [Panics, hz] at h <;> cases h
  · intro h x y m n hx hy hxl hyl hf ht
    exact tot_iff.mp (div_short_dividend_exact t dbg x y m n hx hy (by omega)
      (by rw [hxl, hyl]; exact h) hf ht).div

/-- C54: the same for decimal types, with short divisors. -/
theorem div_decimal_safe_lengths (w : Width) (k j : Nat) (hj : 0 < j) :
    (∀ x y m n, Rep (DType.dec w).radix x m → Rep (DType.dec w).radix y n → x.length = k →
      y.length = j → ScaleFits (DType.dec w).radix y →
      Returns (UBig.div (.dec w) dbg x y) fun z => Rep (DType.dec w).radix z (m / n)) ↔
    j < 20 ∨ k < j + leafDigits j := by
  have hb := (ops_lawful (.dec w) dbg).base
  by_cases h20 : j < 20
  · refine iff_of_true ?_ (Or.inl h20)
    intro x y m n hx hy hxl hyl hf
    have hn : n ≠ 0 := by
      have := rep_ge (by omega) hy (by omega)
      have : 0 < (DType.dec w).radix ^ (y.length - 1) := Nat.pow_pos (by omega)
      omega
    exact tot_iff.mp (div_short_decimal_exact_partial dbg w x y m n hx hy hn (by omega) hf).div
  · rw [or_iff_right h20, ← div_safe_lengths (.dec w) dbg k j (by omega)]
    constructor
    · intro h x y m n hx hy hxl hyl hf _
      exact h x y m n hx hy hxl hyl hf
    · intro h x y m n hx hy hxl hyl hf
      exact h x y m n hx hy hxl hyl hf (Or.inl ⟨w, rfl⟩)

/-- For binary types and divisors of fewer than 20 digits: all divisions of a number of `k` digits by
a number of `j` digits are exact if and only if the divisor has one digit or the dividend is not longer
than the divisor. -/
theorem div_binary_short_lengths (w : Width) (k j : Nat) (hj : 0 < j) (hj' : j < 20) :
    (∀ x y m n, Rep (DType.bin w).radix x m → Rep (DType.bin w).radix y n → x.length = k →
      y.length = j → Returns (UBig.div (.bin w) dbg x y) fun z => Rep (DType.bin w).radix z (m / n)) ↔
    j = 1 ∨ k ≤ j := by
  have hb := (ops_lawful (.bin w) dbg).base
  constructor
  · intro h
    by_contra hcon
    obtain ⟨b, hbe⟩ : ∃ b, b = (DType.bin w).radix := ⟨_, rfl⟩
    rw [← hbe] at hb h
    have hb0 : 0 < b := by omega
    have hpos : ∀ i, 0 < b ^ i := fun i => Nat.pow_pos hb0
    have hbj : b ^ j = b * b ^ (j - 1) := by rw [← pow_succ']; congr 1; omega
    have hbk : b ^ k = b * b ^ (k - 1) := by rw [← pow_succ']; congr 1; omega
    have hq := hpos (j - 1)
    have hq1 : b ≤ b ^ (j - 1) := by
      calc b = b ^ 1 := (pow_one b).symm
        _ ≤ _ := Nat.pow_le_pow_right hb0 (by omega)
    have hge : (b - 1) * b ^ (j - 1) < b ^ j - 1 := by
      have := Nat.le_mul_of_pos_left (b ^ (j - 1)) hb0
      rw [hbj, Nat.sub_mul, Nat.one_mul]; omega
    have hge' : b ^ (j - 1) ≤ (b - 1) * b ^ (j - 1) := Nat.le_mul_of_pos_left _ (by omega)
    obtain ⟨y, hy⟩ := exists_rep (B := b) (by omega) (b ^ j - 1)
    obtain ⟨x, hx⟩ := exists_rep (B := b) (by omega) ((b - 1) * b ^ (k - 1))
    have hyl : y.length = j := by
      have h2 := size_of_bounds (B := b) (v := b ^ j - 1) (k := j - 1) (by omega) (by omega)
        (by rw [show j - 1 + 1 = j by omega]; have := hpos j; omega)
      have h3 := size_canon (B := b) (by omega) hy.digs hy.canon
      rw [hy.val_eq] at h3
      omega
    have hxl : x.length = k := by
      have h2 := size_of_bounds (B := b) (v := (b - 1) * b ^ (k - 1)) (k := k - 1) (by omega)
        (Nat.le_mul_of_pos_left _ (by omega))
        (by rw [show k - 1 + 1 = k by omega, hbk]
            exact Nat.mul_lt_mul_of_pos_right (by omega) (hpos _))
      have h3 := size_canon (B := b) (by omega) hx.digs hx.canon
      rw [hx.val_eq] at h3
      omega
    have hlead : (b ^ j - 1) / b ^ (j - 1) = b - 1 := by
      apply Nat.div_eq_of_lt_le (by omega)
      rw [show b - 1 + 1 = b by omega, ← hbj]
      have := hpos j
      omega
    have hsc : Scale b y 0 := by
      refine ⟨b - 1, ?_, by simp; omega, by simp; omega⟩
      rw [lead_digit (by omega) hy (by omega), hyl, hlead]
    have hr := h x y _ _ hx hy hxl hyl
    have hn : b ^ j - 1 ≠ 0 := by omega
    have ek : b ^ (k - 1) = b ^ (j - 1) * b ^ (k - j) := by rw [← pow_add]; congr 1; omega
    subst hbe
    have hnt := (div_binary_exact_iff dbg w x y _ _ hx hy hn (by omega)).mp hr
    rw [hxl] at hnt
    have := hnt 0 hsc (k - j - 1) (by omega)
    rw [pow_zero, Nat.mul_one, Nat.mul_one, hy.val_eq, hyl, hlead,
      show k - j - 1 + 1 = k - j by omega,
      ek, ← Nat.mul_assoc, Nat.mul_div_cancel _ (hpos _), Nat.mod_eq_of_lt hge,
      Nat.mul_div_cancel _ hq] at this
    omega
  · intro h x y m n hx hy hxl hyl
    have hn : n ≠ 0 := by
      have := rep_ge (by omega) hy (by omega)
      have : 0 < (DType.bin w).radix ^ (y.length - 1) := Nat.pow_pos (by omega)
      omega
    rcases h with h | h
    · exact tot_iff.mp (div_one_digit_exact _ dbg x y m n hx hy hn (by omega)).div
    · exact tot_iff.mp (div_binary_not_longer_exact dbg w x y m n hx hy hn (by omega)).div

/-- C54, refuted for binary types and divisors of 20 digits and more, for dividends that are longer than
the divisor, but not so much longer that there may be a panic: there are numbers of `k` and `j` digits,
whose quotient is not right. -/
theorem div_binary_longer_wrong (w : Width) (k j : Nat) (hj : 20 ≤ j) (hjk : j < k)
    (hk : k < j + leafDigits j) :
    ∃ x y m n, Rep (DType.bin w).radix x m ∧ Rep (DType.bin w).radix y n ∧ x.length = k ∧
      y.length = j ∧
      ¬ Returns (UBig.div (.bin w) dbg x y) fun z => Rep (DType.bin w).radix z (m / n) := by
  have hb := (ops_lawful (.bin w) dbg).base
  obtain ⟨b, hbe⟩ : ∃ b, b = (DType.bin w).radix := ⟨_, rfl⟩
  rw [← hbe] at hb ⊢
  obtain ⟨n0, hn0⟩ : ∃ n0, n0 = leafDigits j := ⟨_, rfl⟩
  have h10 : 10 ≤ n0 := hn0 ▸ le_leafDigits hj
  have h20 : n0 < 20 := hn0 ▸ leafDigits_lt j
  rw [← hn0] at hk
  have hb0 : 0 < b := by omega
  have hpos : ∀ i, 0 < b ^ i := fun i => Nat.pow_pos hb0
  have h1 : b ^ n0 = b * b ^ (n0 - 1) := by rw [← pow_succ']; congr 1; omega
  have hq := hpos (n0 - 1)
  have hq1 : b ≤ b ^ (n0 - 1) := by
    calc b = b ^ 1 := (pow_one b).symm
      _ ≤ _ := Nat.pow_le_pow_right hb0 (by omega)
  have hge : (b - 1) * b ^ (n0 - 1) < b ^ n0 - 1 := by
    have := Nat.le_mul_of_pos_left (b ^ (n0 - 1)) hb0
    rw [h1, Nat.sub_mul, Nat.one_mul]; omega
  have hge' : b ^ (n0 - 1) ≤ (b - 1) * b ^ (n0 - 1) := Nat.le_mul_of_pos_left _ (by omega)
  -- the leading parts
  obtain ⟨y0, hy0⟩ : ∃ y0, y0 = b ^ n0 - 1 := ⟨_, rfl⟩
  obtain ⟨a0, ha0⟩ : ∃ a0, a0 = (b - 1) * b ^ (n0 + (k - j) - 1) := ⟨_, rfl⟩
  have hlead : y0 / b ^ (n0 - 1) = b - 1 := by
    rw [hy0]
    apply Nat.div_eq_of_lt_le (by omega)
    rw [show b - 1 + 1 = b by omega, ← h1]
    have := hpos n0
    omega
  have hy0lt : y0 < b ^ n0 := by have := hpos n0; omega
  have hy0ge : b ^ (n0 - 1) ≤ y0 := by omega
  have ha0lt : a0 < b ^ (n0 + (k - j)) := by
    rw [ha0]
    calc (b - 1) * b ^ (n0 + (k - j) - 1) < b * b ^ (n0 + (k - j) - 1) :=
          Nat.mul_lt_mul_of_pos_right (by omega) (hpos _)
      _ = b ^ (n0 + (k - j)) := by rw [← pow_succ']; congr 1; omega
  have ha0ge : b ^ (n0 + (k - j) - 1) ≤ a0 := by
    rw [ha0]; exact Nat.le_mul_of_pos_left _ (by omega)
  have hya : y0 < a0 := by
    refine lt_of_lt_of_le hy0lt (le_trans ?_ ha0ge)
    exact Nat.pow_le_pow_right hb0 (by omega)
  -- the numbers
  obtain ⟨y, hy⟩ := exists_rep (B := b) (by omega) (y0 * b ^ (j - n0))
  obtain ⟨x, hx⟩ := exists_rep (B := b) (by omega) (a0 * b ^ (j - n0))
  have hnj : n0 < j := by omega
  have hyl : y.length = j := by
    have h2 := size_of_bounds (B := b) (v := y0 * b ^ (j - n0)) (k := j - 1) (by omega)
      (by
        calc b ^ (j - 1) = b ^ (n0 - 1) * b ^ (j - n0) := by rw [← pow_add]; congr 1; omega
          _ ≤ _ := Nat.mul_le_mul_right _ hy0ge)
      (by
        calc y0 * b ^ (j - n0) < b ^ n0 * b ^ (j - n0) := Nat.mul_lt_mul_of_pos_right hy0lt (hpos _)
          _ = b ^ (j - 1 + 1) := by rw [← pow_add]; congr 1; omega)
    have h3 := size_canon (B := b) (by omega) hy.digs hy.canon
    rw [hy.val_eq] at h3
    omega
  have hxl : x.length = k := by
    have h2 := size_of_bounds (B := b) (v := a0 * b ^ (j - n0)) (k := k - 1) (by omega)
      (by
        calc b ^ (k - 1) = b ^ (n0 + (k - j) - 1) * b ^ (j - n0) := by rw [← pow_add]; congr 1; omega
          _ ≤ _ := Nat.mul_le_mul_right _ ha0ge)
      (by
        calc a0 * b ^ (j - n0) < b ^ (n0 + (k - j)) * b ^ (j - n0) :=
              Nat.mul_lt_mul_of_pos_right ha0lt (hpos _)
          _ = b ^ (k - 1 + 1) := by rw [← pow_add]; congr 1; omega)
    have h3 := size_canon (B := b) (by omega) hx.digs hx.canon
    rw [hx.val_eq] at h3
    omega
  refine ⟨x, y, _, _, hx, hy, hxl, hyl, ?_⟩
  have hld : y.getLast? = some (b - 1) := by
    rw [lead_digit (by omega) hy (by omega), hyl,
      show j - 1 = (j - n0) + (n0 - 1) by omega, pow_add, ← Nat.div_div_eq_div_mul,
      Nat.mul_div_cancel _ (hpos _), hlead]
  subst hbe
  have key := divOp_bz_tie (dbg := dbg) (ops_lawful (.bin w) dbg) (bin_wrapLaw w dbg) (x := x) (y := y)
    (d := (DType.bin w).radix - 1) (n0 := n0) (a0 := a0) (y0 := y0) (by rw [hyl]; exact hx) (by rw [hyl]; exact hy)
    (by omega) hld (by omega) (by rw [hyl]; exact hn0) (by omega)
    (lt_of_lt_of_le ha0lt (Nat.pow_le_pow_right hb0 (by omega))) hya
    ⟨k - j - 1, by rw [show k - j - 1 + n0 = n0 + (k - j) - 1 by omega]; exact ha0ge, by
      rw [hlead, ha0, show n0 + (k - j) - 1 = (n0 - 1) + (k - j - 1 + 1) by omega, pow_add, ← Nat.mul_assoc,
        Nat.mul_div_cancel _ (hpos _), Nat.mod_eq_of_lt (by omega)]⟩
  rintro ⟨z, hz, hr⟩
  have hz' : divOp ((DType.bin w).ops dbg) dbg x y = .ok z := hz
  rw [hz'] at key
  have h5 : val (DType.bin w).radix z < a0 / y0 := key
  rw [hr.val_eq, Nat.mul_div_mul_right _ _ (hpos _)] at h5
  omega

/-- C54: for which lengths division is safe in binary types, whatever the divisor.  All divisions of a
number of `k` digits by a number of `j` digits are exact if and only if the divisor has one digit or the
dividend is not longer than the divisor. -/
theorem div_binary_safe_lengths (w : Width) (k j : Nat) (hj : 0 < j) :
    (∀ x y m n, Rep (DType.bin w).radix x m → Rep (DType.bin w).radix y n → x.length = k →
      y.length = j → Returns (UBig.div (.bin w) dbg x y) fun z => Rep (DType.bin w).radix z (m / n)) ↔
    j = 1 ∨ k ≤ j := by
  have hb := (ops_lawful (.bin w) dbg).base
  by_cases h20 : j < 20
  · exact div_binary_short_lengths dbg w k j hj h20
  constructor
  · intro h
    by_contra hcon
    by_cases hk : k < j + leafDigits j
    · obtain ⟨x, y, m, n, hx, hy, hxl, hyl, hno⟩ :=
        div_binary_longer_wrong dbg w k j (by omega) (by omega) hk
      exact hno (h x y m n hx hy hxl hyl)
    · obtain ⟨x, y, m, n, hx, hy, hxl, hyl, hp, -⟩ :=
        div_unsafe_lengths (.bin w) dbg k j (by omega) (by omega)
      obtain ⟨z, hz, -⟩ := h x y m n hx hy hxl hyl
      rcases hp with hp | hp <;> rw [Panics, hz] at hp <;> cases hp
  · intro h x y m n hx hy hxl hyl
    have hn : n ≠ 0 := by
      have := rep_ge (by omega) hy (by omega)
      have : 0 < (DType.bin w).radix ^ (y.length - 1) := Nat.pow_pos (by omega)
      omega
    exact tot_iff.mp (div_binary_not_longer_exact dbg w x y m n hx hy hn (by omega)).div

/-- C54, refuted for decimal types, for divisors of any length from 2: there is a number of `j` digits, by
which no number at least as large can be divided.  When it is scaled, it becomes a power of the radix, the
carry out of the top digit is lost, and the division goes on with zero.  With fewer than 20 digits `/` and
`%` panic; with more the quotient is wrong, if there is one. -/
theorem div_decimal_lost_divisor (w : Width) (j : Nat) (hj : 2 ≤ j) :
    ∃ y n, Rep (DType.dec w).radix y n ∧ y.length = j ∧ n ≠ 0 ∧
      ∀ dbg x m, Rep (DType.dec w).radix x m → n ≤ m →
        ¬ (Returns (UBig.div (.dec w) dbg x y) fun z => Rep (DType.dec w).radix z (m / n)) ∧
        (j < 20 → (∃ p, Panics (UBig.div (.dec w) dbg x y) p) ∧
          ∃ p, Panics (UBig.rem (.dec w) dbg x y) p) := by
  obtain ⟨d, l, s, V, hy⟩ := dec_vanish w (j - 2)
  generalize hyy : List.replicate (j - 2) 0 ++ [l, d] = y at V hy
  have hyl : y.length = j := by rw [← hyy]; simp; omega
  have hv0 : val (DType.dec w).radix y ≠ 0 := by
    intro h
    have := V.eq
    rw [h, Nat.zero_mul] at this
    exact absurd this (Nat.pow_pos (ops_lawful (.dec w) true).pos).ne
  refine ⟨y, _, hy, hyl, hv0, ?_⟩
  intro dbg x m hx hmn
  have L := ops_lawful (.dec w) dbg
  have hb := L.base
  have hlen : y.length ≤ x.length :=
    hy.canon.length_le L.pos hx.digs (by rw [hx.val_eq]; exact hmn)
  have hshort : j < 20 → (∃ p, Panics (UBig.div (.dec w) dbg x y) p) ∧
      ∃ p, Panics (UBig.rem (.dec w) dbg x y) p := by
    intro h20
    have key := divBig_vanish_short (dbg := dbg) L (dec_divCarry_zero w dbg) hx hy V (by omega)
      (by omega) hmn (List.replicate (x.length - y.length + 1) 0) (by simp)
    constructor
    · apply sp_false_error
      unfold UBig.div divOp divAssignBig
      simp only []
      rw [if_neg (by omega), bind_assoc]
      exact Sp.bind key fun _ h => h.elim
    · apply sp_false_error
      unfold UBig.rem remOp remAssignBig
      simp only []
      rw [if_pos hlen, bind_assoc]
      exact Sp.bind key fun _ h => h.elim
  refine ⟨?_, hshort⟩
  rintro ⟨z, hz, hr⟩
  by_cases h20 : j < 20
  · obtain ⟨p, hp⟩ := (hshort h20).1
    rw [Panics, hz] at hp
    cases hp
  · have key := divOp_vanish_long (dbg := dbg) L hx hy V (by omega) hmn
    have hz' : divOp ((DType.dec w).ops dbg) dbg x y = .ok z := hz
    rw [hz'] at key
    obtain ⟨k, hk, rfl⟩ := key
    -- such a quotient would have the largest digit as its top digit
    obtain ⟨b, hbe⟩ : ∃ b, b = (DType.dec w).radix := ⟨_, rfl⟩
    rw [← hbe] at hr hb hx hy hv0 V hmn
    have h1 := hr.canon.ge (b := b) (by omega) (by
      intro h
      have := congrArg List.length h
      simp at this
      omega)
    rw [hr.val_eq, List.length_replicate] at h1
    obtain ⟨k, rfl⟩ : ∃ i, k = i + 1 := ⟨k - 1, by omega⟩
    have hz2 : val b (List.replicate (k + 1) (b - 1)) = val b (List.replicate k (b - 1)) + b ^ k * (b - 1) := by
      rw [List.replicate_succ', val_snoc, List.length_replicate]
    rw [hr.val_eq] at hz2
    have hm := val_lt hx.digs
    rw [hx.val_eq] at hm
    -- the right quotient is smaller than `2 ^ s * b ^ k`
    have h2 : m / val b y < 2 ^ s * b ^ k := by
      rw [Nat.div_lt_iff_lt_mul (by omega)]
      calc m < b ^ x.length := hm
        _ ≤ b ^ (k + y.length) := Nat.pow_le_pow_right (by omega) (by omega)
        _ = 2 ^ s * b ^ k * val b y := by rw [pow_add, ← V.eq]; ring
    have h3 : 2 ^ s * b ^ k ≤ (b - 1) * b ^ k := Nat.mul_le_mul_right _ (by have := V.pow; omega)
    rw [Nat.mul_comm (b ^ k)] at hz2
    omega

/-- C54: for which lengths division is safe in decimal types, whatever the divisor.  All divisions of a
number of `k` digits by a number of `j` digits are exact if and only if the divisor has one digit or more
digits than the dividend. -/
theorem div_decimal_all_lengths (w : Width) (k j : Nat) (hj : 0 < j) :
    (∀ x y m n, Rep (DType.dec w).radix x m → Rep (DType.dec w).radix y n → x.length = k →
      y.length = j → Returns (UBig.div (.dec w) dbg x y) fun z => Rep (DType.dec w).radix z (m / n)) ↔
    j = 1 ∨ k < j := by
  have L := ops_lawful (.dec w) dbg
  have hb := L.base
  constructor
  · intro h
    by_contra hcon
    obtain ⟨y, n, hy, hyl, hn, hall⟩ := div_decimal_lost_divisor w j (by omega)
    have hb0 : 0 < (DType.dec w).radix := L.pos
    -- any dividend will do
    have hxr : Rep (DType.dec w).radix (List.replicate k ((DType.dec w).radix - 1))
        (val (DType.dec w).radix (List.replicate k ((DType.dec w).radix - 1))) := by
      refine ⟨digs_replicate (by omega), ?_, rfl⟩
      obtain ⟨k, rfl⟩ : ∃ i, k = i + 1 := ⟨k - 1, by omega⟩
      rw [List.replicate_succ']
      exact canon_snoc.mpr (by omega)
    refine (hall dbg _ _ hxr ?_).1 (h _ _ _ _ hxr hy (by simp) hyl)
    have hmax : ∀ i, val (DType.dec w).radix (List.replicate i ((DType.dec w).radix - 1)) + 1
        = (DType.dec w).radix ^ i := by
      intro i
      induction i with
      | zero => simp
      | succ i ih =>
        rw [List.replicate_succ', val_snoc, List.length_replicate, pow_succ]
        have : (DType.dec w).radix ^ i * (DType.dec w).radix
            = (DType.dec w).radix ^ i * ((DType.dec w).radix - 1) + (DType.dec w).radix ^ i := by
          rw [← Nat.mul_succ]; congr 1; omega
        omega
    have h1 := val_lt hy.digs
    rw [hy.val_eq, hyl] at h1
    have h2 : (DType.dec w).radix ^ j ≤ (DType.dec w).radix ^ k := Nat.pow_le_pow_right hb0 (by omega)
    have := hmax k
    omega
  · intro h x y m n hx hy hxl hyl
    have hn : n ≠ 0 := by
      have := rep_ge (by omega) hy (by omega)
      have : 0 < (DType.dec w).radix ^ (y.length - 1) := Nat.pow_pos (by omega)
      omega
    rcases h with h | h
    · exact tot_iff.mp (div_one_digit_exact _ dbg x y m n hx hy hn (by omega)).div
    · exact tot_iff.mp (div_longer_exact _ dbg x y m n hx hy (by omega)).div

/-! ## Examples -/

/-- 1250 divided by itself, as `UBigDec8`. -/
example : Panics (UBig.div (.dec .w8) false [50, 12] [50, 12]) .divZero ∧
    Panics (UBig.div (.dec .w8) false [99, 99, 99] [0, 50, 12]) .divZero := by decide

/-- Divisors of 20 digits: dividends of 29 digits are safe, dividends of 30 digits are not. -/
example : leafDigits 20 = 10 := by simp [leafDigits]

/-- Divisors of 38, 39 and 1000 digits. -/
example : leafDigits 38 = 19 ∧ leafDigits 39 = 10 ∧ leafDigits 1000 = 16 := by
  refine ⟨?_, ?_, ?_⟩ <;> simp [leafDigits]

/-- The hypotheses of `div_short_dividend_exact` can be met: 33 digits divided by 30. -/
example : ∃ x y m n, Rep (DType.dec .w8).radix x m ∧ Rep (DType.dec .w8).radix y n ∧ 20 ≤ y.length ∧
    x.length < y.length + leafDigits y.length ∧ ScaleFits (DType.dec .w8).radix y ∧ 1 < m / n := by
  have hy : Rep (DType.dec .w8).radix (List.replicate 30 57) (val 100 (List.replicate 30 57)) :=
    ⟨by unfold Digs; decide, by unfold Canon; decide, rfl⟩
  have hx : Rep (DType.dec .w8).radix (List.replicate 33 98) (val 100 (List.replicate 33 98)) :=
    ⟨by unfold Digs; decide, by unfold Canon; decide, rfl⟩
  refine ⟨_, _, _, _, hx, hy, by decide, ?_, ?_, by decide +kernel⟩
  · simp [leafDigits]
  · exact scaleFits_of (s := 0) ⟨57, by decide, by decide, by decide⟩ (by decide +kernel)

end Babs.Props
