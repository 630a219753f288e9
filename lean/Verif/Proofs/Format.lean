import Verif.Proofs.Text
import Verif.Props.Word

/-!
# Helper lemmas: formatting and the conversion to decimal
-/

namespace Babs

variable {base : Nat}

/-- Character `c` shows the digit `d`. -/
def Shows (base : Nat) (upper : Bool) (c : Char) (d : Nat) : Prop :=
  d < base ∧ (if upper then "0123456789ABCDEF" else "0123456789abcdef").toList[d]? = some c

theorem digitChar_shows (hb : base ≤ 16) (u : Bool) {d : Nat} (hd : d < base) :
    Shows base u (digitChar u d) d := by
  refine ⟨hd, ?_⟩
  have key : ∀ d, d < 16 → ∀ u : Bool,
      (if u then "0123456789ABCDEF" else "0123456789abcdef").toList[d]? = some (digitChar u d) := by
    decide
  exact key d (by omega) u

theorem map_shows (hb : base ≤ 16) (u : Bool) {ds : List Nat} (hd : Digs base ds) :
    List.Forall₂ (Shows base u) (ds.map (digitChar u)) ds := by
  induction ds with
  | nil => exact List.Forall₂.nil
  | cons d ds ih =>
    rw [digs_cons] at hd
    exact List.Forall₂.cons (digitChar_shows hb u hd.1) (ih hd.2)

theorem Shows.charDigit {u : Bool} {c : Char} {d : Nat} (h : Shows base u c d) :
    CharDigit base c d := by
  obtain ⟨h1, h2⟩ := h
  refine ⟨h1, ?_⟩
  cases u
  · exact Or.inl (by simpa using h2)
  · exact Or.inr (by simpa using h2)

theorem Standard.numeral {u : Bool} {s : List Char} {n : Nat} (h : Standard base u s n) :
    Numeral base s n := by
  obtain ⟨ds, h1, h2, -⟩ := h
  exact ⟨ds, h1.imp fun _ _ h => Shows.charDigit (u := u) h, h2⟩

/-! ## Digits of a word -/

theorem digitsLE_spec (hb : 2 ≤ base) : ∀ fuel n, n ≤ fuel →
    Digs base (digitsLE base fuel n) ∧ Canon (digitsLE base fuel n) ∧
      val base (digitsLE base fuel n) = n
  | 0, n => by
    intro h
    have : n = 0 := by omega
    subst this
    exact ⟨digs_nil _, canon_nil, rfl⟩
  | fuel + 1, n => by
    intro h
    unfold digitsLE
    split
    · rename_i e
      subst e
      exact ⟨digs_nil _, canon_nil, rfl⟩
    · rename_i hn
      have hlt : n / base < n := Nat.div_lt_self (by omega) (by omega)
      obtain ⟨h1, h2, h3⟩ := digitsLE_spec hb fuel (n / base) (by omega)
      refine ⟨?_, ?_, ?_⟩
      · rw [digs_cons]; exact ⟨Nat.mod_lt _ (by omega), h1⟩
      · cases hl : digitsLE base fuel (n / base) with
        | nil =>
          rw [hl] at h3
          have h4 : n / base = 0 := h3.symm
          rw [canon_singleton]
          have := Nat.div_add_mod n base
          rw [h4] at this
          omega
        | cons e es =>
          rw [canon_cons_cons, ← hl]; exact h2
      · rw [val_cons, h3]
        have := Nat.div_add_mod n base
        omega

/-- The digits of the text of a word, most significant first. -/
def wordDigits (base n : Nat) : List Nat := if n = 0 then [0] else (digitsLE base n n).reverse

theorem fmtWord_eq (u : Bool) (n : Nat) : fmtWord base u n = (wordDigits base n).map (digitChar u) := by
  unfold fmtWord wordDigits
  split
  · simp [digitChar]
  · rfl

theorem digs_reverse {b : Nat} {l : List Nat} : Digs b l.reverse ↔ Digs b l := by
  simp [Digs]

theorem wordDigits_spec (hb : 2 ≤ base) (n : Nat) :
    Digs base (wordDigits base n) ∧ val base (wordDigits base n).reverse = n ∧
      wordDigits base n ≠ [] ∧ ((wordDigits base n).head? = some 0 → wordDigits base n = [0]) := by
  unfold wordDigits
  split
  · rename_i e
    subst e
    refine ⟨?_, by simp, by simp, by simp⟩
    rw [digs_cons]; exact ⟨by omega, digs_nil _⟩
  · rename_i hn
    obtain ⟨h1, h2, h3⟩ := digitsLE_spec hb n n (Nat.le_refl _)
    refine ⟨digs_reverse.mpr h1, by simpa using h3, ?_, ?_⟩
    · intro h
      rw [List.reverse_eq_nil_iff] at h
      rw [h] at h3
      exact hn h3.symm
    · intro h
      rw [List.head?_reverse] at h
      exact absurd h h2

theorem wordDigits_length (hb : 2 ≤ base) {n p : Nat} (hp : 0 < p) (hn : n < base ^ p) :
    (wordDigits base n).length ≤ p := by
  unfold wordDigits
  split
  · simp only [List.length_singleton]; omega
  · rename_i hne
    obtain ⟨h1, h2, h3⟩ := digitsLE_spec hb n n (Nat.le_refl _)
    rw [List.length_reverse]
    by_contra hc
    have h4 : digitsLE base n n ≠ [] := by
      intro h
      rw [h] at h3
      exact hne h3.symm
    have h5 := h2.ge (b := base) (by omega) h4
    rw [h3] at h5
    have : base ^ p ≤ base ^ ((digitsLE base n n).length - 1) :=
      Nat.pow_le_pow_right (by omega) (by omega)
    omega

/-! ## Digits of a number -/

/-- The digits of a word, padded with zeros. -/
def padDigits (base p n : Nat) : List Nat :=
  List.replicate (p - (wordDigits base n).length) 0 ++ wordDigits base n

theorem fmtWordPadded_eq (u : Bool) (p n : Nat) :
    fmtWordPadded base u p n = (padDigits base p n).map (digitChar u) := by
  unfold fmtWordPadded padDigits
  simp only []
  rw [List.map_append, fmtWord_eq, List.length_map, List.map_replicate]
  congr 2

theorem digs_zeros {b : Nat} (hb : 0 < b) (k : Nat) : Digs b (List.replicate k 0) := by
  intro d hd
  rw [List.eq_of_mem_replicate hd]; exact hb

theorem padDigits_spec (hb : 2 ≤ base) {p n : Nat} (hp : 0 < p) (hn : n < base ^ p) :
    Digs base (padDigits base p n) ∧ val base (padDigits base p n).reverse = n ∧
      (padDigits base p n).length = p := by
  obtain ⟨h1, h2, -, -⟩ := wordDigits_spec hb n
  have h3 := wordDigits_length hb hp hn
  unfold padDigits
  refine ⟨?_, ?_, by simp; omega⟩
  · intro d hd
    rcases List.mem_append.mp hd with h | h
    · exact digs_zeros (by omega) _ d h
    · exact h1 d h
  · rw [List.reverse_append, List.reverse_replicate, val_append, h2, val_replicate_zero]
    simp

theorem flatMap_digits (hb : 2 ≤ base) {p : Nat} (hp : 0 < p) (l : List Nat)
    (hl : Digs (base ^ p) l) :
    Digs base (l.reverse.flatMap (padDigits base p)) ∧
      val base (l.reverse.flatMap (padDigits base p)).reverse = val (base ^ p) l ∧
      (l.reverse.flatMap (padDigits base p)).length = p * l.length := by
  induction l with
  | nil => exact ⟨digs_nil _, rfl, by simp⟩
  | cons d l ih =>
    rw [digs_cons] at hl
    obtain ⟨h1, h2, h3⟩ := ih hl.2
    obtain ⟨h4, h5, h6⟩ := padDigits_spec hb hp hl.1
    rw [List.reverse_cons, List.flatMap_append]
    simp only [List.flatMap_cons, List.flatMap_nil, List.append_nil]
    refine ⟨?_, ?_, ?_⟩
    · intro e he
      rcases List.mem_append.mp he with h | h
      · exact h1 e h
      · exact h4 e h
    · rw [List.reverse_append, val_append, List.length_reverse, h2, h5, h6, val_cons]
    · rw [List.length_append, h3, h6, List.length_cons]; ring

theorem fmtDigits_standard (hb : 2 ≤ base) (hb16 : base ≤ 16) (u : Bool) {p : Nat} (hp : 0 < p)
    {x : List Nat} {n : Nat} (hx : Rep (base ^ p) x n) (hne : x ≠ []) :
    Standard base u (UBig.fmtDigits base u p x) n := by
  obtain ⟨init, top, rfl⟩ : ∃ init top, x = init ++ [top] :=
    ⟨x.dropLast, x.getLast hne, (List.dropLast_concat_getLast hne).symm⟩
  have hd := hx.digs
  have hc := canon_snoc.mp hx.canon
  have hdi : Digs (base ^ p) init := fun d h => hd d (by simp [h])
  obtain ⟨h1, h2, h3⟩ := flatMap_digits hb hp init hdi
  obtain ⟨h4, h5, h6, h7⟩ := wordDigits_spec hb top
  have e : UBig.fmtDigits base u p (init ++ [top])
      = (wordDigits base top ++ init.reverse.flatMap (padDigits base p)).map (digitChar u) := by
    unfold UBig.fmtDigits
    rw [List.reverse_append]
    simp only [List.reverse_singleton, List.singleton_append]
    rw [fmtWord_eq, List.map_append]
    congr 1
    rw [List.map_flatMap]
    congr 1
    funext d
    exact fmtWordPadded_eq u p d
  rw [e]
  refine ⟨_, map_shows hb16 u ?_, ?_, ?_, ?_⟩
  · intro d h
    rcases List.mem_append.mp h with h | h
    · exact h4 d h
    · exact h1 d h
  · rw [List.reverse_append, val_append, List.length_reverse, h2, h5, h3, ← hx.val_eq, val_append,
      pow_mul]
    simp
  · simp [h6]
  · intro h
    exfalso
    have h8 : (wordDigits base top).head? = some 0 := by
      cases hw : wordDigits base top with
      | nil => exact absurd hw h6
      | cons a l => rw [hw] at h; simpa using h
    rw [h7 h8] at h5
    exact hc (by simpa using h5.symm)

theorem fmtWord_standard (hb : 2 ≤ base) (hb16 : base ≤ 16) (u : Bool) (n : Nat) :
    Standard base u (fmtWord base u n) n := by
  obtain ⟨h4, h5, h6, h7⟩ := wordDigits_spec hb n
  rw [fmtWord_eq]
  exact ⟨_, map_shows hb16 u h4, h5, h6, h7⟩

theorem padIntegral_formatted (f : FmtFlags) (pre s : List Char) :
    Formatted f pre s (padIntegral f pre s) := by
  unfold Formatted padIntegral
  simp only
  set body := (if f.signPlus then ['+'] else []) ++ (if f.alternate then pre else []) with hbody
  cases hw : f.width with
  | none =>
    refine ⟨0, 0, 0, by simp, by simp, fun _ => ⟨rfl, rfl⟩, fun _ => ⟨rfl, ?_⟩⟩
    cases f.align with
    | none => trivial
    | some a => cases a <;> simp
  | some min =>
    simp only [Option.getD_some]
    by_cases h : min ≤ body.length + s.length
    · rw [if_pos h]
      refine ⟨0, 0, 0, by simp, by simp; omega, fun _ => ⟨rfl, rfl⟩, fun _ => ⟨rfl, ?_⟩⟩
      cases f.align with
      | none => trivial
      | some a => cases a <;> simp
    · rw [if_neg h]
      by_cases hz : f.zeroPad = true
      · rw [if_pos hz]
        refine ⟨0, min - (body.length + s.length), 0, by simp, ?_, fun _ => ⟨rfl, rfl⟩,
          fun hf => by simp [hz] at hf⟩
        simp only [List.length_append, List.length_replicate]
        omega
      · rw [if_neg hz]
        cases ha : f.align with
        | none =>
          refine ⟨min - (body.length + s.length), 0, 0, by simp [padding], ?_,
            fun h => absurd h hz, fun _ => ⟨rfl, rfl⟩⟩
          simp [padding]; omega
        | some a =>
          cases a with
          | left =>
            refine ⟨0, 0, min - (body.length + s.length), by simp [padding], ?_,
              fun h => absurd h hz, fun _ => ⟨rfl, rfl⟩⟩
            simp [padding]; omega
          | right =>
            refine ⟨min - (body.length + s.length), 0, 0, by simp [padding], ?_,
              fun h => absurd h hz, fun _ => ⟨rfl, rfl⟩⟩
            simp [padding]; omega
          | center =>
            refine ⟨(min - (body.length + s.length)) / 2, 0,
              (min - (body.length + s.length) + 1) / 2, by simp [padding], ?_,
              fun h => absurd h hz, fun _ => ⟨rfl, by omega, by omega⟩⟩
            simp [padding]; omega

namespace UBig

theorem fmtDec_formatted (w : Width) (f : FmtFlags) (x : List Nat) (n : Nat)
    (hx : Rep w.decRadix x n) :
    ∃ s, Standard 10 false s n ∧ Formatted f [] s (fmtDec w f x) := by
  have hr : w.decRadix = 10 ^ nrDecimalPlacesDec w := by cases w <;> decide
  have hp : 0 < nrDecimalPlacesDec w := by cases w <;> decide
  match x, hx with
  | [], hx =>
    have : n = 0 := hx.val_eq.symm
    subst this
    exact ⟨_, fmtWord_standard (by omega) (by omega) false 0, padIntegral_formatted _ _ _⟩
  | [d], hx =>
    have : d = n := by simpa using hx.val_eq
    subst this
    exact ⟨_, fmtWord_standard (by omega) (by omega) false d, padIntegral_formatted _ _ _⟩
  | a :: b :: x, hx =>
    rw [hr] at hx
    exact ⟨_, fmtDigits_standard (by omega) (by omega) false hp hx (by simp),
      padIntegral_formatted _ _ _⟩

theorem fmtHex_formatted (w : Width) (u : Bool) (f : FmtFlags) (x : List Nat) (n : Nat)
    (hx : Rep (DType.bin w).radix x n) :
    ∃ s, Standard 16 u s n ∧ Formatted f ['0', 'x'] s (fmtHex w u f x) := by
  have hr : (DType.bin w).radix = 16 ^ nrHexPlaces w := by cases w <;> decide
  have hp : 0 < nrHexPlaces w := by cases w <;> decide
  match x, hx with
  | [], hx =>
    have : n = 0 := hx.val_eq.symm
    subst this
    exact ⟨_, fmtWord_standard (by omega) (by omega) u 0, padIntegral_formatted _ _ _⟩
  | [d], hx =>
    have : d = n := by simpa using hx.val_eq
    subst this
    exact ⟨_, fmtWord_standard (by omega) (by omega) u d, padIntegral_formatted _ _ _⟩
  | a :: b :: x, hx =>
    rw [hr] at hx
    exact ⟨_, fmtDigits_standard (by omega) (by omega) u hp hx (by simp),
      padIntegral_formatted _ _ _⟩

/-! ## Conversion to decimal -/

theorem halfBits_le (w : Width) : w.bits / 2 ≤ 4 * maxHexPlaces w := by cases w <;> decide

theorem buildSmall_spec (dbg : Bool) (w : Width) : ∀ (l res : List Nat) (m : Nat),
    Digs (DType.bin w).radix l → Rep (DType.dec w).radix res m →
    ∃ z, buildSmall dbg w l res = .ok z ∧
      Rep (DType.dec w).radix z (m * (DType.bin w).radix ^ l.length + val (DType.bin w).radix l)
  | [], res, m => by
    intro _ hr
    exact ⟨res, rfl, by simpa using hr⟩
  | d :: l, res, m => by
    intro hl hr
    rw [digs_cons] at hl
    obtain ⟨z, h1, h2⟩ := buildSmall_spec dbg w l res m hl.2 hr
    unfold buildSmall
    rw [h1, ok_bind]
    obtain ⟨z1, h3, h4⟩ := Props.shl_decimal_small_exact dbg w z _ (w.bits / 2) h2 (halfBits_le w)
    rw [h3, ok_bind]
    obtain ⟨z2, h5, h6⟩ := Props.shl_decimal_small_exact dbg w z1 _ (w.bits / 2) h4 (halfBits_le w)
    rw [h5, ok_bind]
    have hd : d < 2 ^ UBig.bits (.dec w) := hl.1
    obtain ⟨z3, h7, h8⟩ := Props.addWord_exact (.dec w) dbg z2 _ d h6 hd
    refine ⟨z3, h7, ?_⟩
    have e : (DType.bin w).radix = 2 ^ (w.bits / 2) * 2 ^ (w.bits / 2) := by cases w <;> decide
    have e2 : m * (DType.bin w).radix ^ (d :: l).length + val (DType.bin w).radix (d :: l)
        = (m * (DType.bin w).radix ^ l.length + val (DType.bin w).radix l)
          * 2 ^ (w.bits / 2) * 2 ^ (w.bits / 2) + d := by
      rw [val_cons, List.length_cons, pow_succ, Nat.mul_assoc (_ + _), ← e]
      ring
    rw [e2]
    exact h8

theorem buildDecimal_small (dbg : Bool) (w : Width) (scales : List (List Nat)) (fuel : Nat)
    (x : List Nat) (m : Nat) (hx : Rep (DType.bin w).radix x m) (hl : x.length < 16) :
    ∃ z, buildDecimal dbg w scales (fuel + 1) x = .ok z ∧ Rep (DType.dec w).radix z m := by
  unfold buildDecimal
  by_cases h0 : x.length = 0
  · have : x = [] := List.eq_nil_of_length_eq_zero h0
    subst this
    refine ⟨[], by simp [pure, Except.pure], ?_⟩
    have : m = 0 := hx.val_eq.symm
    subst this
    exact ⟨digs_nil _, canon_nil, rfl⟩
  · have hne : x ≠ [] := by rintro rfl; simp at h0
    obtain ⟨init, top, rfl⟩ : ∃ init top, x = init ++ [top] :=
      ⟨x.dropLast, x.getLast hne, (List.dropLast_concat_getLast hne).symm⟩
    have hd := hx.digs
    have ht : top < 2 ^ UBig.bits (.dec w) := hd top (by simp)
    simp only [h0, if_false]
    rw [if_pos (by simpa [toDecDivCutoff] using hl)]
    have hg : getR (init ++ [top]) ((init ++ [top]).length - 1) = .ok top := by
      simp [getR]
    rw [hg, ok_bind]
    have hto := Props.ofWord_exact (.dec w) top ht
    obtain ⟨z, h1, h2⟩ := buildSmall_spec dbg w init _ top (fun d h => hd d (by simp [h])) hto
    refine ⟨z, by simpa using h1, ?_⟩
    have : m = top * (DType.bin w).radix ^ init.length + val (DType.bin w).radix init := by
      rw [← hx.val_eq, val_append]; simp; ring
    rw [this]; exact h2

end UBig

end Babs
