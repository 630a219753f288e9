import Verif.Model.Text
import Verif.Proofs.DivBig

/-!
# Helper lemmas: text
-/

namespace Babs

variable {base : Nat}

/-! ## Characters -/

theorem charToDigit_of {c : Char} {d : Nat} (hb : base ≤ 16) (h : CharDigit base c d) :
    charToDigit base c = some d := by
  obtain ⟨h1, h2⟩ := h
  have key : ∀ d, d < 16 → ∀ u : Bool,
      ((if u then "0123456789ABCDEF" else "0123456789abcdef").toList[d]?).bind (charToDigit 16)
        = some d := by decide
  have h3 : charToDigit 16 c = some d := by
    rcases h2 with h | h
    · have := key d (by omega) false
      rw [if_neg (by simp), h] at this
      exact this
    · have := key d (by omega) true
      rw [if_pos rfl, h] at this
      exact this
  unfold charToDigit at h3 ⊢
  simp only [Option.bind_eq_some_iff] at h3 ⊢
  obtain ⟨a, h4, h5⟩ := h3
  refine ⟨a, h4, ?_⟩
  split at h5
  · simp only [Option.some.injEq] at h5
    subst h5
    rw [if_pos h1]
  · simp at h5

theorem char_eq_ofNat (c : Char) : c = Char.ofNat c.toNat := (Char.ofNat_toNat c).symm

theorem charDigit_of {c : Char} {d : Nat} (hb : base ≤ 16) (h : charToDigit base c = some d) :
    CharDigit base c d := by
  unfold charToDigit at h
  simp only [Option.bind_eq_some_iff] at h
  obtain ⟨a, h1, h2⟩ := h
  have ha : a < base ∧ a = d := by
    split at h2
    · exact ⟨by assumption, by simpa using h2⟩
    · simp at h2
  obtain ⟨h3, rfl⟩ := ha
  have h16 : a < 16 := by omega
  refine ⟨h3, ?_⟩
  have key : ∀ i, i < 10 → "0123456789abcdef".toList[i]? = some (Char.ofNat (48 + i)) := by decide
  have key2 : ∀ i, i < 6 → "0123456789abcdef".toList[i + 10]? = some (Char.ofNat (97 + i)) := by
    decide
  have key3 : ∀ i, i < 6 → "0123456789ABCDEF".toList[i + 10]? = some (Char.ofNat (65 + i)) := by
    decide
  have n0 : '0'.toNat = 48 := rfl
  have n9 : '9'.toNat = 57 := rfl
  have na : 'a'.toNat = 97 := rfl
  have nA : 'A'.toNat = 65 := rfl
  have hle : ∀ {x y : Char}, x ≤ y → x.toNat ≤ y.toNat := fun h => h
  split at h1
  · rename_i hc
    have e1 := hle hc.1
    have e2 := hle hc.2
    rw [n0] at e1
    rw [n9] at e2
    simp only [n0, Option.some.injEq] at h1
    left
    rw [key a (by omega), show 48 + a = c.toNat by omega, ← char_eq_ofNat]
  · split at h1
    · rename_i hc
      have e1 := hle hc.1
      rw [na] at e1
      simp only [na, Option.some.injEq] at h1
      left
      obtain ⟨i, rfl⟩ : ∃ i, a = i + 10 := ⟨a - 10, by omega⟩
      rw [key2 i (by omega), show 97 + i = c.toNat by omega, ← char_eq_ofNat]
    · split at h1
      · rename_i hc
        have e1 := hle hc.1
        rw [nA] at e1
        simp only [nA, Option.some.injEq] at h1
        right
        obtain ⟨i, rfl⟩ : ∃ i, a = i + 10 := ⟨a - 10, by omega⟩
        rw [key3 i (by omega), show 65 + i = c.toNat by omega, ← char_eq_ofNat]
      · simp at h1

theorem not_charDigit_plus (hb : base ≤ 16) (d : Nat) : ¬ CharDigit base '+' d := by
  intro h
  have := charToDigit_of hb h
  simp [charToDigit] at this

theorem not_charDigit_x (hb : base ≤ 16) (d : Nat) : ¬ CharDigit base 'x' d := by
  intro h
  have := charToDigit_of hb h
  have h16 : charToDigit base 'x' = if 33 < base then some 33 else none := by
    unfold charToDigit
    rfl
  rw [h16, if_neg (by omega)] at this
  simp at this

theorem CharDigit.ascii {c : Char} {d : Nat} (hb : base ≤ 16) (h : CharDigit base c d) :
    c.toNat < 128 := by
  obtain ⟨h1, h2⟩ := h
  have key : ∀ d, d < 16 → ∀ u : Bool,
      (((if u then "0123456789ABCDEF" else "0123456789abcdef").toList[d]?).map
        fun c => decide (c.toNat < 128)) = some true := by decide
  rcases h2 with h | h
  · have := key d (by omega) false
    rw [if_neg (by simp), h] at this
    simpa using this
  · have := key d (by omega) true
    rw [if_pos rfl, h] at this
    simpa using this

/-! ## Numerals -/

theorem forall2_digs {s : List Char} {ds : List Nat} (h : List.Forall₂ (CharDigit base) s ds) :
    Digs base ds := by
  induction h with
  | nil => exact digs_nil _
  | cons h1 _ ih => rw [digs_cons]; exact ⟨h1.1, ih⟩

theorem Numeral.lt {s : List Char} {n : Nat} (h : Numeral base s n) : n < base ^ s.length := by
  obtain ⟨ds, h1, rfl⟩ := h
  rw [h1.length_eq]
  have := val_lt (b := base) (ds := ds.reverse) (by
    intro x hx; exact forall2_digs h1 x (by simpa using hx))
  simpa using this

theorem numeral_nil : Numeral base [] 0 := ⟨[], List.Forall₂.nil, rfl⟩

theorem Numeral.append {a b : List Char} {m n : Nat} (ha : Numeral base a m)
    (hb : Numeral base b n) : Numeral base (a ++ b) (m * base ^ b.length + n) := by
  obtain ⟨xs, h1, rfl⟩ := ha
  obtain ⟨ys, h2, rfl⟩ := hb
  refine ⟨xs ++ ys, List.rel_append h1 h2, ?_⟩
  rw [List.reverse_append, val_append, List.length_reverse, ← h2.length_eq]
  ring

theorem Numeral.split {s : List Char} {n : Nat} (h : Numeral base s n) (k : Nat) :
    ∃ m r, Numeral base (s.take k) m ∧ Numeral base (s.drop k) r ∧
      n = m * base ^ (s.drop k).length + r := by
  obtain ⟨ds, h1, rfl⟩ := h
  have h2 := List.forall₂_take k h1
  have h3 := List.forall₂_drop k h1
  refine ⟨_, _, ⟨_, h2, rfl⟩, ⟨_, h3, rfl⟩, ?_⟩
  conv_lhs => rw [← List.take_append_drop k ds, List.reverse_append, val_append,
    List.length_reverse, ← h3.length_eq]
  ring

theorem CharDigit.unique {c : Char} {d e : Nat} (hb : base ≤ 16) (h : CharDigit base c d)
    (h' : CharDigit base c e) : d = e := by
  have h1 := charToDigit_of hb h
  rw [charToDigit_of hb h'] at h1
  simpa using h1.symm

theorem Numeral.unique {s : List Char} {m n : Nat} (hb : base ≤ 16) (h : Numeral base s m)
    (h' : Numeral base s n) : m = n := by
  obtain ⟨ds, h1, rfl⟩ := h
  obtain ⟨es, h2, rfl⟩ := h'
  have : ds = es := by
    induction h1 generalizing es with
    | nil => cases h2; rfl
    | cons a _ ih =>
      cases h2 with
      | cons b h3 => rw [a.unique hb b, ih _ h3]
  rw [this]

/-! ## Machine integers -/

theorem parseDigits_some {w : Nat} (hb : base ≤ 16) (hb0 : 0 < base) {cs : List Char} {ds : List Nat}
    (h : List.Forall₂ (CharDigit base) cs ds) :
    ∀ acc, acc * base ^ cs.length + val base ds.reverse < 2 ^ w →
      parseDigits w base cs acc = some (acc * base ^ cs.length + val base ds.reverse) := by
  induction h with
  | nil => intro acc _; simp [parseDigits]
  | @cons c d cs ds h1 h2 ih =>
    intro acc hlt
    have e : acc * base ^ (c :: cs).length + val base (d :: ds).reverse
        = (acc * base + d) * base ^ cs.length + val base ds.reverse := by
      rw [List.reverse_cons, val_append, List.length_reverse, ← h2.length_eq, List.length_cons,
        pow_succ]
      simp
      ring
    rw [e] at hlt ⊢
    unfold parseDigits
    have hP : 1 ≤ base ^ cs.length := Nat.pow_pos hb0
    have : (acc * base + d) * 1 ≤ (acc * base + d) * base ^ cs.length := Nat.mul_le_mul_left _ hP
    simp only [charToDigit_of hb h1, Option.bind_eq_bind, Option.bind_some]
    rw [if_pos (by omega), ih _ hlt]

theorem parseDigits_inv {w : Nat} (hb : base ≤ 16) {cs : List Char} :
    ∀ acc v, parseDigits w base cs acc = some v →
      ∃ ds, List.Forall₂ (CharDigit base) cs ds ∧ v = acc * base ^ cs.length + val base ds.reverse := by
  induction cs with
  | nil => intro acc v h; exact ⟨[], List.Forall₂.nil, by simpa [parseDigits] using h.symm⟩
  | cons c cs ih =>
    intro acc v h
    unfold parseDigits at h
    simp only [Option.bind_eq_bind, Option.bind_eq_some_iff] at h
    obtain ⟨d, h1, h2⟩ := h
    split at h2
    · obtain ⟨ds, h3, h4⟩ := ih _ _ h2
      refine ⟨d :: ds, List.Forall₂.cons (charDigit_of hb h1) h3, ?_⟩
      rw [h4, List.reverse_cons, val_append, List.length_reverse, ← h3.length_eq, List.length_cons,
        pow_succ]
      simp
      ring
    · simp at h2

/-- The texts accepted for a machine integer: one digit or more, with a plus sign in front or not. -/
def Signed (base : Nat) (s : List Char) (n : Nat) : Prop :=
  (s ≠ [] ∧ Numeral base s n) ∨ ∃ s', s = '+' :: s' ∧ s' ≠ [] ∧ Numeral base s' n

theorem not_numeral_plus (hb : base ≤ 16) {s : List Char} {n : Nat} : ¬ Numeral base ('+' :: s) n := by
  rintro ⟨ds, h, -⟩
  cases h with
  | cons h _ => exact not_charDigit_plus hb _ h

theorem Signed.unique {s : List Char} {m n : Nat} (hb : base ≤ 16) (h : Signed base s m)
    (h' : Signed base s n) : m = n := by
  rcases h with ⟨-, h⟩ | ⟨s1, rfl, -, h⟩ <;> rcases h' with ⟨-, h'⟩ | ⟨s2, e, -, h'⟩
  · exact h.unique hb h'
  · subst e; exact absurd h (not_numeral_plus hb)
  · exact absurd h' (not_numeral_plus hb)
  · have : s1 = s2 := by simpa using e
    subst this
    exact h.unique hb h'

theorem Signed.lt (hb : 0 < base) {s : List Char} {n : Nat} (h : Signed base s n) :
    n < base ^ s.length := by
  rcases h with ⟨-, h⟩ | ⟨s1, rfl, -, h⟩
  · exact h.lt
  · exact lt_of_lt_of_le h.lt (Nat.pow_le_pow_right hb (by simp))

theorem fromStrRadix_some {w : Nat} (hb : base ≤ 16) (hb0 : 0 < base) {s : List Char} {n : Nat}
    (h : Signed base s n) (hn : n < 2 ^ w) : fromStrRadix w base s = some n := by
  rcases h with ⟨h1, ds, h2, rfl⟩ | ⟨s', rfl, h1, ds, h2, rfl⟩
  · have := parseDigits_some (w := w) hb hb0 h2 0 (by simpa using hn)
    rw [Nat.zero_mul, Nat.zero_add] at this
    unfold fromStrRadix
    split
    · exact absurd rfl h1
    · exact absurd ⟨ds, h2, rfl⟩ (not_numeral_plus (n := val base ds.reverse) hb)
    · exact absurd ⟨ds, h2, rfl⟩ (not_numeral_plus (n := val base ds.reverse) hb)
    · exact this
  · have := parseDigits_some (w := w) hb hb0 h2 0 (by simpa using hn)
    rw [Nat.zero_mul, Nat.zero_add] at this
    unfold fromStrRadix
    split
    · simp_all
    · simp_all
    · rename_i e; simp at e; subst e; exact this
    · rename_i e _; simp_all

theorem fromStrRadix_inv {w : Nat} (hb : base ≤ 16) {s : List Char} {n : Nat}
    (h : fromStrRadix w base s = some n) : Signed base s n := by
  unfold fromStrRadix at h
  split at h
  · simp at h
  · simp at h
  · rename_i cs hcs
    obtain ⟨ds, h1, h2⟩ := parseDigits_inv hb _ _ h
    right
    refine ⟨cs, rfl, ?_, ds, h1, by rw [h2]; simp⟩
    rintro rfl
    simp at hcs
  · rename_i h0 _ _
    obtain ⟨ds, h1, h2⟩ := parseDigits_inv hb _ _ h
    left
    exact ⟨h0, ds, h1, by rw [h2]; simp⟩

/-! ## Chunks -/

theorem rchunksGo_length (k : Nat) : ∀ fuel s, ∀ c ∈ rchunksGo k fuel s, c.length ≤ k
  | 0, s => by simp [rchunksGo]
  | fuel + 1, s => by
    unfold rchunksGo
    split
    · simp
    · intro c hc
      rcases List.mem_cons.mp hc with rfl | h
      · simp; omega
      · exact rchunksGo_length k fuel _ c h

theorem rchunksGo_mem (k : Nat) (hk : 0 < k) : ∀ fuel s, s.length ≤ fuel →
    ∀ c ∈ s, ∃ p ∈ rchunksGo k fuel s, c ∈ p
  | 0, s => by
    intro h c hc
    have : s = [] := List.eq_nil_of_length_eq_zero (by omega)
    simp [this] at hc
  | fuel + 1, s => by
    intro h c hc
    unfold rchunksGo
    have hne : s ≠ [] := by rintro rfl; simp at hc
    rw [if_neg hne]
    rw [← List.take_append_drop (s.length - k) s, List.mem_append] at hc
    rcases hc with hc | hc
    · have : 0 < s.length := List.length_pos_of_ne_nil hne
      obtain ⟨p, h1, h2⟩ := rchunksGo_mem k hk fuel (s.take (s.length - k)) (by simp; omega) c hc
      exact ⟨p, List.mem_cons_of_mem _ h1, h2⟩
    · exact ⟨_, List.mem_cons_self, hc⟩

theorem numeral_chunks {k : Nat} (hk : 0 < k) : ∀ fuel s n, s.length ≤ fuel → Numeral base s n →
    ∃ ds, List.Forall₂ (Signed base) (rchunksGo k fuel s) ds ∧ val (base ^ k) ds = n
  | 0, s, n => by
    intro h hn
    have : s = [] := List.eq_nil_of_length_eq_zero (by omega)
    subst this
    obtain ⟨ds, h1, h2⟩ := hn
    cases h1
    exact ⟨[], List.Forall₂.nil, h2⟩
  | fuel + 1, s, n => by
    intro h hn
    unfold rchunksGo
    split
    · rename_i e
      subst e
      obtain ⟨ds, h1, h2⟩ := hn
      cases h1
      exact ⟨[], List.Forall₂.nil, h2⟩
    · rename_i hne
      have hpos : 0 < s.length := List.length_pos_of_ne_nil hne
      obtain ⟨m, r, h1, h2, h3⟩ := hn.split (s.length - k)
      obtain ⟨ds, h4, h5⟩ := numeral_chunks hk fuel (s.take (s.length - k)) m (by simp; omega) h1
      refine ⟨r :: ds, List.Forall₂.cons (Or.inl ⟨?_, h2⟩) h4, ?_⟩
      · intro e
        have := congrArg List.length e
        simp at this
        omega
      · rw [val_cons, h5, h3]
        by_cases hc : k ≤ s.length
        · rw [List.length_drop, show s.length - (s.length - k) = k by omega]; ring
        · rw [show s.length - k = 0 by omega] at h1
          have : m = 0 := by
            obtain ⟨es, h6, h7⟩ := h1
            cases h6
            exact h7.symm
          rw [this]; ring

/-- Read a plus sign as a zero. -/
def plusToZero (c : Char) : Char := if c = '+' then '0' else c

theorem charDigit_zero (hb : 0 < base) : CharDigit base '0' 0 := ⟨hb, Or.inl (by decide)⟩

theorem Numeral.map_plus (hb : base ≤ 16) {s : List Char} {n : Nat} (h : Numeral base s n) :
    s.map plusToZero = s := by
  obtain ⟨ds, h1, -⟩ := h
  induction h1 with
  | nil => rfl
  | cons a _ ih =>
    rw [List.map_cons, ih]
    unfold plusToZero
    rw [if_neg]
    rintro rfl
    exact not_charDigit_plus hb _ a

theorem Signed.numeral (hb : base ≤ 16) (hb0 : 0 < base) {s : List Char} {n : Nat}
    (h : Signed base s n) : Numeral base (s.map plusToZero) n := by
  rcases h with ⟨-, h⟩ | ⟨s, rfl, -, h⟩
  · rw [h.map_plus hb]; exact h
  · have h1 := h.map_plus hb
    rw [List.map_cons, h1]
    obtain ⟨ds, h2, rfl⟩ := h
    refine ⟨0 :: ds, List.Forall₂.cons (charDigit_zero hb0) h2, ?_⟩
    rw [List.reverse_cons, val_append]
    simp

theorem Signed.ne_nil {s : List Char} {n : Nat} (h : Signed base s n) : s ≠ [] := by
  rcases h with ⟨h, -⟩ | ⟨s, rfl, -, h⟩
  · exact h
  · simp

theorem chunks_numeral {k : Nat} (hb : base ≤ 16) (hb0 : 0 < base) :
    ∀ fuel s ds, s.length ≤ fuel → 0 < k → List.Forall₂ (Signed base) (rchunksGo k fuel s) ds →
      Numeral base (s.map plusToZero) (val (base ^ k) ds)
  | 0, s, ds => by
    intro h hk hf
    have : s = [] := List.eq_nil_of_length_eq_zero (by omega)
    subst this
    unfold rchunksGo at hf
    cases hf
    exact numeral_nil
  | fuel + 1, s, ds => by
    intro h hk hf
    unfold rchunksGo at hf
    split at hf
    · rename_i e
      subst e
      cases hf
      exact numeral_nil
    · rename_i hne
      have hpos : 0 < s.length := List.length_pos_of_ne_nil hne
      cases hf with
      | @cons _ d _ ds h1 h2 =>
        have h3 := chunks_numeral hb hb0 fuel _ ds (by simp; omega) hk h2
        have h4 := h3.append (h1.numeral hb hb0)
        rw [← List.map_append, List.take_append_drop] at h4
        rw [val_cons]
        by_cases hc : k ≤ s.length
        · rw [List.length_map, List.length_drop, show s.length - (s.length - k) = k by omega] at h4
          rw [show d + base ^ k * val (base ^ k) ds = val (base ^ k) ds * base ^ k + d by ring]
          exact h4
        · have : ds = [] := by
            rw [show s.length - k = 0 by omega] at h2
            rw [List.take_zero] at h2
            cases fuel <;> simp [rchunksGo] at h2 <;> exact h2
          subst this
          simpa using h4

theorem isAscii_iff (s : List Char) : isAscii s = true ↔ ∀ c ∈ s, c.toNat < 128 := by
  simp [isAscii]

theorem Numeral.ascii (hb : base ≤ 16) {s : List Char} {n : Nat} (h : Numeral base s n) :
    ∀ c ∈ s, c.toNat < 128 := by
  obtain ⟨ds, h1, -⟩ := h
  induction h1 with
  | nil => simp
  | cons a _ ih =>
    intro c hc
    rcases List.mem_cons.mp hc with rfl | h
    · exact a.ascii hb
    · exact ih c h

/-! ## `FromStr` -/

namespace UBig

/-- The number of characters that make up one chunk, and the base, for a type. -/
def chunkOf (t : DType) (base : Nat) : Nat :=
  match t, base with
  | .bin w, 16 => nrHexPlaces w
  | .bin w, _ => maxDecimalPlaces w
  | .dec w, 16 => maxHexPlaces w
  | .dec w, _ => nrDecimalPlacesDec w

theorem chunkOf_spec (t : DType) (h : base = 10 ∨ base = 16) :
    0 < chunkOf t base ∧ base ^ chunkOf t base ≤ t.radix ∧ t.radix ≤ 2 ^ (match t with
      | .bin w => w.bits | .dec w => w.bits) := by
  rcases h with rfl | rfl <;> rcases t with w | w <;> cases w <;> decide

theorem digitFromStr_ok (t : DType) (h : base = 10 ∨ base = 16) {s : List Char} {n : Nat}
    (hs : Signed base s n) (hl : s.length ≤ chunkOf t base) : digitFromStr t base s = .ok n := by
  obtain ⟨h1, h2, h3⟩ := chunkOf_spec t h
  have hb : base ≤ 16 := by omega
  have hb0 : 0 < base := by omega
  have h4 : n < t.radix := lt_of_lt_of_le (hs.lt hb0)
    (le_trans (Nat.pow_le_pow_right hb0 hl) h2)
  rcases t with w | w
  · simp only [digitFromStr]
    rw [fromStrRadix_some hb hb0 hs (lt_of_lt_of_le h4 h3)]
  · simp only [digitFromStr]
    rw [fromStrRadix_some hb hb0 hs (lt_of_lt_of_le h4 h3)]
    exact if_pos h4

theorem digitFromStr_err (t : DType) (h : base = 10 ∨ base = 16) {s : List Char}
    (hs : ¬ ∃ n, Signed base s n) : digitFromStr t base s = .error .invalidNumber := by
  have hb : base ≤ 16 := by omega
  have key : ∀ w, fromStrRadix w base s = none := by
    intro w
    cases hc : fromStrRadix w base s with
    | none => rfl
    | some v => exact absurd ⟨v, fromStrRadix_inv hb hc⟩ hs
  rcases t with w | w <;> simp only [digitFromStr, key]

theorem parseChunks_spec (t : DType) (h : base = 10 ∨ base = 16) (l : List (List Char))
    (hl : ∀ c ∈ l, c.length ≤ chunkOf t base) :
    (∃ ds, List.Forall₂ (Signed base) l ds ∧ parseChunks t base l = .ok ds) ∨
      ((¬ ∃ ds, List.Forall₂ (Signed base) l ds) ∧
        parseChunks t base l = .error .invalidNumber) := by
  induction l with
  | nil => exact Or.inl ⟨[], List.Forall₂.nil, rfl⟩
  | cons c l ih =>
    unfold parseChunks
    by_cases hc : ∃ n, Signed base c n
    · obtain ⟨n, hn⟩ := hc
      rw [digitFromStr_ok t h hn (hl c List.mem_cons_self)]
      rcases ih (fun c hc => hl c (List.mem_cons_of_mem _ hc)) with ⟨ds, h1, h2⟩ | ⟨h1, h2⟩
      · exact Or.inl ⟨n :: ds, List.Forall₂.cons hn h1, by simp [h2]⟩
      · right
        refine ⟨?_, by simp [h2]⟩
        rintro ⟨ds, h3⟩
        cases h3 with
        | cons _ h3 => exact h1 ⟨_, h3⟩
    · right
      rw [digitFromStr_err t h hc]
      refine ⟨?_, rfl⟩
      rintro ⟨ds, h3⟩
      cases h3 with
      | cons h3 _ => exact hc ⟨_, h3⟩

theorem parseScaled_spec (t : DType) (dbg : Bool) (h : base = 10 ∨ base = 16)
    (hlt : base ^ chunkOf t base < t.radix) (l : List (List Char)) :
    ∀ (r : List Nat) (m : Nat), (∀ c ∈ l, c.length ≤ chunkOf t base) → Rep t.radix r m →
    (∃ ds, List.Forall₂ (Signed base) l ds ∧
        ∃ x, parseScaled t dbg base (base ^ chunkOf t base) l r = .ok (.ok x) ∧
          Rep t.radix x (m * (base ^ chunkOf t base) ^ l.length
            + val (base ^ chunkOf t base) ds.reverse)) ∨
      ((¬ ∃ ds, List.Forall₂ (Signed base) l ds) ∧
        parseScaled t dbg base (base ^ chunkOf t base) l r = .ok (.error .invalidNumber)) := by
  induction l with
  | nil =>
    intro r m _ hr
    exact Or.inl ⟨[], List.Forall₂.nil, r, rfl, by simpa using hr⟩
  | cons c l ih =>
    intro r m hl hr
    unfold parseScaled
    by_cases hc : ∃ n, Signed base c n
    · obtain ⟨n, hn⟩ := hc
      have hlen := hl c List.mem_cons_self
      have hb0 : 0 < base := by omega
      rw [digitFromStr_ok t h hn hlen]
      have hn2 : n < base ^ chunkOf t base :=
        lt_of_lt_of_le (hn.lt hb0) (Nat.pow_le_pow_right hb0 hlen)
      obtain ⟨z, h1, h2, h3, h4⟩ := mulAddDigit_spec (ops_lawful t dbg) r (base ^ chunkOf t base) n
        hr.digs hlt (by omega)
      simp only [h1]
      rw [ok_bind]
      have hz : Rep t.radix z (m * base ^ chunkOf t base + n) :=
        ⟨h2, h4 hr.canon, by rw [h3, hr.val_eq]⟩
      rcases ih z _ (fun c hc => hl c (List.mem_cons_of_mem _ hc)) hz with
        ⟨ds, h5, x, h6, h7⟩ | ⟨h5, h6⟩
      · refine Or.inl ⟨n :: ds, List.Forall₂.cons hn h5, x, h6, ?_⟩
        have e : m * (base ^ chunkOf t base) ^ (c :: l).length
            + val (base ^ chunkOf t base) (n :: ds).reverse
            = (m * base ^ chunkOf t base + n) * (base ^ chunkOf t base) ^ l.length
              + val (base ^ chunkOf t base) ds.reverse := by
          rw [List.reverse_cons, val_append, List.length_reverse, ← h5.length_eq,
            List.length_cons, pow_succ]
          simp
          ring
        rw [e]
        exact h7
      · right
        refine ⟨?_, h6⟩
        rintro ⟨ds, h3⟩
        cases h3 with
        | cons _ h3 => exact h5 ⟨_, h3⟩
    · right
      rw [digitFromStr_err t h hc]
      refine ⟨?_, rfl⟩
      rintro ⟨ds, h3⟩
      cases h3 with
      | cons h3 _ => exact hc ⟨_, h3⟩

/-- What `FromStr` does with the digits of a number: `s` is the text without the prefix. -/
def Parsed (t : DType) (base : Nat) (s : List Char) (r : R (Res (List Nat))) : Prop :=
  (∃ ds, List.Forall₂ (Signed base) (rchunks (chunkOf t base) s) ds ∧
      ∃ x, r = .ok (.ok x) ∧ Rep t.radix x (val (base ^ chunkOf t base) ds)) ∨
    ((¬ ∃ ds, List.Forall₂ (Signed base) (rchunks (chunkOf t base) s) ds) ∧
      r = .ok (.error .invalidNumber))

theorem forall2_reverse {α β : Type} {P : α → β → Prop} {l : List α} {m : List β}
    (h : List.Forall₂ P l m) : List.Forall₂ P l.reverse m.reverse :=
  List.forall₂_reverse_iff.mpr h

theorem parsed_scaled (t : DType) (dbg : Bool) (h : base = 10 ∨ base = 16)
    (hlt : base ^ chunkOf t base < t.radix) (s : List Char) :
    Parsed t base s (parseScaled t dbg base (base ^ chunkOf t base)
      (rchunks (chunkOf t base) s).reverse []) := by
  have hl : ∀ c ∈ (rchunks (chunkOf t base) s).reverse, c.length ≤ chunkOf t base := by
    intro c hc
    exact rchunksGo_length _ _ _ c (List.mem_reverse.mp hc)
  rcases parseScaled_spec t dbg h hlt _ [] 0 hl ⟨digs_nil _, by simp [Canon], rfl⟩ with
    ⟨ds, h1, x, h2, h3⟩ | ⟨h1, h2⟩
  · left
    refine ⟨ds.reverse, ?_, x, h2, by simpa using h3⟩
    have := forall2_reverse h1
    simpa using this
  · right
    refine ⟨?_, h2⟩
    rintro ⟨ds, h3⟩
    exact h1 ⟨_, forall2_reverse h3⟩

theorem parsed_chunks (t : DType) (h : base = 10 ∨ base = 16)
    (heq : base ^ chunkOf t base = t.radix) (s : List Char) :
    Parsed t base s (newOfChunks (parseChunks t base (rchunks (chunkOf t base) s))) := by
  have hl : ∀ c ∈ rchunks (chunkOf t base) s, c.length ≤ chunkOf t base := rchunksGo_length _ _ _
  have hb0 : 0 < base := by omega
  rcases parseChunks_spec t h _ hl with ⟨ds, h1, h2⟩ | ⟨h1, h2⟩
  · left
    refine ⟨ds, h1, ?_⟩
    have hd : Digs t.radix ds := by
      rw [← heq]
      clear h2
      revert hl h1
      generalize rchunks (chunkOf t base) s = l
      intro hl h1
      revert hl
      induction h1 with
      | nil => intro _; exact digs_nil _
      | cons a _ ih =>
        intro hl
        rw [digs_cons]
        exact ⟨lt_of_lt_of_le (a.lt hb0) (Nat.pow_le_pow_right hb0 (hl _ List.mem_cons_self)),
          ih fun c hc => hl c (List.mem_cons_of_mem _ hc)⟩
    obtain ⟨x, h3, h4, -⟩ := normalise_rep hd
    refine ⟨x, ?_, ?_⟩
    · rw [h2]; simp only [newOfChunks, new, ubigNew]; rw [h3]; rfl
    · rw [heq]; exact h4
  · right
    exact ⟨h1, by rw [h2]; rfl⟩

theorem fromStr_dec (t : DType) (dbg : Bool) (s : List Char) (ha : ∀ c ∈ s, c.toNat < 128)
    (hp : stripHexPrefix s = none) : Parsed t 10 s (fromStr t dbg s) := by
  unfold fromStr
  rw [(isAscii_iff s).mpr ha, hp]
  simp only [Bool.not_true, Bool.false_eq_true, if_false]
  rcases t with w | w
  · exact parsed_scaled (.bin w) dbg (Or.inl rfl) (by cases w <;> decide) s
  · exact parsed_chunks (.dec w) (Or.inl rfl) (by cases w <;> decide) s

theorem fromStr_hex (t : DType) (dbg : Bool) (s : List Char) (ha : ∀ c ∈ s, c.toNat < 128) :
    Parsed t 16 s (fromStr t dbg ('0' :: 'x' :: s)) := by
  have ha' : ∀ c ∈ '0' :: 'x' :: s, c.toNat < 128 := by
    intro c hc
    rcases List.mem_cons.mp hc with rfl | hc
    · decide
    · rcases List.mem_cons.mp hc with rfl | hc
      · decide
      · exact ha c hc
  unfold fromStr
  rw [(isAscii_iff _).mpr ha']
  simp only [Bool.not_true, Bool.false_eq_true, if_false, stripHexPrefix]
  rcases t with w | w
  · exact parsed_chunks (.bin w) (Or.inr rfl) (by cases w <;> decide) s
  · have e : 2 ^ (4 * maxHexPlaces w) = 16 ^ chunkOf (.dec w) 16 := by
      rw [pow_mul]; rfl
    simp only [e]
    exact parsed_scaled (.dec w) dbg (Or.inr rfl) (by cases w <;> decide) s

end UBig

end Babs
