import Verif.Props.Text
import Mathlib.Data.Nat.Log

/-!
# C27: exactly which texts are parsed

The parser cuts the text in chunks and gives every chunk to `from_str_radix`, which skips a plus
sign. Here the texts accepted are described without the chunks: a plus sign is accepted where the
number of characters from it on is a multiple of the chunk size, and at the very front, unless it is
then alone in its chunk.
-/

namespace Babs.Props

open UBig

/-- Every plus sign in `s` stands where a chunk of `k` characters, counted from the end of the text,
begins, and is not alone in that chunk. -/
def PlusAt (k : Nat) (s : List Char) : Prop :=
  ∀ i, s[i]? = some '+' → 2 ≤ k ∧ ((i = 0 ∧ s.length % k ≠ 1) ∨ k ∣ s.length - i)

/-- Every plus sign read as a zero. -/
def plusAsZero (s : List Char) : List Char := s.map fun c => if c = '+' then '0' else c

/-- The texts the code accepts, and the numbers it reads. The chunk size is the largest number of
characters every text of which fits in a digit. -/
def Accepted (t : DType) (s : List Char) (n : Nat) : Prop :=
  (PlusAt (Nat.log 10 t.radix) s ∧ Numeral 10 (plusAsZero s) n) ∨
    ∃ s', s = '0' :: 'x' :: s' ∧ PlusAt (Nat.log 16 t.radix) s' ∧ Numeral 16 (plusAsZero s') n

theorem plusAsZero_eq (s : List Char) : plusAsZero s = s.map plusToZero := rfl

theorem numeral_append_iff {base : Nat} (a c : List Char) :
    (∃ n, Numeral base (a ++ c) n) ↔ (∃ n, Numeral base a n) ∧ ∃ n, Numeral base c n := by
  constructor
  · rintro ⟨n, h⟩
    obtain ⟨m, r, h1, h2, -⟩ := h.split a.length
    rw [List.take_left] at h1
    rw [List.drop_left] at h2
    exact ⟨⟨m, h1⟩, r, h2⟩
  · rintro ⟨⟨m, h1⟩, r, h2⟩
    exact ⟨_, h1.append h2⟩

theorem no_plus_of_numeral {base : Nat} (hb : base ≤ 16) {s : List Char} {n : Nat}
    (h : Numeral base s n) : '+' ∉ s := by
  intro hc
  obtain ⟨d, hd⟩ := numeral_mem h hc
  exact not_charDigit_plus hb _ hd

theorem signed_iff {base : Nat} (hb : base ≤ 16) (hb0 : 0 < base) (c : List Char) :
    (∃ n, Signed base c n) ↔ c ≠ [] ∧ (∃ n, Numeral base (c.map plusToZero) n) ∧
      ∀ i, c[i]? = some '+' → i = 0 ∧ 2 ≤ c.length := by
  constructor
  · rintro ⟨n, h⟩
    refine ⟨h.ne_nil, ⟨n, h.numeral hb hb0⟩, fun i hi => ?_⟩
    rcases h with ⟨-, h⟩ | ⟨s', rfl, h1, h2⟩
    · exact absurd (List.mem_of_getElem? hi) (no_plus_of_numeral hb h)
    · have := List.length_pos_of_ne_nil h1
      refine ⟨?_, by simp; omega⟩
      cases i with
      | zero => rfl
      | succ i =>
        rw [List.getElem?_cons_succ] at hi
        exact absurd (List.mem_of_getElem? hi) (no_plus_of_numeral hb h2)
  · rintro ⟨h1, ⟨n, h2⟩, h3⟩
    cases c with
    | nil => exact absurd rfl h1
    | cons x s =>
      have hs : '+' ∉ s := by
        intro hm
        obtain ⟨i, hi⟩ := List.getElem?_of_mem hm
        have := (h3 (i + 1) (by rw [List.getElem?_cons_succ]; exact hi)).1
        omega
      by_cases hx : x = '+'
      · subst hx
        have hl := (h3 0 rfl).2
        rw [List.map_cons, ← List.singleton_append] at h2
        obtain ⟨-, r, h4⟩ := (numeral_append_iff _ _).mp ⟨n, h2⟩
        rw [map_plus_of hs] at h4
        refine ⟨r, Or.inr ⟨s, rfl, ?_, h4⟩⟩
        rintro rfl
        simp at hl
      · rw [map_plus_of (by simp only [List.mem_cons, not_or]; exact ⟨fun e => hx e.symm, hs⟩)] at h2
        exact ⟨n, Or.inl ⟨h1, h2⟩⟩

theorem plusAt_short {k : Nat} {c : List Char} (hc : c.length ≤ k) :
    PlusAt k c ↔ ∀ i, c[i]? = some '+' → i = 0 ∧ 2 ≤ c.length := by
  refine forall_congr' fun i => imp_congr_right fun hi => ?_
  have hil : i < c.length := (List.getElem?_eq_some_iff.mp hi).1
  constructor
  · rintro ⟨hk, ⟨h1, h2⟩ | h1⟩
    · refine ⟨h1, ?_⟩
      by_contra hlt
      have : c.length = 1 := by omega
      rw [this, Nat.mod_eq_of_lt (by omega)] at h2
      exact h2 rfl
    · have := Nat.le_of_dvd (by omega) h1
      omega
  · rintro ⟨h1, h2⟩
    refine ⟨by omega, Or.inl ⟨h1, ?_⟩⟩
    rcases Nat.lt_or_ge c.length k with h | h
    · rw [Nat.mod_eq_of_lt h]; omega
    · rw [show c.length = k by omega, Nat.mod_self]; omega

theorem plusAt_append {k : Nat} {a c : List Char} (hc : c.length = k) (ha : a ≠ []) :
    PlusAt k (a ++ c) ↔ PlusAt k a ∧ ∀ i, c[i]? = some '+' → i = 0 ∧ 2 ≤ c.length := by
  have hpos := List.length_pos_of_ne_nil ha
  have hmod : (a.length + k) % k = a.length % k := Nat.add_mod_right _ _
  constructor
  · intro h
    refine ⟨fun i hi => ?_, fun i hi => ?_⟩
    · have hil : i < a.length := (List.getElem?_eq_some_iff.mp hi).1
      obtain ⟨h1, h2⟩ := h i (by rw [List.getElem?_append_left hil]; exact hi)
      rw [List.length_append, hc, hmod] at h2
      refine ⟨h1, h2.imp id fun h3 => ?_⟩
      rw [show a.length + k - i = a.length - i + k by omega] at h3
      exact (Nat.dvd_add_left (Nat.dvd_refl k)).mp h3
    · have hil : i < c.length := (List.getElem?_eq_some_iff.mp hi).1
      obtain ⟨h1, h2⟩ := h (a.length + i) (by
        rw [List.getElem?_append_right (by omega), show a.length + i - a.length = i by omega]; exact hi)
      rw [List.length_append, hc] at h2
      rcases h2 with h2 | h2
      · omega
      · rw [show a.length + k - (a.length + i) = k - i by omega] at h2
        have := Nat.le_of_dvd (by omega) h2
        omega
  · rintro ⟨h1, h2⟩ i hi
    rw [List.length_append, hc, hmod]
    rcases Nat.lt_or_ge i a.length with hil | hil
    · rw [List.getElem?_append_left hil] at hi
      refine ⟨(h1 i hi).1, (h1 i hi).2.imp id fun h3 => ?_⟩
      rw [show a.length + k - i = a.length - i + k by omega]
      exact (Nat.dvd_add_left (Nat.dvd_refl k)).mpr h3
    · rw [List.getElem?_append_right hil] at hi
      have := h2 _ hi
      refine ⟨by omega, Or.inr ?_⟩
      rw [show a.length + k - i = k by omega]

theorem chunks_iff {base k : Nat} (hb : base ≤ 16) (hb0 : 0 < base) (hk : 0 < k) :
    ∀ fuel s, s.length ≤ fuel → ((∃ ds, List.Forall₂ (Signed base) (rchunksGo k fuel s) ds) ↔
      PlusAt k s ∧ ∃ n, Numeral base (s.map plusToZero) n)
  | 0, s => by
    intro h
    have : s = [] := List.eq_nil_of_length_eq_zero (by omega)
    subst this
    exact ⟨fun _ => ⟨fun i hi => by simp at hi, 0, numeral_nil⟩, fun _ => ⟨[], List.Forall₂.nil⟩⟩
  | fuel + 1, s => by
    intro h
    unfold rchunksGo
    split
    · rename_i e
      subst e
      exact ⟨fun _ => ⟨fun i hi => by simp at hi, 0, numeral_nil⟩, fun _ => ⟨[], List.Forall₂.nil⟩⟩
    · rename_i hne
      have hpos : 0 < s.length := List.length_pos_of_ne_nil hne
      have ih := chunks_iff (k := k) hb hb0 hk fuel (s.take (s.length - k)) (by simp; omega)
      have hcut : s.take (s.length - k) ++ s.drop (s.length - k) = s := List.take_append_drop _ _
      have hcl : (s.drop (s.length - k)).length = min k s.length := by simp; omega
      have hal : (s.take (s.length - k)).length = s.length - k := by simp
      have hplus : PlusAt k s ↔ PlusAt k (s.take (s.length - k)) ∧
          ∀ i, (s.drop (s.length - k))[i]? = some '+' → i = 0 ∧ 2 ≤ (s.drop (s.length - k)).length := by
        by_cases hc : s.length ≤ k
        · rw [show s.length - k = 0 by omega, List.take_zero, List.drop_zero]
          rw [← plusAt_short hc]
          exact ⟨fun h => ⟨fun i hi => by simp at hi, h⟩, fun h => h.2⟩
        · rw [← plusAt_append (by omega) (by
            intro e
            have := congrArg List.length e
            rw [hal, List.length_nil] at this
            omega), hcut]
      have hnum : (∃ n, Numeral base (s.map plusToZero) n) ↔
          (∃ n, Numeral base ((s.take (s.length - k)).map plusToZero) n) ∧
            ∃ n, Numeral base ((s.drop (s.length - k)).map plusToZero) n := by
        rw [← numeral_append_iff, ← List.map_append, hcut]
      have hsig := signed_iff hb hb0 (s.drop (s.length - k))
      have hne' : s.drop (s.length - k) ≠ [] := by
        intro e
        have := congrArg List.length e
        rw [hcl, List.length_nil] at this
        omega
      rw [hplus, hnum]
      constructor
      · rintro ⟨ds, hf⟩
        cases hf with
        | @cons _ d _ ds h1 h2 =>
          obtain ⟨a1, a2⟩ := ih.mp ⟨ds, h2⟩
          obtain ⟨-, a3, a4⟩ := hsig.mp ⟨d, h1⟩
          exact ⟨⟨a1, a4⟩, a2, a3⟩
      · rintro ⟨⟨a1, a4⟩, a2, a3⟩
        obtain ⟨ds, h2⟩ := ih.mpr ⟨a1, a2⟩
        obtain ⟨d, h1⟩ := hsig.mpr ⟨hne', a3, a4⟩
        exact ⟨d :: ds, List.Forall₂.cons h1 h2⟩

theorem chunkOf_eq (t : DType) {base : Nat} (h : base = 10 ∨ base = 16) :
    chunkOf t base = Nat.log base t.radix := by
  rcases t with w | w <;> cases w <;> rcases h with rfl | rfl <;> decide +kernel

theorem parsed_iff (t : DType) {base : Nat} (hb : base = 10 ∨ base = 16) {s : List Char}
    {r : R (Res (List Nat))} (hp : Parsed t base s r) :
    (∃ x n, r = .ok (.ok x) ∧ PlusAt (Nat.log base t.radix) s ∧ Numeral base (plusAsZero s) n ∧
        Rep t.radix x n) ∨
      (r = .ok (.error .invalidNumber) ∧
        ¬ (PlusAt (Nat.log base t.radix) s ∧ ∃ n, Numeral base (plusAsZero s) n)) := by
  have hk := (chunkOf_spec t hb).1
  have hi := chunks_iff (base := base) (k := chunkOf t base) (by omega) (by omega) hk s.length s
    (Nat.le_refl _)
  rw [← chunkOf_eq t hb]
  rcases hp with ⟨ds, h1, x, h2, h3⟩ | ⟨h1, h2⟩
  · exact Or.inl ⟨x, _, h2, (hi.mp ⟨ds, h1⟩).1,
      chunks_numeral (by omega) (by omega) _ _ _ (Nat.le_refl _) hk h1, h3⟩
  · exact Or.inr ⟨h2, fun h => h1 (hi.mpr h)⟩

variable (t : DType) (dbg : Bool)

/-- C27, for all texts: what is parsed and what is rejected. The code accepts exactly the texts
`Accepted`, and reads them as the number they stand for with zeros for plus signs; all others are
`InvalidNumber`. (C27 asks for `WellFormed` here; the two differ only in texts with a plus sign, see
`accepted_iff_wellFormed`.) -/
theorem parse_accepted_iff (s : List Char) :
    Returns (fromStr t dbg s) fun r =>
      (∃ x n, r = .ok x ∧ Accepted t s n ∧ Rep t.radix x n) ∨
        (r = .error .invalidNumber ∧ ¬ ∃ n, Accepted t s n) := by
  have ascii : ∀ {base : Nat} {s : List Char} {n : Nat}, base ≤ 16 → Numeral base (plusAsZero s) n →
      ∀ c ∈ s, c.toNat < 128 := by
    intro base s n hb h c hc
    by_cases e : c = '+'
    · subst e; decide
    · exact h.ascii hb c (by
        rw [plusAsZero_eq]
        exact List.mem_map.mpr ⟨c, hc, by unfold plusToZero; rw [if_neg e]⟩)
  by_cases ha : ∀ c ∈ s, c.toNat < 128
  · by_cases hx : ∃ s', s = '0' :: 'x' :: s'
    · obtain ⟨s', rfl⟩ := hx
      rcases parsed_iff t (Or.inr rfl) (fromStr_hex t dbg s' (fun c hc => ha c (by simp [hc]))) with
        ⟨x, n, h1, h2, h3, h4⟩ | ⟨h1, h2⟩
      · exact ⟨_, h1, Or.inl ⟨x, n, rfl, Or.inr ⟨s', rfl, h2, h3⟩, h4⟩⟩
      · refine ⟨_, h1, Or.inr ⟨rfl, ?_⟩⟩
        rintro ⟨n, ⟨-, h3⟩ | ⟨s1, e, h3, h4⟩⟩
        · obtain ⟨d, hd⟩ := numeral_mem h3 (c := 'x') (by simp [plusAsZero])
          exact not_charDigit_x (by omega) _ hd
        · have : s' = s1 := by simpa using e
          subst this
          exact h2 ⟨h3, n, h4⟩
    · have hp : stripHexPrefix s = none := by
        unfold stripHexPrefix
        split
        · exact absurd ⟨_, rfl⟩ hx
        · rfl
      rcases parsed_iff t (Or.inl rfl) (fromStr_dec t dbg s ha hp) with
        ⟨x, n, h1, h2, h3, h4⟩ | ⟨h1, h2⟩
      · exact ⟨_, h1, Or.inl ⟨x, n, rfl, Or.inl ⟨h2, h3⟩, h4⟩⟩
      · refine ⟨_, h1, Or.inr ⟨rfl, ?_⟩⟩
        rintro ⟨n, ⟨h3, h4⟩ | ⟨s1, e, -⟩⟩
        · exact h2 ⟨h3, n, h4⟩
        · exact hx ⟨s1, e⟩
  · refine ⟨.error .invalidNumber, ?_, Or.inr ⟨rfl, ?_⟩⟩
    · push Not at ha
      obtain ⟨c, h1, h2⟩ := ha
      exact parse_rejects_non_ascii t dbg s c h1 h2
    · rintro ⟨n, ⟨-, h4⟩ | ⟨s1, rfl, -, h4⟩⟩
      · exact ha (ascii (by omega) h4)
      · refine ha fun c hc => ?_
        simp only [List.mem_cons] at hc
        rcases hc with rfl | rfl | hc
        · decide
        · decide
        · exact ascii (by omega) h4 c hc

/-- C27: without a plus sign, the texts accepted are the well-formed ones. -/
theorem accepted_iff_wellFormed (s : List Char) (n : Nat) (hs : '+' ∉ s) :
    Accepted t s n ↔ WellFormed s n := by
  have hnp : ∀ k (s : List Char), '+' ∉ s → PlusAt k s := fun k s h i hi =>
    absurd (List.mem_of_getElem? hi) h
  have key : ∀ s : List Char, '+' ∉ s → plusAsZero s = s := fun s h => map_plus_of h
  unfold Accepted WellFormed
  rw [key s hs]
  refine or_congr ⟨fun h => h.2, fun h => ⟨hnp _ _ hs, h⟩⟩ ?_
  refine exists_congr fun s' => and_congr_right fun e => ?_
  have hs' : '+' ∉ s' := by
    intro h; apply hs; rw [e]; simp [h]
  rw [key s' hs']
  exact ⟨fun h => h.2, fun h => ⟨hnp _ _ hs', h⟩⟩

/-- C27 in one statement: the code rejects every text that is not well-formed, except those with a
plus sign where a chunk begins. -/
theorem parse_not_wellFormed_accepted_iff (s : List Char) (hw : ¬ ∃ n, WellFormed s n) :
    (∃ x, fromStr t dbg s = .ok (.ok x)) ↔ '+' ∈ s ∧ ∃ n, Accepted t s n := by
  obtain ⟨r, h1, h2⟩ := parse_accepted_iff t dbg s
  constructor
  · rintro ⟨x, hx⟩
    rw [hx] at h1
    simp only [Except.ok.injEq] at h1
    subst h1
    rcases h2 with ⟨y, n, -, h, -⟩ | ⟨h, -⟩
    · refine ⟨?_, n, h⟩
      by_contra hs
      exact hw ⟨n, (accepted_iff_wellFormed t s n hs).mp h⟩
    · simp at h
  · rintro ⟨-, n, h⟩
    rcases h2 with ⟨y, m, rfl, -, -⟩ | ⟨-, h3⟩
    · exact ⟨y, h1⟩
    · exact absurd ⟨n, h⟩ h3

/-- `1+5` is accepted with decimal bytes (chunks of 2), where the sign begins a chunk. -/
example : Accepted (.dec .w8) "1+5".toList 105 := by
  refine Or.inl ⟨?_, [1, 0, 5], by simp [plusAsZero, CharDigit], by decide⟩
  intro i hi
  have : i = 1 := by
    have hl : i < 3 := (List.getElem?_eq_some_iff.mp hi).1
    rcases i with _ | _ | _ | i
    · simp at hi
    · rfl
    · simp at hi
    · omega
  subst this
  decide

/-- `+1` is accepted with decimal bytes, and `+12` is not: there the sign is alone in its chunk. -/
example (dbg : Bool) : fromStr (.dec .w8) dbg "+1".toList = .ok (.ok [1]) ∧
    fromStr (.dec .w8) dbg "+12".toList = .ok (.error .invalidNumber) := by
  cases dbg <;> decide +kernel

/-- No hexadecimal text with a plus sign is accepted with decimal bytes (chunks of 1). -/
example (s : List Char) (n : Nat) (h : '+' ∈ s) : ¬ Accepted (.dec .w8) ('0' :: 'x' :: s) n := by
  rintro (⟨-, h3⟩ | ⟨s1, e, h3, -⟩)
  · obtain ⟨d, hd⟩ := numeral_mem h3 (c := 'x') (by simp [plusAsZero])
    exact not_charDigit_x (by omega) _ hd
  · have : s = s1 := by simpa using e
    subst this
    obtain ⟨i, hi⟩ := List.getElem?_of_mem h
    have := (h3 i hi).1
    rw [show Nat.log 16 (DType.dec .w8).radix = 1 by decide +kernel] at this
    omega

end Babs.Props
