import Verif.Proofs.Format

/-!
# C25-C30: text
-/

namespace Babs.Props

open UBig

variable (t : DType) (dbg : Bool)

/-! ## Parsing -/

theorem noHexPrefix_of {s : List Char} {n : Nat} (h : Numeral 10 s n) : stripHexPrefix s = none := by
  unfold stripHexPrefix
  split
  · exfalso
    obtain ⟨ds, h1, -⟩ := h
    cases h1 with
    | cons _ h1 => cases h1 with
      | cons h1 _ => exact not_charDigit_x (by omega) _ h1
  · rfl

theorem parsed_numeral {base : Nat} (hb : base = 10 ∨ base = 16) {s : List Char} {n : Nat}
    {r : R (Res (List Nat))} (h : Numeral base s n) (hp : Parsed t base s r) :
    Returns r fun r => ∃ x, r = .ok x ∧ Rep t.radix x n := by
  have hk := (chunkOf_spec t hb).1
  obtain ⟨ds, h1, h2⟩ := numeral_chunks hk s.length s n (Nat.le_refl _) h
  rcases hp with ⟨es, h3, x, h4, h5⟩ | ⟨h3, -⟩
  · have h6 := chunks_numeral (base := base) (by omega) (by omega) _ _ _ (Nat.le_refl _) hk h1
    have h7 := chunks_numeral (base := base) (by omega) (by omega) _ _ _ (Nat.le_refl _) hk h3
    have h8 := h6.unique (by omega) h7
    exact ⟨_, h4, x, rfl, by rw [← h2, h8]; exact h5⟩
  · exact absurd ⟨ds, h1⟩ h3

/-- C25: a text of decimal digits, of any length, is parsed as the number it stands for. -/
theorem parse_decimal (s : List Char) (n : Nat) (h : Numeral 10 s n) :
    Returns (fromStr t dbg s) fun r => ∃ x, r = .ok x ∧ Rep t.radix x n :=
  parsed_numeral t (Or.inl rfl) h (fromStr_dec t dbg s (h.ascii (by omega)) (noHexPrefix_of h))

/-- C26: `0x` and a text of hexadecimal digits, of any length and in any letter case, is parsed as
the number it stands for. -/
theorem parse_hex (s : List Char) (n : Nat) (h : Numeral 16 s n) :
    Returns (fromStr t dbg ('0' :: 'x' :: s)) fun r => ∃ x, r = .ok x ∧ Rep t.radix x n :=
  parsed_numeral t (Or.inr rfl) h (fromStr_hex t dbg s (h.ascii (by omega)))

/-- The hypothesis of `parse_decimal` holds for every text of digits. -/
example : Numeral 10 "0012034".toList 12034 :=
  ⟨[0, 0, 1, 2, 0, 3, 4], by simp [CharDigit], by decide⟩

example : Numeral 16 "bEEf".toList 0xbeef := ⟨[11, 14, 14, 15], by simp [CharDigit], by decide⟩

/-- C27: parsing never panics; the result is a number in normal form, or `InvalidNumber`. -/
theorem parse_total (s : List Char) :
    Returns (fromStr t dbg s) fun r =>
      r = .error .invalidNumber ∨ ∃ x m, r = .ok x ∧ Rep t.radix x m := by
  by_cases ha : isAscii s = true
  · have hp : (∃ b s', Parsed t b s' (fromStr t dbg s)) := by
      have ha' := (isAscii_iff s).mp ha
      cases hs : stripHexPrefix s with
      | none => exact ⟨10, s, fromStr_dec t dbg s ha' hs⟩
      | some s' =>
        have : s = '0' :: 'x' :: s' := by
          unfold stripHexPrefix at hs
          split at hs
          · simp at hs; rw [hs]
          · simp at hs
        subst this
        exact ⟨16, s', fromStr_hex t dbg s' fun c hc => ha' c (by simp [hc])⟩
    obtain ⟨b, s', hp⟩ := hp
    rcases hp with ⟨_, _, x, h4, h5⟩ | ⟨_, h⟩
    · exact ⟨_, h4, Or.inr ⟨x, _, rfl, h5⟩⟩
    · exact ⟨_, h, Or.inl rfl⟩
  · refine ⟨.error .invalidNumber, ?_, Or.inl rfl⟩
    unfold fromStr
    simp [ha]

/-- C27: a text with a character that is not ASCII is rejected. -/
theorem parse_rejects_non_ascii (s : List Char) (c : Char) (hc : c ∈ s) (h : 128 ≤ c.toNat) :
    fromStr t dbg s = .ok (.error .invalidNumber) := by
  have : isAscii s = false := by
    rw [Bool.eq_false_iff]
    intro ha
    have := (isAscii_iff s).mp ha c hc
    omega
  unfold fromStr
  simp [this]

theorem numeral_mem {base : Nat} {s : List Char} {n : Nat} (h : Numeral base s n) {c : Char}
    (hc : c ∈ s) : ∃ d, CharDigit base c d := by
  obtain ⟨ds, h1, -⟩ := h
  induction h1 with
  | nil => simp at hc
  | cons a _ ih =>
    rcases List.mem_cons.mp hc with rfl | hc
    · exact ⟨_, a⟩
    · exact ih hc

theorem parsed_rejects {base : Nat} (hb : base = 10 ∨ base = 16) {s : List Char} {c : Char}
    {r : R (Res (List Nat))} (hc : c ∈ s) (hp : c ≠ '+') (hd : ∀ d, ¬ CharDigit base c d)
    (h : Parsed t base s r) : r = .ok (.error .invalidNumber) := by
  rcases h with ⟨ds, h1, -⟩ | ⟨-, h⟩
  · exfalso
    have hk := (chunkOf_spec t hb).1
    have h2 := chunks_numeral (base := base) (by omega) (by omega) _ _ _ (Nat.le_refl _) hk h1
    have h3 : c ∈ s.map plusToZero :=
      List.mem_map.mpr ⟨c, hc, by unfold plusToZero; rw [if_neg hp]⟩
    obtain ⟨d, h4⟩ := numeral_mem h2 h3
    exact hd d h4
  · exact h

/-- C27: a text without the hexadecimal prefix and with a character that is neither a decimal digit
nor a plus sign is rejected. -/
theorem parse_rejects_decimal (s : List Char) (c : Char) (hx : ∀ s', s ≠ '0' :: 'x' :: s')
    (hc : c ∈ s) (hp : c ≠ '+') (hd : ∀ d, ¬ CharDigit 10 c d) :
    fromStr t dbg s = .ok (.error .invalidNumber) := by
  by_cases ha : ∀ c ∈ s, c.toNat < 128
  · refine parsed_rejects t (Or.inl rfl) hc hp hd (fromStr_dec t dbg s ha ?_)
    unfold stripHexPrefix
    split
    · exact absurd rfl (hx _)
    · rfl
  · push Not at ha
    obtain ⟨c, h1, h2⟩ := ha
    exact parse_rejects_non_ascii t dbg s c h1 h2

/-- C27: a text with the hexadecimal prefix and after it a character that is neither a hexadecimal
digit nor a plus sign is rejected. -/
theorem parse_rejects_hex (s : List Char) (c : Char) (hc : c ∈ s) (hp : c ≠ '+')
    (hd : ∀ d, ¬ CharDigit 16 c d) :
    fromStr t dbg ('0' :: 'x' :: s) = .ok (.error .invalidNumber) := by
  by_cases ha : ∀ c ∈ s, c.toNat < 128
  · exact parsed_rejects t (Or.inr rfl) hc hp hd (fromStr_hex t dbg s ha)
  · push Not at ha
    obtain ⟨c, h1, h2⟩ := ha
    exact parse_rejects_non_ascii t dbg _ c (by simp [h1]) h2

/-- The texts C27 calls well-formed, and the numbers they stand for. -/
def WellFormed (s : List Char) (n : Nat) : Prop :=
  Numeral 10 s n ∨ ∃ s', s = '0' :: 'x' :: s' ∧ Numeral 16 s' n

theorem map_plus_of {s : List Char} (h : '+' ∉ s) : s.map plusToZero = s := by
  induction s with
  | nil => rfl
  | cons c s ih =>
    simp only [List.mem_cons, not_or] at h
    rw [List.map_cons, ih h.2]
    unfold plusToZero
    rw [if_neg (fun e => h.1 e.symm)]

/-- C27, for texts without a plus sign: a text is accepted if and only if it is well-formed, and the
result is the number it stands for.

Missing from the full property: texts with a plus sign (see `parse_accepts_plus`), and the empty
text, with or without prefix, which is not rejected (see `parse_accepts_empty`). -/
theorem parse_iff_partial (s : List Char) (hs : '+' ∉ s) :
    Returns (fromStr t dbg s) fun r =>
      (∃ x n, r = .ok x ∧ WellFormed s n ∧ Rep t.radix x n) ∨
        (r = .error .invalidNumber ∧ ¬ ∃ n, WellFormed s n) := by
  by_cases hw : ∃ n, WellFormed s n
  · obtain ⟨n, hw⟩ := hw
    rcases id hw with h | ⟨s', rfl, h⟩
    · obtain ⟨r, h1, x, h2, h3⟩ := parse_decimal t dbg s n h
      exact ⟨r, h1, Or.inl ⟨x, n, h2, hw, h3⟩⟩
    · obtain ⟨r, h1, x, h2, h3⟩ := parse_hex t dbg s' n h
      exact ⟨r, h1, Or.inl ⟨x, n, h2, hw, h3⟩⟩
  · refine ⟨.error .invalidNumber, ?_, Or.inr ⟨rfl, hw⟩⟩
    by_cases ha : ∀ c ∈ s, c.toNat < 128
    · by_cases hx : ∃ s', s = '0' :: 'x' :: s'
      · obtain ⟨s', rfl⟩ := hx
        rcases fromStr_hex t dbg s' (fun c hc => ha c (by simp [hc])) with ⟨ds, h1, -⟩ | ⟨-, h⟩
        · exfalso
          have hk := (chunkOf_spec t (Or.inr rfl : (16 : Nat) = 10 ∨ (16 : Nat) = 16)).1
          have h2 := chunks_numeral (base := 16) (by omega) (by omega) _ _ _ (Nat.le_refl _) hk h1
          rw [map_plus_of (by intro h; exact hs (by simp [h]))] at h2
          exact hw ⟨_, Or.inr ⟨s', rfl, h2⟩⟩
        · exact h
      · have hp : stripHexPrefix s = none := by
          unfold stripHexPrefix
          split
          · exact absurd ⟨_, rfl⟩ hx
          · rfl
        rcases fromStr_dec t dbg s ha hp with ⟨ds, h1, -⟩ | ⟨-, h⟩
        · exfalso
          have hk := (chunkOf_spec t (Or.inl rfl : (10 : Nat) = 10 ∨ (10 : Nat) = 16)).1
          have h2 := chunks_numeral (base := 10) (by omega) (by omega) _ _ _ (Nat.le_refl _) hk h1
          rw [map_plus_of hs] at h2
          exact hw ⟨_, Or.inl h2⟩
        · exact h
    · push Not at ha
      obtain ⟨c, h1, h2⟩ := ha
      exact parse_rejects_non_ascii t dbg s c h1 h2

/-- C27: whatever is accepted is well-formed once every plus sign is read as a zero, and the result
is the number it then stands for. -/
theorem parse_sound (s : List Char) (x : List Nat) (h : fromStr t dbg s = .ok (.ok x)) :
    ∃ n, WellFormed (s.map fun c => if c = '+' then '0' else c) n ∧ Rep t.radix x n := by
  have ha : ∀ c ∈ s, c.toNat < 128 := by
    by_contra ha
    push Not at ha
    obtain ⟨c, h1, h2⟩ := ha
    rw [parse_rejects_non_ascii t dbg s c h1 h2] at h
    simp at h
  by_cases hx : ∃ s', s = '0' :: 'x' :: s'
  · obtain ⟨s', rfl⟩ := hx
    rcases fromStr_hex t dbg s' (fun c hc => ha c (by simp [hc])) with ⟨ds, h1, z, h2, h3⟩ | ⟨-, h2⟩
    · have hk := (chunkOf_spec t (Or.inr rfl : (16 : Nat) = 10 ∨ (16 : Nat) = 16)).1
      have h4 := chunks_numeral (base := 16) (by omega) (by omega) _ _ _ (Nat.le_refl _) hk h1
      rw [h] at h2
      have : x = z := by simpa using h2
      subst this
      exact ⟨_, Or.inr ⟨_, rfl, h4⟩, h3⟩
    · rw [h] at h2; simp at h2
  · have hp : stripHexPrefix s = none := by
      unfold stripHexPrefix
      split
      · exact absurd ⟨_, rfl⟩ hx
      · rfl
    rcases fromStr_dec t dbg s ha hp with ⟨ds, h1, z, h2, h3⟩ | ⟨-, h2⟩
    · have hk := (chunkOf_spec t (Or.inl rfl : (10 : Nat) = 10 ∨ (10 : Nat) = 16)).1
      have h4 := chunks_numeral (base := 10) (by omega) (by omega) _ _ _ (Nat.le_refl _) hk h1
      rw [h] at h2
      have : x = z := by simpa using h2
      subst this
      exact ⟨_, Or.inl h4, h3⟩
    · rw [h] at h2; simp at h2

/-- C27 is false: for every digit type there is a text with a plus sign between digits that is
accepted. -/
theorem parse_accepts_plus :
    ∃ s x, fromStr t dbg ('1' :: '+' :: s) = .ok (.ok x) ∧ ∀ c ∈ s, c = '5' := by
  rcases t with w | w <;> cases w <;> cases dbg
  all_goals first
    | exact ⟨List.replicate 1 '5', [105], by decide +kernel, by simp⟩
    | exact ⟨List.replicate 3 '5', [10555], by decide +kernel, by simp⟩
    | exact ⟨List.replicate 8 '5', [1055555555], by decide +kernel, by simp⟩
    | exact ⟨List.replicate 18 '5', [10555555555555555555], by decide +kernel, by simp⟩
    | exact ⟨List.replicate 1 '5', [5, 1], by decide +kernel, by simp⟩
    | exact ⟨List.replicate 3 '5', [555, 1], by decide +kernel, by simp⟩
    | exact ⟨List.replicate 8 '5', [55555555, 1], by decide +kernel, by simp⟩
    | exact ⟨List.replicate 18 '5', [555555555555555555, 1], by decide +kernel, by simp⟩

/-- C27: the example of DESIGN.md: `"1+5"` is read as 105. -/
theorem parse_plus_is_zero : fromStr (.dec .w8) dbg "1+5".toList = .ok (.ok [5, 1]) := by
  cases dbg <;> decide +kernel

/-- C27 is false: the empty text, and the prefix alone, are read as zero. -/
theorem parse_accepts_empty :
    fromStr t dbg [] = .ok (.ok []) ∧ fromStr t dbg "0x".toList = .ok (.ok []) := by
  rcases t with w | w <;> cases w <;> cases dbg <;> decide +kernel

/-! ## Formatting -/

/-- C28, C29: the standard notation of a number is unique. -/
theorem standard_unique {base : Nat} (hb : 2 ≤ base) (u : Bool) (s s' : List Char) (n : Nat)
    (h : Standard base u s n) (h' : Standard base u s' n) : s = s' := by
  obtain ⟨ds, h1, h2, h3, h4⟩ := h
  obtain ⟨es, k1, k2, k3, k4⟩ := h'
  have hd : Digs base ds.reverse := digs_reverse.mpr (by
    clear h2 h3 h4
    induction h1 with
    | nil => exact digs_nil _
    | cons a _ ih => rw [digs_cons]; exact ⟨a.1, ih⟩)
  have he : Digs base es.reverse := digs_reverse.mpr (by
    clear k2 k3 k4
    induction k1 with
    | nil => exact digs_nil _
    | cons a _ ih => rw [digs_cons]; exact ⟨a.1, ih⟩)
  have e : ds = es := by
    by_cases hz : ds.head? = some 0
    · have e1 := h4 hz
      subst e1
      have hn : n = 0 := by rw [← h2]; simp
      by_cases kz : es.head? = some 0
      · exact (k4 kz).symm
      · exfalso
        have hc : Canon es.reverse := by unfold Canon; rw [List.getLast?_reverse]; exact kz
        have := (hc.val_eq_zero (b := base) (by omega)).mp (by rw [k2, hn])
        exact k3 (by simpa using this)
    · have hc : Canon ds.reverse := by unfold Canon; rw [List.getLast?_reverse]; exact hz
      have r1 : Rep base ds.reverse n := ⟨hd, hc, h2⟩
      by_cases kz : es.head? = some 0
      · exfalso
        have e1 := k4 kz
        subst e1
        have hn : n = 0 := by rw [← k2]; simp
        have := (hc.val_eq_zero (b := base) (by omega)).mp (by rw [h2, hn])
        exact h3 (by simpa using this)
      · have kc : Canon es.reverse := by unfold Canon; rw [List.getLast?_reverse]; exact kz
        have r2 : Rep base es.reverse n := ⟨he, kc, k2⟩
        have := r1.unique r2
        simpa using this
  subst e
  clear h2 h3 h4 k2 k3 k4 hd he
  induction h1 generalizing s' with
  | nil => cases k1; rfl
  | cons a _ ih =>
    cases k1 with
    | cons b k1 =>
      have := a.2.symm.trans b.2
      have : _ = _ := Option.some.inj this
      rw [this, ih _ k1]

theorem formatted_plain {f : FmtFlags} (hw : f.width = none) {pre s out : List Char}
    (h : Formatted f pre s out) :
    out = (if f.signPlus then ['+'] else []) ++ (if f.alternate then pre else []) ++ s := by
  unfold Formatted at h
  simp only [hw, Option.getD_none] at h
  obtain ⟨a, z, b, h1, h2, -, -⟩ := h
  rw [h1] at h2
  simp only [List.length_append, List.length_replicate] at h2
  have ha : a = 0 := by omega
  have hz : z = 0 := by omega
  have hb : b = 0 := by omega
  rw [h1, ha, hz, hb]
  simp

/-- C28: a decimal number is displayed in standard notation, with the flags respected. -/
theorem display_decimal (w : Width) (f : FmtFlags) (x : List Nat) (n : Nat)
    (hx : Rep (DType.dec w).radix x n) :
    Returns (display (.dec w) dbg f x) fun out =>
      ∃ s, Standard 10 false s n ∧ Formatted f [] s out :=
  ⟨_, rfl, fmtDec_formatted w f x n hx⟩

/-- C28: `to_string` gives the standard notation, and parsing it gives the same number back; parsing
it as any other type gives the number with the same value. -/
theorem display_decimal_roundtrip (w : Width) (x : List Nat) (n : Nat)
    (hx : Rep (DType.dec w).radix x n) :
    Returns (display (.dec w) dbg {} x) fun out =>
      Standard 10 false out n ∧ fromStr (.dec w) dbg out = .ok (.ok x) ∧
        Returns (fromStr t dbg out) fun r => ∃ y, r = .ok y ∧ Rep t.radix y n := by
  obtain ⟨out, h1, s, h2, h3⟩ := display_decimal dbg w {} x n hx
  have e := formatted_plain rfl h3
  have e : out = s := by simpa using e
  subst e
  refine ⟨out, h1, h2, ?_, parse_decimal t dbg out n h2.numeral⟩
  obtain ⟨r, h4, y, rfl, h6⟩ := parse_decimal (.dec w) dbg out n h2.numeral
  rw [h4, h6.unique hx]

/-- C29: a binary number is formatted in standard hexadecimal notation, in either letter case, with
the flags respected. -/
theorem hex_standard (w : Width) (u : Bool) (f : FmtFlags) (x : List Nat) (n : Nat)
    (hx : Rep (DType.bin w).radix x n) :
    ∃ s, Standard 16 u s n ∧ Formatted f ['0', 'x'] s (fmtHex w u f x) :=
  fmtHex_formatted w u f x n hx

/-- C29: `{:#x}` and `{:#X}` give the prefix and the standard notation; parsing it gives the same
number back, and with any other type the number with the same value.  `{:x}` and `{:X}` are the same
without the prefix. -/
theorem hex_roundtrip (w : Width) (u : Bool) (x : List Nat) (n : Nat)
    (hx : Rep (DType.bin w).radix x n) :
    ∃ s, fmtHex w u { alternate := true } x = '0' :: 'x' :: s ∧ fmtHex w u {} x = s ∧
      Standard 16 u s n ∧ fromStr (.bin w) dbg ('0' :: 'x' :: s) = .ok (.ok x) ∧
        Returns (fromStr t dbg ('0' :: 'x' :: s)) fun r => ∃ y, r = .ok y ∧ Rep t.radix y n := by
  obtain ⟨s, h2, h3⟩ := hex_standard w u { alternate := true } x n hx
  obtain ⟨s', k2, k3⟩ := hex_standard w u {} x n hx
  have e := formatted_plain rfl h3
  have e' := formatted_plain rfl k3
  have e2 := standard_unique (by omega) u s' s n k2 h2
  subst e2
  refine ⟨s', by simpa using e, by simpa using e', h2, ?_, parse_hex t dbg s' n h2.numeral⟩
  obtain ⟨r, h4, y, rfl, h6⟩ := parse_hex (.bin w) dbg s' n h2.numeral
  rw [h4, h6.unique hx]

example : Rep (DType.dec .w8).radix [5, 0, 12] 120005 := by decide
example : (display (.dec .w8) true {} [5, 0, 12]) = .ok "120005".toList := by decide +kernel
example : (display (.dec .w8) true { width := some 9, align := some .center, fill := '*' } [5, 0, 12])
    = .ok "*120005**".toList := by decide +kernel
example : fmtHex .w8 true { alternate := true, zeroPad := true, width := some 10 } [0xa, 0, 0xbc]
    = "0x00BC000A".toList := by decide +kernel

/-! ## Conversion to decimal -/

/-- C30, for numbers of fewer than 16 digits: the conversion to decimal is exact.

Missing from the full property: longer numbers, for which it is not true (see `toDecimal_wrong`). -/
theorem toDecimal_exact_partial (w : Width) (x : List Nat) (m : Nat)
    (hx : Rep (DType.bin w).radix x m) (hl : x.length < 16) :
    Returns (toDecimal dbg w x) fun z => Rep (DType.dec w).radix z m := by
  obtain ⟨z, h1, h2⟩ := buildDecimal_small dbg w [] x.length x m hx hl
  refine ⟨z, ?_, h2⟩
  unfold toDecimal
  rw [if_pos (by simpa [toDecDivCutoff] using hl), h1]

/-- C30: a binary number of fewer than 16 digits is displayed in standard decimal notation. -/
theorem display_binary_partial (w : Width) (f : FmtFlags) (x : List Nat) (m : Nat)
    (hx : Rep (DType.bin w).radix x m) (hl : x.length < 16) :
    Returns (display (.bin w) dbg f x) fun out =>
      ∃ s, Standard 10 false s m ∧ Formatted f [] s out := by
  obtain ⟨z, h1, h2⟩ := toDecimal_exact_partial dbg w x m hx hl
  refine ⟨fmtDec w f z, ?_, fmtDec_formatted w f z m h2⟩
  unfold display
  simp only [h1, ok_bind]
  rfl

/-- C30: numbers of fewer than 16 digits survive display and parsing. -/
theorem display_binary_roundtrip_partial (w : Width) (x : List Nat) (m : Nat)
    (hx : Rep (DType.bin w).radix x m) (hl : x.length < 16) :
    Returns (display (.bin w) dbg {} x) fun out => fromStr (.bin w) dbg out = .ok (.ok x) := by
  obtain ⟨out, h1, s, h2, h3⟩ := display_binary_partial dbg w {} x m hx hl
  have e := formatted_plain rfl h3
  have e : out = s := by simpa using e
  subst e
  refine ⟨out, h1, ?_⟩
  obtain ⟨r, h4, y, rfl, h6⟩ := parse_decimal (.bin w) dbg out m h2.numeral
  rw [h4, h6.unique hx]

example : Rep (DType.bin .w8).radix (List.replicate 15 200)
    (200 * (256 ^ 15 - 1) / 255) ∧ (List.replicate 15 200).length < 16 := by decide

/-- C30 is false: for each of the four binary types there is a number of 16 digits, a power of ten,
that is converted to a different number. -/
theorem toDecimal_wrong (w : Width) :
    ∃ x m, Rep (DType.bin w).radix x m ∧ x.length = 16 ∧
      Returns (toDecimal dbg w x) fun z =>
        Rep (DType.dec w).radix z (val (DType.dec w).radix z) ∧ val (DType.dec w).radix z ≠ m := by
  cases w
  · refine ⟨digitsLE (2 ^ 8) 20 (10 ^ 37), 10 ^ 37, by decide +kernel, by decide +kernel,
      [0, 0, 0, 0, 0, 0, 0, 0, 0, 0, 10], ?_, by decide +kernel⟩
    cases dbg <;> decide +kernel
  · refine ⟨digitsLE (2 ^ 16) 20 (10 ^ 73), 10 ^ 73, by decide +kernel, by decide +kernel,
      [0, 0, 0, 0, 0, 0, 0, 0, 0, 0, 10], ?_, by decide +kernel⟩
    cases dbg <;> decide +kernel
  · refine ⟨digitsLE (2 ^ 32) 20 (10 ^ 145), 10 ^ 145, by decide +kernel, by decide +kernel,
      [0, 0, 0, 0, 0, 0, 0, 0, 10], ?_, by decide +kernel⟩
    cases dbg <;> decide +kernel
  · refine ⟨digitsLE (2 ^ 64) 20 (10 ^ 304), 10 ^ 304, by decide +kernel, by decide +kernel,
      [0, 0, 0, 0, 0, 0, 0, 0, 1], ?_, by decide +kernel⟩
    cases dbg <;> decide +kernel

/-- C30 is false: the 8-bit number 10^37 is displayed as 10^21. -/
theorem display_binary_wrong :
    display (.bin .w8) dbg {} (digitsLE (2 ^ 8) 20 (10 ^ 37))
      = .ok "1000000000000000000000".toList := by
  cases dbg <;> decide +kernel

end Babs.Props
