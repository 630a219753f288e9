import Verif.Model.UBigAdd
import Verif.Proofs.AddSub

/-!
# Helper lemmas: addition and subtraction of big numbers, digits and words
-/

namespace Babs

variable {D : DigitOps} {B : Nat}

theorem normalise_spec (l : List Nat) :
    ∃ k, normalise l = .ok (l.take k) ∧ l = l.take k ++ List.replicate (l.length - k) 0 ∧
      Canon (l.take k) := by
  obtain ⟨nd, h1, h2, h3, h4⟩ := dropLeadingZeros_spec l l.length (le_refl _)
  rw [List.take_length] at h3
  exact ⟨nd, by simp [normalise, h1], h3, h4⟩

theorem normalise_rep {l : List Nat} (hl : Digs B l) :
    ∃ z, normalise l = .ok z ∧ Rep B z (val B l) ∧ z.length ≤ l.length := by
  obtain ⟨k, h1, h2, h3⟩ := normalise_spec l
  refine ⟨_, h1, ⟨hl.take k, h3, ?_⟩, by simp⟩
  conv_rhs => rw [h2]
  simp

theorem onSlice_full {α : Type} {l : List Nat} {f : List Nat → R (List Nat × α)} :
    onSlice l 0 l.length f = f l := by
  have := onSlice_append (p := []) (s := l) (q := []) (a := 0) (b := l.length) (f := f) rfl (by simp)
  simp only [List.nil_append, List.append_nil] at this
  rw [this]
  cases f l <;> rfl

theorem onSlice_tail {α : Type} {d : Nat} {l : List Nat} {f : List Nat → R (List Nat × α)} :
    onSlice (d :: l) 1 (d :: l).length f = (do let r ← f l; return (d :: r.1, r.2)) := by
  have := onSlice_append (p := [d]) (s := l) (q := []) (a := 1) (b := (d :: l).length) (f := f) rfl
    (by simp; omega)
  simp only [List.append_nil, List.singleton_append] at this
  rw [this]

theorem val_take_zeros {r : List Nat} {nd k : Nat} (h : r = r.take nd ++ List.replicate k 0) :
    val B (r.take nd) = val B r := by
  conv_rhs => rw [h]
  simp

/-- Normal form of a sum that was formed from parts with a carry. -/
theorem canon_of_max {z x y : List Nat} (hB : 0 < B) (hz : Digs B z) (cx : Canon x) (cy : Canon y)
    (hv : val B x + val B y ≤ val B z) (hl : z.length ≤ max x.length y.length) : Canon z := by
  apply Canon.of_ge hz
  intro hne
  have hzl : 0 < z.length := List.length_pos_iff.mpr hne
  rcases Nat.le_total x.length y.length with h | h
  · have hy : y ≠ [] := by rintro rfl; simp at h; simp [h] at hl; contradiction
    have := cy.ge hB hy
    have h2 : B ^ (z.length - 1) ≤ B ^ (y.length - 1) := Nat.pow_le_pow_right hB (by omega)
    omega
  · have hx : x ≠ [] := by rintro rfl; simp at h; simp [h] at hl; contradiction
    have := cx.ge hB hx
    have h2 : B ^ (z.length - 1) ≤ B ^ (x.length - 1) := Nat.pow_le_pow_right hB (by omega)
    omega

theorem addBig_spec (L : Lawful D B) (x y : List Nat) (hx : Digs B x) (hy : Digs B y) :
    ∃ z, addBig D x y = .ok z ∧ Digs B z ∧ val B z = val B x + val B y ∧
      (Canon x → Canon y → Canon z) ∧ z.length ≤ max x.length y.length + 1 := by
  have hB := L.base
  have finish : ∀ (r : List Nat) (c : Bool), r.length = max x.length y.length → Digs B r →
      val B r + B ^ (max x.length y.length) * c.toNat = val B x + val B y →
      Digs B (if c then r ++ [1] else r) ∧ val B (if c then r ++ [1] else r) = val B x + val B y ∧
      (Canon x → Canon y → Canon (if c then r ++ [1] else r)) ∧
      (if c then r ++ [1] else r).length ≤ max x.length y.length + 1 := by
    intro r c h1 h2 h3
    cases c with
    | true =>
      simp only [if_true]
      refine ⟨by simp [h2]; omega, ?_, fun _ _ => canon_snoc.mpr (by omega), by simp [h1]⟩
      rw [val_snoc, h1]; simpa using h3
    | false =>
      simp only [Bool.false_eq_true, if_false]
      refine ⟨h2, by simpa using h3, fun cx cy => ?_, by omega⟩
      exact canon_of_max L.pos h2 cx cy (by simp at h3; omega) (by omega)
  unfold addBig addAtOffset
  simp only [Nat.le_zero_eq, Nat.sub_zero, Nat.zero_sub, List.replicate_zero, List.append_nil]
  by_cases h0 : x.length = 0
  · have : x = [] := List.eq_nil_of_length_eq_zero h0
    subst this
    exact ⟨y, by simp, hy, by simp, fun _ c => c, by simp⟩
  · rw [if_neg h0]
    by_cases hle : y.length ≤ x.length
    · obtain ⟨r, c, e1, e2, e3, e4⟩ := addAssignBig_spec L x y hx hy hle
      rw [if_pos hle, onSlice_full, e1, ok_bind]
      have hm : max x.length y.length = x.length := by omega
      exact ⟨_, rfl, finish r c (by omega) e3 (by rw [hm]; exact e4)⟩
    · rw [if_neg hle]
      have hlen : (x ++ y.drop x.length).length = y.length := by simp; omega
      obtain ⟨r, c, e1, e2, e3, e4⟩ := addAssignBig_spec L (x ++ y.drop x.length)
        (y.take x.length) (by simp [hx, hy.drop]) (hy.take _) (by simp)
      rw [onSlice_full, e1, ok_bind]
      have hm : max x.length y.length = y.length := by omega
      have hv := val_take_add_drop B y x.length (by omega)
      rw [hlen, val_append] at e4
      exact ⟨_, rfl, finish r c (by omega) e3 (by rw [hm]; omega)⟩

theorem subBig_spec (L : Lawful D B) (x y : List Nat) (hx : Digs B x) (hy : Digs B y)
    (hlen : y.length ≤ x.length) :
    (val B x < val B y ∧ subBig D x y = .error .explicit) ∨
    (val B y ≤ val B x ∧ ∃ z, subBig D x y = .ok z ∧ Digs B z ∧ val B z + val B y = val B x ∧
      z.length ≤ x.length ∧
      (Canon x → (Canon z ↔ ¬ (x.length = y.length + 1 ∧
        val B x < val B y + B ^ (y.length - 1))))) := by
  obtain ⟨r, res, h1, h2, h3, h4⟩ := subAssignBig_spec L x y hx hy hlen
  unfold subBig subAtOffset
  rw [if_neg (by omega), onSlice_full, h1]
  rcases h4 with ⟨a1, a2, a3⟩ | ⟨a1, nd, a2, a3, a4, a5, a6, a7⟩
  · left
    refine ⟨a1, ?_⟩
    rw [a2]; rfl
  · right
    refine ⟨a1, r.take nd, ?_, h3.take nd, ?_, by simp; omega, ?_⟩
    · rw [a2]; rfl
    · rw [val_take_zeros a5]; exact a4
    · intro cx
      constructor
      · rintro cz ⟨b1, b2⟩
        have b3 := a7 (by omega) cx
        have hlz : (r.take nd).length = nd := by simp; omega
        have hBpos := L.pos
        have hv := val_take_zeros (B := B) a5
        have hy0 : 0 < y.length := by
          by_contra h
          have : y = [] := List.eq_nil_of_length_eq_zero (by omega)
          subst this
          have := cx.ge hBpos (by rintro rfl; simp at b1)
          simp at b1 b2
          rw [b1] at this
          simp at this; omega
        have hne : r.take nd ≠ [] := by
          intro h; rw [h] at hlz; simp at hlz; omega
        have b4 := cz.ge hBpos hne
        rw [hlz] at b4
        have b5 : B ^ (y.length - 1) ≤ B ^ (nd - 1) := Nat.pow_le_pow_right hBpos (by omega)
        omega
      · intro hcon
        apply a6
        rcases Nat.eq_or_lt_of_le hlen with h | h
        · left; omega
        · right
          refine ⟨cx, fun b1 => ?_⟩
          right
          by_contra hlt
          exact hcon ⟨b1, by omega⟩

theorem subBig_short {x y : List Nat} (h : x.length < y.length) :
    subBig D x y = .error .explicit := by
  unfold subBig subAtOffset
  rw [if_neg (by omega), onSlice_full, subAssignBig_short h]
  rfl

/-! ## Digits -/

theorem addDigit_spec (L : Lawful D B) (x : List Nat) (d : Nat) (hx : Digs B x) (hd : d < B) :
    ∃ z, addDigit D x d = .ok z ∧ Digs B z ∧ val B z = val B x + d ∧ (Canon x → Canon z) := by
  obtain ⟨r, c, h1, h2, h3, h4, h5⟩ := addAssignDigit_spec L x d hx hd
  unfold addDigit
  rw [h1, ok_bind]
  cases c with
  | some e =>
    have := h4 e rfl
    refine ⟨r ++ [e], rfl, by simp [h3]; omega, ?_, fun _ => canon_snoc.mpr (by omega)⟩
    rw [val_snoc, h2]; simpa using h5
  | none =>
    refine ⟨r, rfl, h3, by simpa using h5, fun cx => ?_⟩
    simp at h5
    exact canon_of_max (x := x) (y := []) L.pos h3 cx canon_nil (by simp; omega) (by simp; omega)

theorem subAssignDigit_spec (L : Lawful D B) (x : List Nat) (d : Nat) (hx : Digs B x)
    (hd : d < B) :
    ∃ r res, subAssignDigit D x d = .ok (r, res) ∧ r.length = x.length ∧ Digs B r ∧
    ((val B x < d ∧ res = .error .underflow) ∨
    (d ≤ val B x ∧ ∃ nd, res = .ok nd ∧ nd ≤ x.length ∧ x.length ≤ nd + 1 ∧ (x ≠ [] → 0 < nd) ∧
      val B (r.take nd) + d = val B x ∧
      (Canon x → (Canon (r.take nd) ↔ ¬ (d ≠ 0 ∧ val B x = d))))) := by
  have hBpos := L.pos
  unfold subAssignDigit
  by_cases h0 : d = 0
  · refine ⟨x, .ok x.length, by simp [h0], rfl, hx, Or.inr ⟨by omega, x.length, rfl, le_refl _,
      by omega, fun h => List.length_pos_iff.mpr h, by simp [h0], fun cx => by simp [cx, h0]⟩⟩
  · rw [if_neg h0]
    cases x with
    | nil => exact ⟨[], _, rfl, rfl, hx, Or.inl ⟨by simp; omega, rfl⟩⟩
    | cons a as =>
      have hx' := hx
      rw [digs_cons] at hx
      obtain ⟨e, c, h1, h2, -, h4⟩ := subCarry_step L a d false hx.1 hd trivial
      have h5 : e + d = a + B * c.toNat := by
        simp only [cvB, Bool.toNat_false] at h4
        have : (e : ℤ) + d = a + B * c.toNat := by push_cast at h4; linarith
        exact_mod_cast this
      simp only [h1, ok_bind, decAssign]
      cases c with
      | false =>
        simp at h5
        refine ⟨e :: as, .ok (a :: as).length, rfl, by simp, by simp [h2, hx.2],
          Or.inr ⟨by simp; omega, _, rfl, le_refl _, by omega, by simp, ?_, ?_⟩⟩
        · rw [List.take_of_length_le (by simp)]; simp; omega
        · intro cx
          rw [List.take_of_length_le (by simp)]
          cases as with
          | nil =>
            rw [canon_singleton]
            simp
            omega
          | cons f fs =>
            rw [canon_cons_cons] at cx ⊢
            simp only [cx, true_iff, not_and]
            intro _
            have hne : (f :: fs) ≠ [] := by simp
            have h6 := cx.pos hBpos hne
            have h7 : B * 1 ≤ B * val B (f :: fs) := Nat.mul_le_mul_left _ h6
            rw [val_cons]
            omega
      | true =>
        simp only [Bool.toNat_true, Nat.mul_one] at h5
        obtain ⟨r, res, f1, f2, f3, f4⟩ := decGo_spec L as.length as hx.2 (le_refl _)
        simp only [if_true, f1, ok_bind]
        have he : 0 < e := by omega
        rcases f4 with ⟨g1, g2, g3⟩ | ⟨g1, g2, g3, g4⟩
        · subst g2
          exact ⟨e :: r, _, rfl, by simp [f2], by simp [h2, f3], Or.inl ⟨by simp [g1]; omega, rfl⟩⟩
        · have h7 : B * 1 ≤ B * val B as := Nat.mul_le_mul_left _ g1
          have h8 : B * val B as = B * val B r + B := by rw [← g2]; ring
          have hasl : 0 < as.length := by
            cases as with
            | nil => simp at g1
            | cons => simp
          have hne : ¬ (d ≠ 0 ∧ val B (a :: as) = d) := by rw [val_cons]; omega
          rcases g3 with g3 | ⟨g3, g5, g6, g7⟩
          · subst g3
            have ht : (e :: r).take (1 + as.length) = e :: r :=
              List.take_of_length_le (by simp; omega)
            refine ⟨e :: r, .ok (1 + as.length), rfl, by simp [f2], by simp [h2, f3],
              Or.inr ⟨by rw [val_cons]; omega, _, rfl, by simp; omega,
              by simp, by omega, ?_, ?_⟩⟩
            · rw [ht]; simp only [val_cons]; omega
            · intro cx
              rw [ht]
              simp only [hne, not_false_iff, iff_true]
              cases as with
              | nil => simp at hasl
              | cons f fs =>
                have c2 := g4 rfl (canon_cons_cons.mp cx)
                obtain ⟨u, us, rfl⟩ : ∃ u us, r = u :: us := by
                  cases r with
                  | nil => simp at f2
                  | cons u us => exact ⟨u, us, rfl⟩
                exact canon_cons_cons.mpr c2
          · subst g3
            have ht : (e :: r).take (1 + (as.length - 1)) = e :: r.take (as.length - 1) := by
              rw [Nat.add_comm, List.take_succ_cons]
            have hr : r = r.take (as.length - 1) ++ [0] := by
              conv_lhs => rw [← List.take_append_drop (as.length - 1) r, g6]
            have hv : val B (r.take (as.length - 1)) = val B r := by
              conv_rhs => rw [hr]
              rw [val_snoc]; simp
            refine ⟨e :: r, .ok (1 + (as.length - 1)), rfl, by simp [f2], by simp [h2, f3],
              Or.inr ⟨by rw [val_cons]; omega, _, rfl, by simp; omega,
              by simp; omega, by omega, ?_, ?_⟩⟩
            · rw [ht]; simp only [val_cons, hv]; omega
            · intro _
              rw [ht]
              simp only [hne, not_false_iff, iff_true]
              apply Canon.of_ge (b := B) (by simp [h2, f3.take])
              intro _
              rw [val_cons, hv]
              have hl : (e :: r.take (as.length - 1)).length - 1 = as.length - 1 := by simp; omega
              rw [hl, ← g7]
              have : val B r ≤ B * val B r := Nat.le_mul_of_pos_left _ hBpos
              omega

theorem subDigit_spec (L : Lawful D B) (x : List Nat) (d : Nat) (hx : Digs B x) (hd : d < B) :
    (val B x < d ∧ subDigit D x d = .error .explicit) ∨
    (d ≤ val B x ∧ ∃ z, subDigit D x d = .ok z ∧ Digs B z ∧ val B z + d = val B x ∧
      z.length ≤ x.length ∧ x.length ≤ z.length + 1 ∧ (x ≠ [] → z ≠ []) ∧
      (Canon x → (Canon z ↔ ¬ (d ≠ 0 ∧ val B x = d)))) := by
  obtain ⟨r, res, h1, h2, h3, h4⟩ := subAssignDigit_spec L x d hx hd
  unfold subDigit
  rw [h1]
  rcases h4 with ⟨a, rfl⟩ | ⟨a, nd, rfl, b1, b2, b3, b4, b5⟩
  · exact Or.inl ⟨a, rfl⟩
  · refine Or.inr ⟨a, r.take nd, rfl, h3.take _, b4, by simp; omega, by simp; omega, ?_, b5⟩
    intro hne
    have := b3 hne
    have : 0 < x.length := List.length_pos_iff.mpr hne
    rw [← List.length_pos_iff]
    simp; omega

/-! ## Words of decimal types -/

theorem addWordDec_spec (L : Lawful D B) (x : List Nat) (n : Nat) (hx : Digs B x)
    (hn : n < B * B) :
    ∃ z, addWordDec D B x n = .ok z ∧ Digs B z ∧ val B z = val B x + n ∧
      (Canon x → Canon z) := by
  unfold addWordDec
  by_cases h : n < B
  · rw [if_pos h]; exact addDigit_spec L x n hx h
  · rw [if_neg h]
    have hBpos := L.pos
    have hlow : n % B < B := Nat.mod_lt _ hBpos
    have hhigh : n / B < B := by rw [Nat.div_lt_iff_lt_mul hBpos]; exact hn
    have hhigh0 : 0 < n / B := Nat.div_pos (by omega) hBpos
    have hdm := Nat.mod_add_div n B
    obtain ⟨y, e1, e2, e3, e4⟩ := addDigit_spec L x (n % B) hx hlow
    simp only [e1, ok_bind]
    obtain ⟨d, ds, hd⟩ : ∃ d ds, (if y = [] then [0] else y) = d :: ds := by
      cases y with
      | nil => exact ⟨0, [], rfl⟩
      | cons u us => exact ⟨u, us, by simp⟩
    have hdd : Digs B (d :: ds) := by
      rw [← hd]; split
      · simp [hBpos]
      · exact e2
    have hdv : val B (d :: ds) = val B y := by
      rw [← hd]; split
      · subst y; simp
      · rfl
    have hdc : Canon x → ds ≠ [] → Canon (d :: ds) := by
      intro cx hne
      by_cases hy : y = []
      · rw [if_pos hy] at hd
        injection hd with _ hd2
        exact absurd hd2.symm hne
      · rw [if_neg hy] at hd; rw [← hd]; exact e4 cx
    have hdd' := hdd
    rw [digs_cons] at hdd
    obtain ⟨r, c, f1, f2, f3, f4, f5⟩ := addAssignDigit_spec L ds (n / B) hdd.2 hhigh
    rw [hd, onSlice_tail, f1]
    simp only [ok_bind, pure_eq_ok]
    have hmul : B * (val B r + B ^ ds.length * c.getD 0) = B * (val B ds + n / B) := by rw [f5]
    have e5 : d + B * val B ds = val B x + n % B := by rw [← e3, ← hdv, val_cons]
    cases c with
    | some e =>
      have := f4 e rfl
      refine ⟨d :: r ++ [e], rfl, by simp [hdd.1, f3]; omega, ?_, fun _ => canon_snoc.mpr (by omega)⟩
      rw [val_snoc, val_cons]
      simp only [List.length_cons, f2, pow_succ, Option.getD_some] at hmul ⊢
      linarith
    | none =>
      refine ⟨d :: r, rfl, by simp [hdd.1, f3], ?_, fun cx => ?_⟩
      · rw [val_cons]; simp only [Option.getD_none, Nat.mul_zero, Nat.add_zero] at hmul; linarith
      · simp at f5
        have hne : ds ≠ [] := by
          rintro rfl
          simp at f2; subst f2; simp at f5; omega
        exact canon_of_max (x := d :: ds) (y := []) hBpos (by simp [hdd.1, f3]) (hdc cx hne) canon_nil
          (by
            have : B * val B ds ≤ B * val B r := Nat.mul_le_mul_left _ (by omega)
            simp; omega) (by simp [f2])

/-- Decimal subtraction of a word of two digits.  The code truncates the result by one digit too
many; the result is right exactly if it has at most one digit. -/
theorem subWordDec_spec (L : Lawful D B) (x : List Nat) (n : Nat) (hx : Digs B x) (cx : Canon x)
    (hn : n < B * B) (hnB : B ≤ n) :
    (val B x < n ∧ (∃ p, subWordDec D B x n = .error p ∧ (p = .explicit ∨ (p = .index ∧ x = [])))) ∨
    (n ≤ val B x ∧ ∃ z, subWordDec D B x n = .ok z ∧ Digs B z ∧
      (val B z + n = val B x ↔ val B x < n + B)) := by
  unfold subWordDec
  rw [if_neg (by omega)]
  have hBpos := L.pos
  have hlow : n % B < B := Nat.mod_lt _ hBpos
  have hhigh : n / B < B := by rw [Nat.div_lt_iff_lt_mul hBpos]; exact hn
  have hhigh0 : 0 < n / B := Nat.div_pos hnB hBpos
  have hdm := Nat.mod_add_div n B
  simp only
  have hle : n % B ≤ n := Nat.mod_le _ _
  have hmul1 : B * 1 ≤ B * (n / B) := Nat.mul_le_mul_left _ hhigh0
  rcases subDigit_spec L x (n % B) hx hlow with ⟨a1, a2⟩ | ⟨a1, y, a2, a3, a4, a5, a5', a7, a6⟩
  · left
    exact ⟨by omega, .explicit, by rw [a2]; rfl, Or.inl rfl⟩
  · rw [a2]
    simp only [ok_bind]
    cases y with
    | nil =>
      left
      simp at a4
      have hx0 : x = [] := by
        by_contra hne
        exact a7 hne rfl
      subst hx0
      refine ⟨by simp; omega, .index, rfl, Or.inr ⟨rfl, rfl⟩⟩
    | cons d ds =>
      rw [digs_cons] at a3
      rw [onSlice_tail]
      rw [val_cons] at a4
      have hdsc : Canon ds := by
        cases ds with
        | nil => exact canon_nil
        | cons f fs =>
          have hne : ¬ (n % B ≠ 0 ∧ val B x = n % B) := by
            rintro ⟨-, h⟩
            have h1 : x.length ≤ 1 := by
              by_contra hl
              have hne : x ≠ [] := by rintro rfl; simp at hl
              have := cx.ge hBpos hne
              have h3 : B ^ 1 ≤ B ^ (x.length - 1) := Nat.pow_le_pow_right hBpos (by omega)
              rw [pow_one] at h3
              omega
            simp at a5
            omega
          exact canon_cons_cons.mp ((a6 cx).mpr hne)
      obtain ⟨r, res, h1, h2, h3, h4⟩ := subAssignDigit_spec L ds (n / B) a3.2 hhigh
      simp only [h1, ok_bind, pure_eq_ok]
      rcases h4 with ⟨b, rfl⟩ | ⟨b, nd, rfl, b1, b2, b3, b4, b5⟩
      · left
        refine ⟨?_, .explicit, rfl, Or.inl rfl⟩
        have : B * (val B ds + 1) ≤ B * (n / B) := Nat.mul_le_mul_left _ b
        rw [Nat.mul_add] at this
        omega
      · right
        have hb : B * (n / B) ≤ B * val B ds := Nat.mul_le_mul_left _ b
        have hb4 : B * val B (r.take nd) + B * (n / B) = B * val B ds := by rw [← b4]; ring
        have hdsne : ds ≠ [] := by rintro rfl; simp at b; omega
        have hnd := b3 hdsne
        refine ⟨by omega, (d :: r).take nd, rfl, (by simp [a3.1, h3] : Digs B (d :: r)).take _, ?_⟩
        have htk : (d :: r).take nd = d :: r.take (nd - 1) := by
          conv_lhs => rw [show nd = (nd - 1) + 1 by omega, List.take_succ_cons]
        by_cases hv : val B ds = n / B
        · have hl : ds.length = 1 := by
            have h5 : ds.length ≤ [n / B].length :=
              hdsc.length_le hBpos (by simpa using hhigh) (by simp [hv])
            have := List.length_pos_iff.mpr hdsne
            simp at h5; omega
          have : nd = 1 := by omega
          subst this
          rw [hv] at a4
          simp
          omega
        · have hc := (b5 hdsc).mpr (by rintro ⟨-, h⟩; exact hv h)
          have hlen : (r.take nd).length = nd := by simp; omega
          have hge := hc.ge hBpos (by intro h; rw [h] at hlen; simp at hlen; omega)
          rw [hlen] at hge
          have hlt := val_lt ((by simp [a3.1, h3] : Digs B (d :: r)).take nd)
          have hlen2 : ((d :: r).take nd).length = nd := by simp; omega
          rw [hlen2] at hlt
          have hB2 : B ^ nd ≤ B * val B (r.take nd) := by
            calc B ^ nd = B * B ^ (nd - 1) := by rw [← pow_succ']; congr 1; omega
              _ ≤ _ := Nat.mul_le_mul_left _ hge
          have hB1 : B * 1 ≤ B * val B (r.take nd) := Nat.mul_le_mul_left _ (by omega)
          constructor
          · intro h; omega
          · intro h; omega

end Babs
