import Verif.Proofs.Karatsuba

/-!
# Helper lemmas: signed arithmetic in zero padded buffers, as used by Toom-Cook
-/

namespace Babs

variable {D : DigitOps} {B : Nat}

/-- Sign and magnitude. -/
def sv (s : Bool) (m : Nat) : ℤ := if s then -(m : ℤ) else (m : ℤ)

@[simp] theorem sv_true (m : Nat) : sv true m = -(m : ℤ) := rfl
@[simp] theorem sv_false (m : Nat) : sv false m = (m : ℤ) := rfl

theorem sv_mul (s t : Bool) (m n : Nat) : sv (s ^^ t) (m * n) = sv s m * sv t n := by
  cases s <;> cases t <;> simp

theorem eq_zeros {l : List Nat} (hB : 0 < B) (hl : Digs B l) (h : val B l = 0) :
    l = List.replicate l.length 0 :=
  val_inj hl (digs_replicate hB) (by simp) (by simp [h])

/-- A buffer whose value is small has zeros at the end. -/
theorem Buf.of_lt {buf : List Nat} {n v : Nat} (hB : 0 < B) (hd : Digs B buf) (hn : n ≤ buf.length)
    (hv : val B buf = v) (h : v < B ^ n) : Buf B buf n v := by
  refine ⟨hd, hn, hv, ?_⟩
  have h1 := val_take_add_drop B buf n hn
  have h2 : val B (buf.drop n) = 0 := by
    by_contra hne
    have := Nat.mul_le_mul_left (B ^ n) (Nat.pos_of_ne_zero hne)
    omega
  have h3 := eq_zeros hB (hd.drop n) h2
  rw [List.length_drop] at h3
  rw [← h3, List.take_append_drop]

theorem Buf.shrink {buf : List Nat} {n v k : Nat} (hB : 0 < B) (h : Buf B buf n v)
    (hk : k ≤ buf.length) (hv : v < B ^ k) : Buf B buf k v :=
  Buf.of_lt hB h.digs hk h.val_eq hv

theorem Buf.rep {buf : List Nat} {n v : Nat} (h : Buf B buf n v) (hc : Canon (buf.take n)) :
    Rep B (buf.take n) v := ⟨h.take_digs, hc, h.take_val⟩

theorem buf_zeros (hB : 0 < B) (k : Nat) : Buf B (List.replicate k 0) 0 0 :=
  Buf.of_lt hB (digs_replicate hB) (by simp) (by simp) (by simp)

/-- The length of a normalised number in a buffer. -/
theorem Buf.len_le {buf l : List Nat} {n v : Nat} (hB : 0 < B) (h : Buf B buf n v)
    (hc : Canon (buf.take n)) (hl : Digs B l) (hv : v ≤ val B l) : n ≤ l.length := by
  have := hc.length_le hB hl (by rw [h.take_val]; exact hv)
  rwa [h.take_len] at this

theorem Buf.len_le_of_lt {buf : List Nat} {n v k : Nat} (hB : 2 ≤ B) (h : Buf B buf n v)
    (hc : Canon (buf.take n)) (hv : v < B ^ k) : n ≤ k := by
  have := length_bound (s := 0) (M := v) hB hc (by rw [h.take_val]) (by simpa using hv) (Nat.zero_le k)
  rw [h.take_len] at this
  omega

theorem Rep.len_le_buf {buf l : List Nat} {n v w : Nat} (hB : 0 < B) (hl : Rep B l w)
    (h : Buf B buf n v) (hv : w ≤ v) : l.length ≤ n := by
  have := hl.canon.length_le hB h.take_digs (by rw [h.take_val, hl.val_eq]; exact hv)
  rwa [h.take_len] at this

/-- `if carry { nr[len] = 1; len += 1 }`. -/
theorem pushCarry_spec (L : Lawful D B) {buf : List Nat} {n v k : Nat} {c : Bool}
    (h : Buf B buf n v) (hk : k ≤ buf.length) (hn : n ≤ k) (hv : v + B ^ n * c.toNat < B ^ k) :
    ∃ buf' n', pushCarry buf n c = .ok (buf', n') ∧ buf'.length = buf.length ∧
      Buf B buf' n' (v + B ^ n * c.toNat) ∧ n' ≤ k ∧ n' = n + c.toNat ∧
      (c = true ∨ Canon (buf.take n) → Canon (buf'.take n')) := by
  have hB := L.base
  cases c with
  | false =>
    exact ⟨buf, n, rfl, rfl, by simpa using h, hn, by simp, fun hc => by simpa using hc⟩
  | true =>
    have hlt : n < k := by
      simp at hv
      have h1 : B ^ n < B ^ k := by omega
      exact (Nat.pow_lt_pow_iff_right (by omega : 1 < B)).mp h1
    obtain ⟨j, hj⟩ : ∃ j, buf.length - n = j + 1 := ⟨buf.length - n - 1, by omega⟩
    have hz := h.zeros
    rw [hj, List.replicate_succ] at hz
    have hl := h.take_len
    have hnew : buf.set n 1 = (buf.take n ++ [1]) ++ List.replicate j 0 := by
      conv_lhs => rw [hz]
      rw [List.set_append_right _ _ (by omega), hl]
      simp
    refine ⟨buf.set n 1, n + 1, ?_, by simp, ?_, hlt, rfl, ?_⟩
    · simp [pushCarry, setR_ok (show n < buf.length by omega)]
    · rw [hnew]
      refine Buf.of L.pos ?_ ?_ (by simp [hl])
      · simp [h.take_digs]; omega
      · rw [val_snoc, h.take_val, hl]; simp
    · intro _
      rw [hnew, List.take_left' (by simp [hl]), canon_snoc]; omega

/-- Adding a number to a buffer, with room for the carry. -/
theorem Buf.addPush (L : Lawful D B) {buf l : List Nat} {n v k : Nat} (h : Buf B buf n v)
    (hl : Digs B l) (hk : k ≤ buf.length) (hn : n ≤ k) (hlk : l.length ≤ k)
    (hv : v + val B l < B ^ k) :
    ∃ buf1 c buf' n', onSlice buf 0 (max n l.length) (fun s => addAssignBig D s l) = .ok (buf1, c) ∧
      pushCarry buf1 (max n l.length) c = .ok (buf', n') ∧ buf'.length = buf.length ∧
      Buf B buf' n' (v + val B l) ∧ n' ≤ k ∧
      (Canon (buf.take n) → Canon l → Canon (buf'.take n')) := by
  obtain ⟨buf1, c, v1, e1, e2, e3, e4⟩ := h.add L hl (k := max n l.length) (by omega) (by omega)
    (by omega)
  obtain ⟨buf', n', f1, f2, f3, f4, f5, f6⟩ := pushCarry_spec L (k := k) (c := c) e3 (by omega)
    (by omega) (by omega)
  refine ⟨buf1, c, buf', n', e1, f1, by omega, e4 ▸ f3, f4, ?_⟩
  intro c1 c2
  apply f6
  cases c with
  | true => exact Or.inl rfl
  | false =>
    right
    refine canon_of_max L.pos e3.take_digs c1 c2 ?_ ?_
    · rw [h.take_val, e3.take_val]; simp at e4; omega
    · rw [e3.take_len, h.take_len]

/-- Adding two numbers into a cleared buffer. -/
theorem addInto_buf (L : Lawful D B) {l0 l1 : List Nat} {k m : Nat} (h0 : Digs B l0)
    (h1 : Digs B l1) (hm : m ≤ k) (hl0 : l0.length ≤ m) (hl1 : l1.length ≤ m)
    (hv : val B l0 + val B l1 < B ^ m) :
    ∃ buf n, addBigInto D l0 l1 (List.replicate k 0) = .ok (buf, .ok n) ∧ buf.length = k ∧
      Buf B buf n (val B l0 + val B l1) ∧ n ≤ m ∧ (Canon l0 → Canon l1 → Canon (buf.take n)) := by
  have hB := L.base
  obtain ⟨r, c, e1, e2, e3, e4, e5⟩ := addBigInto_spec L l0 l1 (List.replicate k 0) h0 h1
    (by simp; omega)
  have hc1 : c = 1 → max l0.length l1.length < m := by
    rintro rfl
    have h1 : B ^ max l0.length l1.length < B ^ m := by omega
    exact (Nat.pow_lt_pow_iff_right (by omega : 1 < B)).mp h1
  rcases e5 with ⟨rfl, e5⟩ | ⟨rfl, e5, -⟩ | ⟨rfl, e5, e6⟩
  · rw [List.drop_replicate] at e5
    refine ⟨_, _, e5, by simp [e1]; omega, Buf.of L.pos e2 (by simpa using e4) e1, by omega, ?_⟩
    intro c0 c1
    rw [List.take_left' e1]
    exact canon_of_max L.pos e2 c0 c1 (by simp at e4; omega) (by omega)
  · simp at e5; have := hc1 rfl; omega
  · rw [List.drop_replicate] at e6
    have := hc1 rfl
    rw [show r ++ 1 :: List.replicate (k - (max l0.length l1.length + 1)) 0
      = (r ++ [1]) ++ List.replicate (k - (max l0.length l1.length + 1)) 0 by simp] at e6
    refine ⟨_, _, e6, by simp [e1]; omega, Buf.of L.pos ?_ ?_ (by simp [e1]), by omega, ?_⟩
    · simp [e2]; omega
    · rw [val_snoc, e1]; exact e4
    · intro _ _
      rw [List.take_left' (by simp [e1]), canon_snoc]; omega

/-- Doubling the number in a buffer, with room for the carry. -/
theorem Buf.doublePush (L : Lawful D B) {buf : List Nat} {n v k : Nat} (h : Buf B buf n v)
    (hk : k ≤ buf.length) (hn : n ≤ k) (hv : 2 * v < B ^ k) :
    ∃ buf1 c buf' n', onSlice buf 0 n (fun s => doubleCarryAssign D s false) = .ok (buf1, c) ∧
      pushCarry buf1 n c = .ok (buf', n') ∧ buf'.length = buf.length ∧
      Buf B buf' n' (2 * v) ∧ n' ≤ k ∧ (Canon (buf.take n) → Canon (buf'.take n')) := by
  obtain ⟨r, c, e1, e2, e3, e4⟩ := doubleCarryAssign_spec L (buf.take n) false h.take_digs
  rw [h.take_len] at e2 e4
  rw [h.take_val] at e4
  simp at e4
  have hb : Buf B (r ++ List.replicate (buf.length - n) 0) n (val B r) := Buf.of L.pos e3 rfl e2
  have hlen : (r ++ List.replicate (buf.length - n) 0).length = buf.length := by
    have := h.le
    simp; omega
  obtain ⟨buf', n', f1, f2, f3, f4, f5, f6⟩ := pushCarry_spec L (k := k) (c := c) hb (by omega) hn
    (by omega)
  refine ⟨_, c, buf', n', onSlice_buf h (le_refl _) h.le e1, f1, by omega,
    by rw [show 2 * v = val B r + B ^ n * c.toNat by omega]; exact f3, f4, ?_⟩
  intro hc
  apply f6
  cases c with
  | true => exact Or.inl rfl
  | false =>
    right
    refine canon_of_max L.pos hb.take_digs hc hc ?_ ?_
    · rw [h.take_val, hb.take_val]; simp at e4; omega
    · rw [hb.take_len, h.take_len]; omega

/-- The difference of the number in a buffer and another one.  There is no panic if both are in
normal form. -/
theorem subAssignBigAbsSign_spec (L : Lawful D B) {T : Prop} {buf l : List Nat} {n v : Nat}
    (h : Buf B buf n v) (hl : Digs B l) (hlen : l.length ≤ buf.length)
    (hT : T → Canon (buf.take n) ∧ Canon l) :
    Sp (fun p => p = .unwrap ∧ ¬ T) (subAssignBigAbsSign D buf n l) (fun res =>
      ∃ m, Buf B res.1 res.2.2 m ∧ res.1.length = buf.length ∧ res.2.2 ≤ max n l.length ∧
        sv res.2.1 m = (v : ℤ) - val B l ∧
        (T → (res.2.1 = true ↔ v < val B l) ∧
          (near 1 B v (val B l) = false → Canon (res.1.take res.2.2)))) := by
  unfold subAssignBigAbsSign
  rw [slice_take h.le, ok_bind]
  by_cases hlt : ltBig (buf.take n) l = true
  · rw [if_pos hlt]
    have hle : n ≤ l.length := by
      by_contra hcon
      rw [ltBig_longer (by rw [h.take_len]; omega)] at hlt; simp at hlt
    have hT1 : T → v < val B l := fun t => by
      have := (ltBig_canon L.pos h.take_digs hl (hT t).1 (hT t).2).mp hlt
      rwa [h.take_val] at this
    obtain ⟨buf', res, e1, e2, e3⟩ := h.rsub L hl hle hlen rfl
    rw [e1, ok_bind]
    simp only []
    rcases e3 with ⟨a1, rfl, -⟩ | ⟨a1, nd, rfl, a3, a4, a5⟩
    · refine ⟨rfl, fun t => ?_⟩
      have := hT1 t
      omega
    · refine ⟨_, a4, e2, ?_, ?_, fun t => ⟨⟨fun _ => hT1 t, fun _ => rfl⟩, fun _ => a5⟩⟩
      · simp only []; omega
      · simp; omega
  · rw [if_neg hlt]
    have hle : l.length ≤ n := by
      by_contra hcon
      exact hlt (ltBig_shorter (by rw [h.take_len]; omega))
    have hT1 : T → ¬ v < val B l := fun t => by
      have := mt (ltBig_canon L.pos h.take_digs hl (hT t).1 (hT t).2).mpr hlt
      rwa [h.take_val] at this
    obtain ⟨buf', res, e1, e2, e3⟩ := h.sub L hl (le_refl _) h.le hle
    rw [e1, ok_bind]
    simp only []
    rcases e3 with ⟨a1, rfl, -⟩ | ⟨a1, nd, rfl, a3, a4, a5⟩
    · refine ⟨rfl, fun t => ?_⟩
      have := hT1 t
      omega
    · refine ⟨_, a4, e2, ?_, ?_, fun t => ⟨⟨fun hh => by simp at hh, fun hh => absurd hh (hT1 t)⟩,
        fun hn => ?_⟩⟩
      · simp only []; omega
      · simp; omega
      · have hs := sub_canon (nd := nd) (lo := 1) (by have := L.base; omega) (hT t).1 hl (hT t).2
          (by rw [h.take_val]; exact a1) (by rw [h.take_val]; exact hn) (by rw [h.take_len]; exact a3)
        rcases hs with hs | hs
        · simp only []
          rw [show nd = 0 by omega, List.take_zero]
          exact canon_nil
        · rw [h.take_len, h.take_val] at hs
          exact a5 (Or.inr ⟨(hT t).1, hs⟩)

end Babs
