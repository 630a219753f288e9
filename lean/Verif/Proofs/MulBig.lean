import Verif.Model.UBig
import Verif.Proofs.Toom3

/-!
# Helper lemmas: multiplication and squaring of big numbers, all algorithms together
-/

namespace Babs

variable {D : DigitOps} {B : Nat}

theorem mulPost_zero {nd : Nat} {product work : List Nat} (hw : Digs B work) :
    MulPost B nd 0 product work (product, work, 0) :=
  ⟨by simpa using rep_zero B, Nat.zero_le _, rfl, Nat.zero_le _, Tail.refl _, rfl, hw⟩

theorem LongPost.mulPost {nd v : Nat} {product work : List Nat} {res : List Nat × Nat}
    (h : LongPost B nd v product res) (hw : Digs B work) (hnd : nd ≤ product.length) :
    MulPost B nd v product work (res.1, work, res.2) := by
  obtain ⟨r, e1, e2, e3, e4, e5, e6, e7⟩ := h.ex
  have ht : res.1.take res.2 = r.take res.2 := by
    rw [e1, List.take_append_of_le_length (by omega)]
  refine ⟨?_, e5, ?_, ?_, ?_, rfl, hw⟩
  · simp only []
    rw [ht]
    exact ⟨e3.take _, e7, by rw [val_take_zeros e6, e4]⟩
  · simp only []
    rw [e1]; simp; omega
  · simp only []
    rw [e1]; simp; omega
  · simp only []
    rw [e1, List.drop_append_of_le_length (by omega)]
    have hd : r.drop res.2 = List.replicate (nd - res.2) 0 := by
      conv_lhs => rw [e6]
      rw [List.drop_left' (by simp; omega)]
    rw [hd]
    exact (Tail.refl _).front e5 hnd

/-- The scratch space that is needed is there. -/
def WorkOk (m n w : Nat) : Prop :=
  (128 ≤ m ∧ 128 ≤ n → toom3WorkSize (max m n) ≤ w) ∧
  (20 ≤ m ∧ 20 ≤ n → karatsubaWorkSize (max m n) ≤ w)

theorem workOk_kara {m n k w : Nat} (h1 : m ≤ k) (h2 : n ≤ k) (h3 : min m n < 128)
    (hw : karatsubaWorkSize k ≤ w) : WorkOk m n w :=
  ⟨fun h => by omega, fun _ => le_trans (karatsubaWorkSize_mono (by omega)) hw⟩

theorem workOk_toom {m n k w : Nat} (h1 : m ≤ k) (h2 : n ≤ k)
    (hw : toom3WorkSize k ≤ w) : WorkOk m n w :=
  ⟨fun _ => le_trans (toom3WorkSize_mono (by omega)) hw,
    fun _ => le_trans (le_trans (karatsuba_le_toom3 _) (toom3WorkSize_mono (by omega))) hw⟩

/-- Multiplication of big numbers computes the product, or panics with an unwrapped error.  If the
product is safe it does not panic. -/
theorem mulBigIntoWithWork_spec {dbg : Bool} (L : Lawful D B) {T : Prop} (fuel : Nat) :
    ∀ {x y product work : List Nat}, Digs B x → Digs B y → Digs B product → Digs B work →
    max x.length y.length < fuel →
    (x = [] ∨ y = [] ∨ x.length + y.length ≤ product.length) →
    WorkOk x.length y.length work.length →
    (T → MulP B x y) →
    Sp (fun p => p = .unwrap ∧ ¬ T) (mulBigIntoWithWork D dbg fuel x y product work)
      (MulPost B (x.length + y.length) (val B x * val B y) product work) := by
  induction fuel with
  | zero => intros; omega
  | succ fuel ih =>
    intro x y product work hx hy hp hw hf hlen hwk hT
    unfold mulBigIntoWithWork
    by_cases h0 : x = [] ∨ y = []
    · rw [if_pos h0]
      have : val B x * val B y = 0 := by rcases h0 with rfl | rfl <;> simp
      rw [this]
      exact mulPost_zero hw
    · rw [if_neg h0]
      have hlen : x.length + y.length ≤ product.length := by
        rcases hlen with h | h | h
        · exact absurd (Or.inl h) h0
        · exact absurd (Or.inr h) h0
        · exact h
      simp only []
      refine Sp.bind_eq (a := ()) (by simp [assertR, hlen]) ?_
      by_cases h1 : toom3Cutoff ≤ x.length ∧ toom3Cutoff ≤ y.length
      · rw [if_pos h1]
        unfold toom3Cutoff at h1
        refine mulToom3Into_spec L hx hy hw h1.1 h1.2 hlen (hwk.1 h1) hT ?_
        intro a c pr wk ha hc hpr hwkd hal hcl _ hl hwl hT'
        exact ih ha hc hpr hwkd (by omega) hl (workOk_toom hal hcl hwl) hT'
      · rw [if_neg h1]
        unfold toom3Cutoff at h1
        by_cases h2 : karatsubaCutoff ≤ x.length ∧ karatsubaCutoff ≤ y.length
        · rw [if_pos h2]
          unfold karatsubaCutoff at h2
          refine mulKaratsubaInto_spec L hx hy hp hw h2.1 h2.2 hlen (hwk.2 h2) (by omega) hT ?_
          intro a c pr wk ha hc hpr hwkd hal hcl hmin hl hwl hT'
          exact ih ha hc hpr hwkd (by omega) hl (workOk_kara hal hcl (by omega) hwl) hT'
        · rw [if_neg h2]
          obtain ⟨res, e1, e2⟩ := mulBigLongInto_spec L x y product hx hy hlen
          rw [e1, ok_bind]
          exact e2.mulPost hw hlen

/-- What `mul_big_into` and `square_into` do. -/
structure ProdPost (B v : Nat) (product : List Nat) (res : List Nat × Nat) : Prop where
  rep : Rep B (res.1.take res.2) v
  len : res.1.length = product.length
  le : res.2 ≤ res.1.length
  tail : Tail (product.drop res.2) (res.1.drop res.2)

theorem MulPost.prod {nd v : Nat} {product work : List Nat} {res : List Nat × List Nat × Nat}
    (h : MulPost B nd v product work res) : ProdPost B v product (res.1, res.2.2) :=
  ⟨h.rep, h.len, h.lt_len, h.tail⟩

theorem mulBigInto_spec {dbg : Bool} (L : Lawful D B) {T : Prop} {x y product : List Nat}
    (hx : Digs B x) (hy : Digs B y) (hp : Digs B product)
    (hlen : x.length + y.length ≤ product.length)
    (hT : T → MulP B x y) :
    Sp (fun p => p = .unwrap ∧ ¬ T) (mulBigInto D dbg x y product)
      (ProdPost B (val B x * val B y) product) := by
  have hB := L.pos
  unfold mulBigInto
  by_cases h0 : x = [] ∨ y = []
  · rw [if_pos h0]
    have : val B x * val B y = 0 := by rcases h0 with rfl | rfl <;> simp
    rw [this]
    exact (mulPost_zero (nd := 0) (work := []) (by simp)).prod
  · rw [if_neg h0]
    simp only []
    refine Sp.bind_eq (a := ()) (by simp [assertR, hlen]) ?_
    by_cases h1 : toom3Cutoff ≤ x.length ∧ toom3Cutoff ≤ y.length
    · rw [if_pos h1]
      unfold toom3Cutoff at h1
      refine Sp.bind (mulToom3Into_spec L hx hy (digs_replicate hB) h1.1 h1.2
        hlen (by rw [List.length_replicate]) hT ?_) ?_
      · intro a c pr wk ha hc hpr hwkd hal hcl _ hl hwl hT'
        exact mulBigIntoWithWork_spec L _ ha hc hpr hwkd (by unfold mulFuel; omega) hl
          (workOk_toom hal hcl hwl) hT'
      · rintro ⟨r, w, n⟩ h
        exact h.prod
    · rw [if_neg h1]
      unfold toom3Cutoff at h1
      by_cases h2 : karatsubaCutoff ≤ x.length ∧ karatsubaCutoff ≤ y.length
      · rw [if_pos h2]
        unfold karatsubaCutoff at h2
        refine Sp.bind (mulKaratsubaInto_spec L hx hy hp (digs_replicate hB) h2.1 h2.2 hlen
          (by rw [List.length_replicate]) (by omega) hT ?_) ?_
        · intro a c pr wk ha hc hpr hwkd hal hcl hmin hl hwl hT'
          exact mulBigIntoWithWork_spec L _ ha hc hpr hwkd (by unfold mulFuel; omega) hl
            (workOk_kara hal hcl (by omega) hwl) hT'
        · rintro ⟨r, w, n⟩ h
          exact h.prod
      · rw [if_neg h2]
        obtain ⟨res, e1, e2⟩ := mulBigLongInto_spec L x y product hx hy hlen
        rw [e1]
        exact (e2.mulPost (work := []) (by simp) hlen).prod

/-! ## Squaring -/

/-- Squaring below the Toom-Cook cutoff. -/
theorem squareIntoWithWork_small {dbg : Bool} (L : Lawful D B) {T : Prop} (fuel : Nat) :
    ∀ {x product work : List Nat}, Digs B x → Digs B product → Digs B work →
    x.length < fuel → x.length < 128 → 2 * x.length ≤ product.length →
    (20 ≤ x.length → karatsubaWorkSize x.length ≤ work.length) →
    (T → MulP B x x) →
    Sp (fun p => p = .unwrap ∧ ¬ T) (squareIntoWithWork D dbg fuel x product work)
      (MulPost B (2 * x.length) (val B x * val B x) product work) := by
  induction fuel with
  | zero => intros; omega
  | succ fuel ih =>
    intro x product work hx hp hw hf h128 hlen hwk hT
    unfold squareIntoWithWork
    by_cases h0 : x = []
    · rw [if_pos h0, h0]
      exact mulPost_zero hw
    · rw [if_neg h0]
      simp only []
      refine Sp.bind_eq (a := ()) (by simp [assertR, hlen]) ?_
      rw [if_neg (by unfold toom3Cutoff; omega)]
      by_cases h2 : karatsubaCutoff ≤ x.length
      · rw [if_pos h2]
        unfold karatsubaCutoff at h2
        refine squareKaratsubaInto_spec L hx hp hw h2 hlen (hwk h2) h128 hT ?_
        intro a pr wk ha hpr hwkd hal hl hwl hT'
        exact ih ha hpr hwkd (by omega) (by omega) hl
          (fun _ => le_trans (karatsubaWorkSize_mono hal) hwl) hT'
      · rw [if_neg h2]
        obtain ⟨res, e1, e2⟩ := squareLongInto_spec (dbg := dbg) L x product hx h0 hlen
        rw [e1, ok_bind]
        rw [pow_two] at e2
        exact e2.mulPost hw hlen

/-- Squaring with one level of Toom-Cook, if the result buffer is clear. -/
theorem squareIntoWithWork_mid {dbg : Bool} (L : Lawful D B) {T : Prop} {fuel len : Nat} {x work : List Nat}
    (hx : Digs B x) (hw : Digs B work) (hf : x.length < fuel) (h378 : x.length ≤ 378)
    (hlen : 2 * x.length ≤ len) (hwk : toom3WorkSize x.length ≤ work.length)
    (hT : T → MulP B x x) :
    Sp (fun p => p = .unwrap ∧ ¬ T) (squareIntoWithWork D dbg fuel x (List.replicate len 0) work)
      (MulPost B (2 * x.length) (val B x * val B x) (List.replicate len 0) work) := by
  by_cases h128 : x.length < 128
  · exact squareIntoWithWork_small L fuel hx (digs_replicate L.pos) hw hf h128
      (by simpa using hlen) (fun _ => le_trans (karatsuba_le_toom3 _) hwk) hT
  · cases fuel with
    | zero => omega
    | succ fuel =>
      unfold squareIntoWithWork
      rw [if_neg (by rintro rfl; simp at h128)]
      simp only []
      refine Sp.bind_eq (a := ()) (by simp [assertR, hlen]) ?_
      rw [if_pos (by unfold toom3Cutoff; omega)]
      refine squareToom3Into_spec (Pr := fun _ => True) L hx hw (by omega) hlen hwk hT
        (fun _ => trivial) (Or.inl fun _ => trivial) ?_
      intro a pr wk ha hpr hwkd hal hl hwl _ hT'
      exact squareIntoWithWork_small L fuel ha hpr hwkd (by omega) (by omega) hl
        (fun _ => le_trans (le_trans (karatsuba_le_toom3 _) (toom3WorkSize_mono (by omega))) hwl)
        (fun t => Or.inr ⟨(hT' t).1, (hT' t).1, (hT' t).2⟩)

theorem squareInto_spec {dbg : Bool} (L : Lawful D B) {T : Prop} {x : List Nat} {len : Nat}
    (hx : Digs B x) (hlen : 2 * x.length ≤ len) (h1131 : x.length ≤ 1131)
    (hT : T → MulP B x x) :
    Sp (fun p => p = .unwrap ∧ ¬ T) (squareInto D dbg x (List.replicate len 0))
      (ProdPost B (val B x * val B x) (List.replicate len 0)) := by
  have hB := L.pos
  unfold squareInto
  by_cases h0 : x = []
  · rw [if_pos h0, h0]
    exact (mulPost_zero (nd := 0) (work := []) (by simp)).prod
  · rw [if_neg h0]
    simp only []
    refine Sp.bind_eq (a := ()) (by simp [assertR, hlen]) ?_
    by_cases h1 : toom3Cutoff ≤ x.length
    · rw [if_pos h1]
      unfold toom3Cutoff at h1
      refine Sp.bind (squareToom3Into_spec (Pr := fun l => l = List.replicate l.length 0) L hx
        (digs_replicate hB) h1 hlen (by rw [List.length_replicate]) hT (fun k => by simp) (Or.inr ?_)
        ?_) ?_
      · have := toom3WorkSize_eq x.length
        rw [if_pos h1] at this
        rw [List.take_replicate]
        congr 1; omega
      · intro a pr wk ha hpr hwkd hal hl hwl hpz hT'
        rw [hpz]
        exact squareIntoWithWork_mid L ha hwkd (by unfold mulFuel; omega) (by omega) (by omega)
          (le_trans (toom3WorkSize_mono (by omega)) hwl)
          (fun t => Or.inr ⟨(hT' t).1, (hT' t).1, (hT' t).2⟩)
      · rintro ⟨r, w, n⟩ h
        exact h.prod
    · rw [if_neg h1]
      unfold toom3Cutoff at h1
      by_cases h2 : karatsubaCutoff ≤ x.length
      · rw [if_pos h2]
        unfold karatsubaCutoff at h2
        refine Sp.bind (squareKaratsubaInto_spec L hx (digs_replicate hB) (digs_replicate hB) h2
          (by simpa using hlen) (by rw [List.length_replicate]) (by omega) hT ?_) ?_
        · intro a pr wk ha hpr hwkd hal hl hwl hT'
          exact squareIntoWithWork_small L _ ha hpr hwkd (by unfold mulFuel; omega) (by omega) hl
            (fun _ => le_trans (karatsubaWorkSize_mono hal) hwl) hT'
        · rintro ⟨r, w, n⟩ h
          exact h.prod
      · rw [if_neg h2]
        obtain ⟨res, e1, e2⟩ := squareLongInto_spec (dbg := dbg) L x (List.replicate len 0) hx h0
          (by simpa using hlen)
        rw [e1]
        rw [pow_two] at e2
        exact (e2.mulPost (work := []) (by simp) (by simpa using hlen)).prod

/-! ## The operators -/

theorem Rep.length_le {x : List Nat} {m k : Nat} (hB : 2 ≤ B) (hx : Rep B x m) (hm : m < B ^ k) :
    x.length ≤ k := by
  by_cases h : x = []
  · subst h; simp
  · have h1 := hx.canon.ge (by omega : 0 < B) h
    rw [hx.val_eq] at h1
    have := (Nat.pow_lt_pow_iff_right (by omega : 1 < B)).mp (lt_of_le_of_lt h1 hm)
    omega

theorem mulBig_digs_spec {dbg : Bool} (L : Lawful D B) {T : Prop} {x y : List Nat} {m n : Nat}
    (hx : Digs B x) (hm : val B x = m) (hy : Digs B y) (hn : val B y = n)
    (hT : T → MulP B x y) :
    Sp (fun p => p = .unwrap ∧ ¬ T) (mulBig D dbg x y) (Rep B · (m * n)) := by
  rw [← hm, ← hn]
  unfold mulBig
  by_cases h0 : x = [] ∨ y = []
  · rw [if_pos h0]
    have : val B x * val B y = 0 := by rcases h0 with rfl | rfl <;> simp
    rw [this]
    exact rep_zero B
  · rw [if_neg h0]
    refine Sp.bind (mulBigInto_spec L hx hy (digs_replicate L.pos)
      (by rw [List.length_replicate]) hT) ?_
    rintro ⟨r, n⟩ h
    exact h.rep

theorem mulBig_spec {dbg : Bool} (L : Lawful D B) {T : Prop} {x y : List Nat} {m n : Nat}
    (hx : Rep B x m) (hy : Rep B y n)
    (hT : T → x.length < 20 ∨ y.length < 20 ∨ max x.length y.length ≤ 40) :
    Sp (fun p => p = .unwrap ∧ ¬ T) (mulBig D dbg x y) (Rep B · (m * n)) := by
  refine mulBig_digs_spec L hx.digs hx.val_eq hy.digs hy.val_eq fun t =>
    mulP_of_40 (by have := L.base; omega) hx.digs hy.digs ?_
  rcases hT t with h | h | h
  · exact Or.inl (Or.inl h)
  · exact Or.inl (Or.inr h)
  · exact Or.inr ⟨hx.canon, hy.canon, h⟩


theorem mulBig_safe_spec {dbg : Bool} (L : Lawful D B) {T : Prop} {x y : List Nat} {m n : Nat}
    (hx : Rep B x m) (hy : Rep B y n) (hT : T → ∃ d, mulSafe B d m n = true) :
    Sp (fun p => p = .unwrap ∧ ¬ T) (mulBig D dbg x y) (Rep B · (m * n)) := by
  refine mulBig_digs_spec L hx.digs hx.val_eq hy.digs hy.val_eq fun t =>
    Or.inr ⟨hx.canon, hy.canon, ?_⟩
  rw [hx.val_eq, hy.val_eq]
  exact hT t

theorem square_safe_spec {dbg : Bool} (L : Lawful D B) {T : Prop} {x : List Nat} {m : Nat}
    (hx : Rep B x m) (hl : x.length ≤ 1131) (hT : T → ∃ d, mulSafe B d m m = true) :
    Sp (fun p => p = .unwrap ∧ ¬ T) (square D dbg x) (Rep B · (m * m)) := by
  rw [← hx.val_eq]
  unfold square
  by_cases h0 : x = []
  · rw [if_pos h0, h0]
    exact rep_zero B
  · rw [if_neg h0]
    refine Sp.bind (squareInto_spec L hx.digs (le_refl _) hl
      (fun t => Or.inr ⟨hx.canon, hx.canon, by rw [hx.val_eq]; exact hT t⟩)) ?_
    rintro ⟨r, n⟩ h
    exact h.rep

theorem square_spec {dbg : Bool} (L : Lawful D B) {T : Prop} {x : List Nat} {m : Nat}
    (hx : Rep B x m) (hl : x.length ≤ 1131) (hT : T → x.length ≤ 40) :
    Sp (fun p => p = .unwrap ∧ ¬ T) (square D dbg x) (Rep B · (m * m)) := by
  refine square_safe_spec L hx hl fun t => ⟨3, ?_⟩
  have h : m < B ^ 40 := by
    rw [← hx.val_eq]
    exact lt_of_lt_of_le (val_lt hx.digs) (Nat.pow_le_pow_right L.pos (hT t))
  exact mulSafe_40 (by have := L.base; omega) h h

theorem ite_bind_comm {α β : Type} {c : Prop} [Decidable c] {x y : R α} (k : α → R β) :
    (if c then x >>= k else y >>= k) = (if c then x else y) >>= k := by
  split_ifs <;> rfl

theorem powLoop_spec {dbg : Bool} (L : Lawful D B) {T : Prop} (fuel : Nat) :
    ∀ {result power : List Nat} {r p n : Nat}, Rep B result r → Rep B power p → n < fuel →
    (0 < r ∨ p = 0) → r * p ^ (2 * n) < B ^ 2262 → (T → r * p ^ (2 * n) < B ^ 40) →
    Sp (fun p => p = .unwrap ∧ ¬ T) (powLoop D dbg fuel result power n)
      (Rep B · (r * p ^ (2 * n))) := by
  induction fuel with
  | zero => intros; omega
  | succ fuel ih =>
    intro result power r p n hr hp hn h0 hK hT
    have hB2 : 2 ≤ B := by have := L.base; omega
    unfold powLoop
    by_cases hn0 : n = 0
    · rw [if_pos hn0, hn0]
      exact Sp.pure (by simpa using hr)
    · rw [if_neg hn0]
      -- the sizes
      have hsz : ∀ k, r * p ^ (2 * n) < B ^ k → p * p < B ^ k ∧ (p ≠ 0 → r < B ^ k) := by
        intro k hk
        have hBk : 0 < B ^ k := Nat.pow_pos L.pos
        by_cases hp0 : p = 0
        · subst hp0; exact ⟨by simpa using hBk, fun h => absurd rfl h⟩
        · have hr0 : 0 < r := by rcases h0 with h | h; exacts [h, absurd h hp0]
          have hpp : 0 < p := Nat.pos_of_ne_zero hp0
          have h1 : p * p ≤ p ^ (2 * n) := by
            rw [← pow_two]; exact Nat.pow_le_pow_right hpp (by omega)
          have h2 : p ^ (2 * n) ≤ r * p ^ (2 * n) := Nat.le_mul_of_pos_left _ hr0
          have h3 : r ≤ r * p ^ (2 * n) := Nat.le_mul_of_pos_right _ (Nat.pow_pos hpp)
          exact ⟨by omega, fun _ => by omega⟩
      have hp1131 : p < B ^ 1131 := by
        have h1 := (hsz _ hK).1
        rw [show 2262 = 1131 + 1131 from rfl, pow_add] at h1
        exact lt_of_not_ge fun h => absurd (Nat.mul_le_mul h h) (not_le.mpr h1)
      have hp40 : T → p < B ^ 40 := by
        intro t
        have h1 := (hsz _ (hT t)).1
        rcases Nat.eq_zero_or_pos p with h | h
        · subst h; simpa using h1
        · exact lt_of_le_of_lt (Nat.le_mul_of_pos_left _ h) h1
      refine Sp.bind (square_spec L (T := T) hp (hp.length_le hB2 hp1131)
        (fun t => hp.length_le hB2 (hp40 t))) ?_
      intro power' hp'
      have hres : Sp (fun p => p = .unwrap ∧ ¬ T)
          (if n % 2 ≠ 0 then mulBig D dbg result power' else Pure.pure result)
          (Rep B · (r * (p * p) ^ (n % 2))) := by
        by_cases hodd : n % 2 ≠ 0
        · rw [if_pos hodd]
          have : n % 2 = 1 := by omega
          rw [this, pow_one]
          refine mulBig_spec L hr hp' ?_
          intro t
          have h1 := hsz _ (hT t)
          have h2 := hp'.length_le hB2 h1.1
          by_cases hp0 : p = 0
          · subst hp0
            have := hp'.unique (by simpa using rep_zero B)
            subst this; simp
          · have h3 := hr.length_le hB2 (h1.2 hp0)
            omega
        · rw [if_neg hodd]
          have : n % 2 = 0 := by omega
          rw [this, pow_zero, Nat.mul_one]
          exact hr
      simp only []
      rw [ite_bind_comm]
      refine Sp.bind hres ?_
      intro result' hr'
      have hpe : r * (p * p) ^ (n % 2) * (p * p) ^ (2 * (n / 2)) = r * p ^ (2 * n) := by
        rw [Nat.mul_assoc, ← pow_add, ← pow_two, ← pow_mul]
        congr 2
        omega
      rw [← hpe]
      rw [← hpe] at hK hT
      refine ih hr' hp' (by omega) ?_ hK hT
      rcases h0 with h | h
      · by_cases hp0 : p = 0
        · right; simp [hp0]
        · left; exact Nat.mul_pos h (Nat.pow_pos (Nat.mul_pos (by omega) (by omega)))
      · right; simp [h]

theorem pow_spec {dbg : Bool} (L : Lawful D B) {T : Prop} {x : List Nat} {m e : Nat}
    (hx : Rep B x m) (hK : m ^ e < B ^ 2262) (hT : T → m ^ e < B ^ 40) :
    Sp (fun p => p = .unwrap ∧ ¬ T) (pow D dbg x e) (Rep B · (m ^ e)) := by
  have hB2 : 2 ≤ B := by have := L.base; omega
  have hone : Rep B ubigOne 1 := ⟨by simp [ubigOne]; omega, by simp [ubigOne, Canon], by simp [ubigOne]⟩
  unfold pow
  by_cases e0 : e = 0
  · rw [if_pos e0, e0]; exact Sp.pure (by simpa using hone)
  rw [if_neg e0]
  by_cases e1 : e = 1
  · rw [if_pos e1, e1]; exact Sp.pure (by simpa using hx)
  rw [if_neg e1]
  by_cases e2 : e = 2
  · rw [if_pos e2]
    subst e2
    rw [pow_two] at hK hT ⊢
    refine square_spec L hx (hx.length_le hB2 ?_) fun t => hx.length_le hB2 ?_
    · rw [show 2262 = 1131 + 1131 from rfl, pow_add] at hK
      exact lt_of_not_ge fun h => absurd (Nat.mul_le_mul h h) (not_le.mpr hK)
    · have := hT t
      rcases Nat.eq_zero_or_pos m with h | h
      · subst h; simpa using this
      · exact lt_of_le_of_lt (Nat.le_mul_of_pos_left _ h) this
  rw [if_neg e2]
  by_cases hev : e % 2 = 0
  · rw [if_pos hev]
    have he : 1 * m ^ (2 * (e / 2)) = m ^ e := by rw [Nat.one_mul]; congr 1; omega
    rw [← he] at hK hT ⊢
    exact powLoop_spec L _ hone hx (by omega) (Or.inl Nat.one_pos) hK hT
  · rw [if_neg hev]
    have he : m * m ^ (2 * (e / 2)) = m ^ e := by rw [← Nat.pow_succ']; congr 1; omega
    rw [← he] at hK hT ⊢
    exact powLoop_spec L _ hx hx (by omega) (by omega) hK hT

/-- The loop of the power, with the products that are met. -/
theorem powLoop_safe_spec {dbg : Bool} (L : Lawful D B) {T : Prop} {d m e : Nat}
    (hK : m ^ e < B ^ 2262) (hT : T → powSafe B d m e) (fuel : Nat) :
    ∀ {result power : List Nat} {k : Nat}, Rep B result (m ^ (e % 2 ^ (k + 1))) →
    Rep B power (m ^ 2 ^ k) → e / 2 ^ (k + 1) < fuel →
    Sp (fun p => p = .unwrap ∧ ¬ T) (powLoop D dbg fuel result power (e / 2 ^ (k + 1)))
      (Rep B · (m ^ e)) := by
  induction fuel with
  | zero => intro _ _ _ _ _ h; exact absurd h (Nat.not_lt_zero _)
  | succ fuel ih =>
    intro result power k hr hp hn
    have hB2 : 2 ≤ B := by have := L.base; omega
    have hpos : 0 < 2 ^ (k + 1) := Nat.pow_pos (by omega)
    unfold powLoop
    by_cases hn0 : e / 2 ^ (k + 1) = 0
    · rw [if_pos hn0]
      have : e % 2 ^ (k + 1) = e := by
        have := Nat.div_add_mod e (2 ^ (k + 1)); rw [hn0] at this; omega
      rw [this] at hr
      exact Sp.pure hr
    · rw [if_neg hn0]
      have hle : 2 ^ (k + 1) ≤ e := by
        by_contra h; exact hn0 (Nat.div_eq_of_lt (by omega))
      have hsq : m ^ 2 ^ k * m ^ 2 ^ k = m ^ 2 ^ (k + 1) := by
        rw [← pow_add]; congr 1; rw [pow_succ]; omega
      have hp1131 : m ^ 2 ^ k < B ^ 1131 := by
        refine lt_of_not_ge fun h => absurd (Nat.mul_le_mul h h) ?_
        rw [hsq, ← pow_add]
        refine not_le.mpr (lt_of_le_of_lt ?_ hK)
        rcases Nat.eq_zero_or_pos m with h0 | h0
        · rw [h0, zero_pow (by omega)]; exact Nat.zero_le _
        · exact Nat.pow_le_pow_right h0 hle
      refine Sp.bind (square_safe_spec L (T := T) hp (hp.length_le hB2 hp1131)
        (fun t => ⟨d, (hT t k hle).1⟩)) ?_
      intro power' hp'
      rw [hsq] at hp'
      have hdiv : e / 2 ^ (k + 1) / 2 = e / 2 ^ (k + 1 + 1) := by
        rw [Nat.div_div_eq_div_mul, ← pow_succ]
      have hmod : e % 2 ^ (k + 1 + 1) = e % 2 ^ (k + 1) + 2 ^ (k + 1) * (e / 2 ^ (k + 1) % 2) := by
        rw [pow_succ 2 (k + 1), Nat.mod_mul]
      have hres : Sp (fun p => p = .unwrap ∧ ¬ T)
          (if e / 2 ^ (k + 1) % 2 ≠ 0 then mulBig D dbg result power' else Pure.pure result)
          (Rep B · (m ^ (e % 2 ^ (k + 1 + 1)))) := by
        by_cases hodd : e / 2 ^ (k + 1) % 2 ≠ 0
        · rw [if_pos hodd]
          have h1 : e / 2 ^ (k + 1) % 2 = 1 := by omega
          rw [hmod, h1, Nat.mul_one, pow_add]
          exact mulBig_safe_spec L hr hp' fun t => ⟨d, (hT t k hle).2 h1⟩
        · rw [if_neg hodd]
          have h1 : e / 2 ^ (k + 1) % 2 = 0 := by omega
          rw [hmod, h1, Nat.mul_zero, Nat.add_zero]
          exact hr
      simp only []
      rw [ite_bind_comm]
      refine Sp.bind hres ?_
      intro result' hr'
      rw [hdiv]
      refine ih hr' hp' ?_
      rw [← hdiv]
      exact lt_of_lt_of_le (Nat.div_lt_self (Nat.pos_of_ne_zero hn0) (by omega)) (by omega)

theorem pow_safe_spec {dbg : Bool} (L : Lawful D B) {T : Prop} {x : List Nat} {m e d : Nat}
    (hx : Rep B x m) (hK : m ^ e < B ^ 2262) (hT : T → powSafe B d m e) :
    Sp (fun p => p = .unwrap ∧ ¬ T) (pow D dbg x e) (Rep B · (m ^ e)) := by
  have hB2 : 2 ≤ B := by have := L.base; omega
  have hone : Rep B ubigOne 1 := ⟨by simp [ubigOne]; omega, by simp [ubigOne, Canon], by simp [ubigOne]⟩
  unfold pow
  by_cases e0 : e = 0
  · rw [if_pos e0, e0]; exact Sp.pure (by simpa using hone)
  rw [if_neg e0]
  by_cases e1 : e = 1
  · rw [if_pos e1, e1]; exact Sp.pure (by simpa using hx)
  rw [if_neg e1]
  by_cases e2 : e = 2
  · rw [if_pos e2]
    subst e2
    rw [pow_two] at hK ⊢
    refine square_safe_spec L hx (hx.length_le hB2 ?_) fun t => ⟨d, ?_⟩
    · rw [show 2262 = 1131 + 1131 from rfl, pow_add] at hK
      exact lt_of_not_ge fun h => absurd (Nat.mul_le_mul h h) (not_le.mpr hK)
    · simpa using (hT t 0 (by norm_num)).1
  rw [if_neg e2]
  have key := @powLoop_safe_spec D B dbg L T d m e hK hT (e + 1)
    (if e % 2 = 0 then ubigOne else x) x 0
  simp only [Nat.zero_add, pow_one, pow_zero] at key
  refine key ?_ hx (by omega)
  by_cases hev : e % 2 = 0
  · rw [if_pos hev, hev]; simpa using hone
  · rw [if_neg hev, show e % 2 = 1 by omega]; simpa using hx

theorem shlDec_large_spec {dbg : Bool} (L : Lawful D B) {T : Prop} {mh : Nat} {x : List Nat}
    {m n : Nat} (hx : Rep B x m) (hn : ¬ n ≤ 4 * mh) (hK : 2 ^ n < B ^ 2262)
    (hT : T → 2 ^ n < B ^ 19 ∨ 2 ^ n < B ^ 40 ∧ x.length ≤ 40) :
    Sp (fun p => p = .unwrap ∧ ¬ T) (shlDec D dbg mh x n) (Rep B · (m * 2 ^ n)) := by
  have hB := L.base
  have htwo : addBig D ubigOne ubigOne = .ok [2] := by
    obtain ⟨z, h1, h2, h3, h4, -⟩ := addBig_spec L ubigOne ubigOne (by simp [ubigOne]; omega)
      (by simp [ubigOne]; omega)
    have h2 : Rep B z 2 := ⟨h2, h4 (by simp [ubigOne, Canon]) (by simp [ubigOne, Canon]),
      by rw [h3]; simp [ubigOne]⟩
    rw [h1]
    congr 1
    have h3 : Rep B [2] 2 := ⟨by simp; omega, by simp [Canon], by simp⟩
    exact h2.unique h3
  unfold shlDec
  rw [if_neg hn, htwo, ok_bind]
  have h2 : Rep B [2] 2 := ⟨by simp; omega, by simp [Canon], by simp⟩
  have h19 : B ^ 19 ≤ B ^ 40 := Nat.pow_le_pow_right L.pos (by omega)
  refine Sp.bind (pow_spec (T := T) L h2 hK ?_) ?_
  · intro t; rcases hT t with h | h
    · omega
    · exact h.1
  · intro scale hs
    refine mulBig_spec L hx hs ?_
    intro t
    rcases hT t with h | h
    · have := hs.length_le (by omega) h
      right; left; omega
    · have := hs.length_le (by omega) h.1
      right; right; omega

/-- The shift, with the products that are met. -/
theorem shlDec_safe_spec {dbg : Bool} (L : Lawful D B) {T : Prop} {mh : Nat} {x : List Nat}
    {m n d : Nat} (hx : Rep B x m) (hn : ¬ n ≤ 4 * mh) (hK : 2 ^ n < B ^ 2262)
    (hT : T → powSafe B d 2 n ∧ mulSafe B d m (2 ^ n) = true) :
    Sp (fun p => p = .unwrap ∧ ¬ T) (shlDec D dbg mh x n) (Rep B · (m * 2 ^ n)) := by
  have hB := L.base
  have htwo : addBig D ubigOne ubigOne = .ok [2] := by
    obtain ⟨z, h1, h2, h3, h4, -⟩ := addBig_spec L ubigOne ubigOne (by simp [ubigOne]; omega)
      (by simp [ubigOne]; omega)
    have h2 : Rep B z 2 := ⟨h2, h4 (by simp [ubigOne, Canon]) (by simp [ubigOne, Canon]),
      by rw [h3]; simp [ubigOne]⟩
    rw [h1]
    congr 1
    have h3 : Rep B [2] 2 := ⟨by simp; omega, by simp [Canon], by simp⟩
    exact h2.unique h3
  unfold shlDec
  rw [if_neg hn, htwo, ok_bind]
  have h2 : Rep B [2] 2 := ⟨by simp; omega, by simp [Canon], by simp⟩
  refine Sp.bind (pow_safe_spec (T := T) L h2 hK fun t => (hT t).1) ?_
  intro scale hs
  exact mulBig_safe_spec L hx hs fun t => ⟨d, (hT t).2⟩

end Babs
