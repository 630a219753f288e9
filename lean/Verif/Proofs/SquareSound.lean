import Verif.Proofs.SquareFresh

/-!
# Helper lemmas: squares of numbers of any size that are right if they are returned
-/

namespace Babs

variable {D : DigitOps} {B : Nat}

/-- What a square of a long number consists of. -/
theorem squareSound_toom {x : List Nat} {d : Nat} {clr wclr : Bool} (hB : 2 ≤ B) (hx : Digs B x)
    (hc : Canon x) (h128 : 128 ≤ x.length) (h : squareSound B d clr wclr (val B x) = true) :
    ∃ d', ∀ a0 a1 a2, val B x = a0 + B ^ ((x.length + 2) / 3) * a1
        + B ^ (2 * ((x.length + 2) / 3)) * a2 → a0 < B ^ ((x.length + 2) / 3) →
        a1 < B ^ ((x.length + 2) / 3) → evalSafe B a0 a1 a2 = true ∧
        (clr = true ∨ evalFresh B a0 a1 a2 = true) ∧
        squareSound B d' true false a0 = true ∧ squareSound B d' wclr false (a0 + a1 + a2) = true ∧
        squareSound B d' wclr false (Nat.dist (a0 + a2) a1) = true ∧
        squareSound B d' wclr false (Nat.dist (a0 + 4 * a2) (2 * a1)) = true ∧
        squareSound B d' true false a2 = true := by
  cases d with
  | zero => simp [squareSound] at h
  | succ d =>
    refine ⟨d, fun a0 a1 a2 ex h0 h1 => ?_⟩
    unfold squareSound at h
    rw [size_canon hB hx hc, if_neg (by omega)] at h
    generalize (x.length + 2) / 3 = s at *
    have hP : 0 < B ^ s := Nat.pow_pos (by omega)
    rw [two_mul, pow_add, Nat.mul_assoc, Nat.add_assoc, ← Nat.mul_add] at ex
    have m1 : val B x % B ^ s = a0 := by rw [ex, Nat.add_mul_mod_self_left, Nat.mod_eq_of_lt h0]
    have m3 : val B x / B ^ s = a1 + B ^ s * a2 := by
      rw [ex, Nat.add_mul_div_left _ _ hP, Nat.div_eq_of_lt h0, Nat.zero_add]
    have m5 : (a1 + B ^ s * a2) % B ^ s = a1 := by
      rw [Nat.add_mul_mod_self_left, Nat.mod_eq_of_lt h1]
    have m7 : (a1 + B ^ s * a2) / B ^ s = a2 := by
      rw [Nat.add_mul_div_left _ _ hP, Nat.div_eq_of_lt h1, Nat.zero_add]
    simp only [m1, m3, m5, m7, Bool.and_eq_true, Bool.or_eq_true] at h
    obtain ⟨⟨⟨⟨⟨⟨b0, b1⟩, b2⟩, b3⟩, b4⟩, b5⟩, b6⟩ := h
    exact ⟨b0, b1, b2, b3, b4, b5, b6⟩

/-- Squaring in buffers that need not be clear. -/
theorem squareIntoWithWork_sound {dbg : Bool} (L : Lawful D B) (fuel : Nat) :
    ∀ {x product work : List Nat} {clr : Bool} {d : Nat}, Digs B x → Digs B product →
    Digs B work → x.length < fuel → 2 * x.length ≤ product.length →
    toom3WorkSize x.length ≤ work.length →
    (clr = true → product.take (2 * x.length) = List.replicate (2 * x.length) 0) →
    Canon x → squareSound B d clr false (val B x) = true →
    Sp (fun p => p = .unwrap ∧ ¬ False) (squareIntoWithWork D dbg fuel x product work)
      (MulPost B (2 * x.length) (val B x * val B x) product work) := by
  have hB2 : 2 ≤ B := by have := L.base; omega
  induction fuel with
  | zero => intros; omega
  | succ fuel ih =>
    intro x product work clr d hx hp hw hf hlen hwk hclr hc hF
    by_cases h128 : x.length < 128
    · exact squareIntoWithWork_small L (fuel + 1) hx hp hw hf h128 hlen
        (fun _ => le_trans (karatsuba_le_toom3 _) hwk) False.elim
    · obtain ⟨e, he⟩ := squareSound_toom hB2 hx hc (by omega) hF
      unfold squareIntoWithWork
      rw [if_neg (by rintro rfl; simp at h128)]
      simp only []
      refine Sp.bind_eq (a := ()) (by simp [assertR, hlen]) ?_
      rw [if_pos (by unfold toom3Cutoff; omega)]
      refine squareToom3Into_win (clr := clr) (wclr := false) (U := True)
        (Q := fun c v => squareSound B e c false v = true) L hx hp hw
        (by omega) hlen hwk hclr (by simp) False.elim False.elim
        (fun _ => ⟨hc, fun a0 a1 a2 h1 h2 h3 => (he a0 a1 a2 h1 h2 h3).1⟩) ?_ ?_ ?_
      · by_cases hcl : clr = true
        · exact Or.inl hcl
        · exact Or.inr fun a0 a1 a2 h1 h2 h3 => ((he a0 a1 a2 h1 h2 h3).2.1).resolve_left hcl
      · exact fun a0 a1 a2 h1 h2 h3 => (he a0 a1 a2 h1 h2 h3).2.2
      · intro a pr wk c ha hpr hwkd hal hl hwl hcl hq hac _
        exact ih ha hpr hwkd (by omega) hl (le_trans (toom3WorkSize_mono hal) hwl) hcl (hac trivial) hq

theorem squareInto_sound {dbg : Bool} (L : Lawful D B) {x : List Nat} {len d : Nat}
    (hx : Digs B x) (hlen : 2 * x.length ≤ len) (hc : Canon x)
    (hF : squareSound B d true true (val B x) = true) :
    Sp (fun p => p = .unwrap ∧ ¬ False) (squareInto D dbg x (List.replicate len 0))
      (ProdPost B (val B x * val B x) (List.replicate len 0)) := by
  have hB := L.pos
  have hB2 : 2 ≤ B := by have := L.base; omega
  by_cases h1131 : x.length ≤ 1131
  · exact squareInto_spec L hx hlen h1131 False.elim
  · obtain ⟨e, he⟩ := squareSound_toom hB2 hx hc (by omega) hF
    unfold squareInto
    rw [if_neg (by rintro rfl; simp at h1131)]
    simp only []
    refine Sp.bind_eq (a := ()) (by simp [assertR, hlen]) ?_
    rw [if_pos (by unfold toom3Cutoff; omega)]
    refine Sp.bind (squareToom3Into_win (clr := true) (wclr := true) (U := True)
      (Q := fun c v => squareSound B e c false v = true) L hx (digs_replicate hB) (digs_replicate hB)
      (by omega) (by simpa using hlen) (by rw [List.length_replicate]) ?_ ?_
      False.elim False.elim (fun _ => ⟨hc, fun a0 a1 a2 h1 h2 h3 => (he a0 a1 a2 h1 h2 h3).1⟩)
      (Or.inl rfl) ?_ ?_) ?_
    · intro _
      rw [List.take_replicate, Nat.min_eq_left hlen]
    · intro _
      have := toom3WorkSize_eq x.length
      rw [if_pos (by omega)] at this
      rw [List.take_replicate]
      congr 1; omega
    · exact fun a0 a1 a2 h1 h2 h3 => (he a0 a1 a2 h1 h2 h3).2.2
    · intro a pr wk c ha hpr hwkd hal hl hwl hcl hq hac _
      exact squareIntoWithWork_sound L _ ha hpr hwkd (by unfold mulFuel; omega) hl
        (le_trans (toom3WorkSize_mono hal) hwl) hcl (hac trivial) hq
    · rintro ⟨r, w, n⟩ h
      exact h.prod

/-- The square of a number of any size, if it meets no stale digits. -/
theorem square_sound_spec {dbg : Bool} (L : Lawful D B) {x : List Nat} {m d : Nat}
    (hx : Rep B x m) (hF : squareSound B d true true m = true) :
    Sp (· = .unwrap) (square D dbg x) (Rep B · (m * m)) := by
  rw [← hx.val_eq] at hF ⊢
  refine Sp.weaken (E := fun p => p = .unwrap ∧ ¬ False) ?_ fun _ h => h.1
  unfold square
  by_cases h0 : x = []
  · rw [if_pos h0, h0]
    exact rep_zero B
  · rw [if_neg h0]
    refine Sp.bind (squareInto_sound L hx.digs (le_refl _) hx.canon hF) ?_
    rintro ⟨r, n⟩ h
    exact h.rep

/-! ## Powers and decimal shifts -/

/-- The loop of the power.  `F` says that one of the squares that are met panics, and `K` is one more than its
number. -/
theorem powLoop_sound_spec {K : Nat} {dbg : Bool} (L : Lawful D B) {m e : Nat} {F : Prop}
    (hF : ∀ i y, 2 ^ (i + 1) ≤ e → (F → i < K) → Rep B y (m ^ 2 ^ i) →
      Sp (· = .unwrap) (square D dbg y) fun z => Rep B z (m ^ 2 ^ i * m ^ 2 ^ i) ∧ (F → i + 1 < K))
    (hK : F → 2 ^ K ≤ e) (fuel : Nat) :
    ∀ {result power : List Nat} {k : Nat}, Rep B result (m ^ (e % 2 ^ (k + 1))) →
    Rep B power (m ^ 2 ^ k) → e / 2 ^ (k + 1) < fuel → (F → k < K) →
    Sp (· = .unwrap) (powLoop D dbg fuel result power (e / 2 ^ (k + 1)))
      (fun z => Rep B z (m ^ e) ∧ ¬ F) := by
  induction fuel with
  | zero => intro _ _ _ _ _ h; exact absurd h (Nat.not_lt_zero _)
  | succ fuel ih =>
    intro result power k hr hp hn hkK
    have hB2 : 2 ≤ B := by have := L.base; omega
    unfold powLoop
    by_cases hn0 : e / 2 ^ (k + 1) = 0
    · rw [if_pos hn0]
      have : e % 2 ^ (k + 1) = e := by
        have := Nat.div_add_mod e (2 ^ (k + 1)); rw [hn0] at this; omega
      rw [this] at hr
      refine Sp.pure ⟨hr, fun f => ?_⟩
      have h1 : e < 2 ^ (k + 1) := by
        rcases Nat.div_eq_zero_iff.mp hn0 with h | h
        · have := Nat.pow_pos (n := k + 1) (show 0 < 2 by omega); omega
        · exact h
      have h2 : 2 ^ (k + 1) ≤ 2 ^ K := Nat.pow_le_pow_right (by omega) (hkK f)
      have := hK f
      omega
    · rw [if_neg hn0]
      have hpos : 0 < 2 ^ (k + 1) := Nat.pow_pos (by omega)
      have hle : 2 ^ (k + 1) ≤ e := by
        by_contra h; exact hn0 (Nat.div_eq_of_lt (by omega))
      have hsq : m ^ 2 ^ k * m ^ 2 ^ k = m ^ 2 ^ (k + 1) := by
        rw [← pow_add]; congr 1; rw [pow_succ]; omega
      refine Sp.bind (hF k power hle hkK hp) ?_
      rintro power' ⟨hp', hkF⟩
      rw [hsq] at hp'
      have hdiv : e / 2 ^ (k + 1) / 2 = e / 2 ^ (k + 1 + 1) := by
        rw [Nat.div_div_eq_div_mul, ← pow_succ]
      have hmod : e % 2 ^ (k + 1 + 1) = e % 2 ^ (k + 1) + 2 ^ (k + 1) * (e / 2 ^ (k + 1) % 2) := by
        rw [pow_succ 2 (k + 1), Nat.mod_mul]
      have hres : Sp (· = .unwrap)
          (if e / 2 ^ (k + 1) % 2 ≠ 0 then mulBig D dbg result power' else Pure.pure result)
          (Rep B · (m ^ (e % 2 ^ (k + 1 + 1)))) := by
        by_cases hodd : e / 2 ^ (k + 1) % 2 ≠ 0
        · rw [if_pos hodd]
          have h1 : e / 2 ^ (k + 1) % 2 = 1 := by omega
          rw [hmod, h1, Nat.mul_one, pow_add]
          exact (mulBig_safe_spec L (T := False) hr hp' False.elim).weaken fun _ h => h.1
        · rw [if_neg hodd]
          have h1 : e / 2 ^ (k + 1) % 2 = 0 := by omega
          rw [hmod, h1, Nat.mul_zero, Nat.add_zero]
          exact hr
      simp only []
      rw [ite_bind_comm]
      refine Sp.bind hres ?_
      intro result' hr'
      rw [hdiv]
      refine ih hr' hp' ?_ hkF
      rw [← hdiv]
      exact lt_of_lt_of_le (Nat.div_lt_self (Nat.pos_of_ne_zero hn0) (by omega)) (by omega)

/-- Powers, if the squares met are right or panic.  If a square that is met panics, so does the power. -/
theorem pow_sound_spec {dbg : Bool} (L : Lawful D B) {x : List Nat} {m e K : Nat} {F : Prop}
    (hx : Rep B x m)
    (hF : ∀ i y, 2 ^ (i + 1) ≤ e → (F → i < K) → Rep B y (m ^ 2 ^ i) →
      Sp (· = .unwrap) (square D dbg y) fun z => Rep B z (m ^ 2 ^ i * m ^ 2 ^ i) ∧ (F → i + 1 < K))
    (hK : F → 2 ^ K ≤ e ∧ 1 < K) :
    Sp (· = .unwrap) (pow D dbg x e) (fun z => Rep B z (m ^ e) ∧ ¬ F) := by
  have hB2 : 2 ≤ B := by have := L.base; omega
  have hone : Rep B ubigOne 1 := ⟨by simp [ubigOne]; omega, by simp [ubigOne, Canon], by simp [ubigOne]⟩
  have hF4 : F → 4 ≤ e := fun f => by
    have := Nat.pow_le_pow_right (show 0 < 2 by omega) (hK f).2
    have := (hK f).1
    omega
  unfold pow
  by_cases e0 : e = 0
  · rw [if_pos e0, e0]; exact Sp.pure ⟨by simpa using hone, fun f => by have := hF4 f; omega⟩
  rw [if_neg e0]
  by_cases e1 : e = 1
  · rw [if_pos e1, e1]; exact Sp.pure ⟨by simpa using hx, fun f => by have := hF4 f; omega⟩
  rw [if_neg e1]
  by_cases e2 : e = 2
  · rw [if_pos e2]
    subst e2
    rw [pow_two]
    have := hF 0 x (by norm_num) (fun f => by have := (hK f).2; omega) (by simpa using hx)
    refine this.mono fun z hz => ⟨by simpa using hz.1, fun f => by have := hF4 f; omega⟩
  rw [if_neg e2]
  have key := @powLoop_sound_spec D B K dbg L m e F hF (fun f => (hK f).1) (e + 1)
    (if e % 2 = 0 then ubigOne else x) x 0
  simp only [Nat.zero_add, pow_one, pow_zero] at key
  refine key ?_ hx (by omega) (fun f => by have := (hK f).2; omega)
  by_cases hev : e % 2 = 0
  · rw [if_pos hev, hev]; simpa using hone
  · rw [if_neg hev, show e % 2 = 1 by omega]; simpa using hx

/-- The shift, if the squares met are right or panic. -/
theorem shlDec_sound_spec {dbg : Bool} (L : Lawful D B) {mh : Nat} {x : List Nat}
    {m n K : Nat} {F : Prop} (hx : Rep B x m) (hn : ¬ n ≤ 4 * mh)
    (hF : ∀ i y, 2 ^ (i + 1) ≤ n → (F → i < K) → Rep B y (2 ^ 2 ^ i) →
      Sp (· = .unwrap) (square D dbg y) fun z => Rep B z (2 ^ 2 ^ i * 2 ^ 2 ^ i) ∧ (F → i + 1 < K))
    (hK : F → 2 ^ K ≤ n ∧ 1 < K) :
    Sp (· = .unwrap) (shlDec D dbg mh x n) (fun z => Rep B z (m * 2 ^ n) ∧ ¬ F) := by
  have hB := L.base
  have htwo : addBig D ubigOne ubigOne = .ok [2] := by
    obtain ⟨z, h1, h2, h3, h4, -⟩ := addBig_spec L ubigOne ubigOne (by simp [ubigOne]; omega)
      (by simp [ubigOne]; omega)
    have h2 : Rep B z 2 := ⟨h2, h4 (by simp [ubigOne, Canon]) (by simp [ubigOne, Canon]),
      by rw [h3]; simp [ubigOne]⟩
    rw [h1]
    congr 1
    have h3 : Rep B [2] 2 := ⟨by simp; omega, by simp [Canon], by simp⟩
    exact h2.unique h3
  unfold shlDec
  rw [if_neg hn, htwo, ok_bind]
  have h2 : Rep B [2] 2 := ⟨by simp; omega, by simp [Canon], by simp⟩
  refine Sp.bind (pow_sound_spec L h2 hF hK) ?_
  rintro scale ⟨hs, hnf⟩
  exact ((mulBig_safe_spec L (T := False) hx hs False.elim).weaken fun _ h => h.1).mono
    fun z hz => ⟨hz, hnf⟩

end Babs
