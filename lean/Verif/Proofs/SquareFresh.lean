import Verif.Proofs.ToomStale
import Verif.Proofs.MulBig
import Verif.Proofs.SafePow2

/-!
# Helper lemmas: squares of numbers of any size
-/

namespace Babs

variable {D : DigitOps} {B : Nat}

/-- What a square of a long number consists of. -/
theorem squareFresh_toom {x : List Nat} {d : Nat} {clr wclr : Bool} (hB : 2 ≤ B) (hx : Digs B x)
    (hc : Canon x) (h128 : 128 ≤ x.length) (h : squareFresh B d clr wclr (val B x) = true) :
    ∃ d', ∀ a0 a1 a2, val B x = a0 + B ^ ((x.length + 2) / 3) * a1
        + B ^ (2 * ((x.length + 2) / 3)) * a2 → a0 < B ^ ((x.length + 2) / 3) →
        a1 < B ^ ((x.length + 2) / 3) → (clr = true ∨ evalFresh B a0 a1 a2 = true) ∧
        squareFresh B d' true false a0 = true ∧ squareFresh B d' wclr false (a0 + a1 + a2) = true ∧
        squareFresh B d' wclr false (Nat.dist (a0 + a2) a1) = true ∧
        squareFresh B d' wclr false (Nat.dist (a0 + 4 * a2) (2 * a1)) = true ∧
        squareFresh B d' true false a2 = true := by
  cases d with
  | zero => simp [squareFresh] at h
  | succ d =>
    refine ⟨d, fun a0 a1 a2 ex h0 h1 => ?_⟩
    unfold squareFresh at h
    rw [size_canon hB hx hc, if_neg (by omega)] at h
    generalize (x.length + 2) / 3 = s at *
    have hP : 0 < B ^ s := Nat.pow_pos (by omega)
    rw [two_mul, pow_add, Nat.mul_assoc, Nat.add_assoc, ← Nat.mul_add] at ex
    have m1 : val B x % B ^ s = a0 := by rw [ex, Nat.add_mul_mod_self_left, Nat.mod_eq_of_lt h0]
    have m3 : val B x / B ^ s = a1 + B ^ s * a2 := by
      rw [ex, Nat.add_mul_div_left _ _ hP, Nat.div_eq_of_lt h0, Nat.zero_add]
    have m5 : (a1 + B ^ s * a2) % B ^ s = a1 := by
      rw [Nat.add_mul_mod_self_left, Nat.mod_eq_of_lt h1]
    have m7 : (a1 + B ^ s * a2) / B ^ s = a2 := by
      rw [Nat.add_mul_div_left _ _ hP, Nat.div_eq_of_lt h1, Nat.zero_add]
    simp only [m1, m3, m5, m7, Bool.and_eq_true, Bool.or_eq_true] at h
    obtain ⟨⟨⟨⟨⟨b1, b2⟩, b3⟩, b4⟩, b5⟩, b6⟩ := h
    exact ⟨b1, b2, b3, b4, b5, b6⟩

theorem mulP_evalSafe {x : List Nat} {d : Nat} (hB : 2 ≤ B) (hx : Digs B x) (hcut : 128 ≤ x.length)
    (hc : Canon x) (hS : mulSafe B d (val B x) (val B x) = true) :
    Canon x ∧ ∀ a0 a1 a2, val B x = a0 + B ^ ((x.length + 2) / 3) * a1
        + B ^ (2 * ((x.length + 2) / 3)) * a2 → a0 < B ^ ((x.length + 2) / 3) →
        a1 < B ^ ((x.length + 2) / 3) → evalSafe B a0 a1 a2 = true :=
  (MulP.eval hB (Or.inr ⟨hc, hc, d, hS⟩) hx hx hcut hcut (by omega)).1

/-- Squaring in buffers that need not be clear. -/
theorem squareIntoWithWork_win {dbg : Bool} (L : Lawful D B) (fuel : Nat) :
    ∀ {x product work : List Nat} {clr : Bool} {d d' : Nat}, Digs B x → Digs B product →
    Digs B work → x.length < fuel → 2 * x.length ≤ product.length →
    toom3WorkSize x.length ≤ work.length →
    (clr = true → product.take (2 * x.length) = List.replicate (2 * x.length) 0) →
    Canon x → mulSafe B d (val B x) (val B x) = true → squareFresh B d' clr false (val B x) = true →
    Sp (fun p => p = .unwrap ∧ ¬ True) (squareIntoWithWork D dbg fuel x product work)
      (MulPost B (2 * x.length) (val B x * val B x) product work) := by
  have hB2 : 2 ≤ B := by have := L.base; omega
  induction fuel with
  | zero => intros; omega
  | succ fuel ih =>
    intro x product work clr d d' hx hp hw hf hlen hwk hclr hc hS hF
    by_cases h128 : x.length < 128
    · exact squareIntoWithWork_small L (fuel + 1) hx hp hw hf h128 hlen
        (fun _ => le_trans (karatsuba_le_toom3 _) hwk) (fun _ => Or.inr ⟨hc, hc, d, hS⟩)
    · obtain ⟨e, he⟩ := squareFresh_toom hB2 hx hc (by omega) hF
      unfold squareIntoWithWork
      rw [if_neg (by rintro rfl; simp at h128)]
      simp only []
      refine Sp.bind_eq (a := ()) (by simp [assertR, hlen]) ?_
      rw [if_pos (by unfold toom3Cutoff; omega)]
      refine squareToom3Into_win (clr := clr) (wclr := false)
        (Q := fun c v => squareFresh B e c false v = true) L hx hp hw
        (by omega) hlen hwk hclr (by simp) (fun _ => Or.inr ⟨hc, hc, d, hS⟩) id
        (fun _ => (mulP_evalSafe hB2 hx (by omega) hc hS)) ?_ ?_ ?_
      · by_cases hcl : clr = true
        · exact Or.inl hcl
        · exact Or.inr fun a0 a1 a2 h1 h2 h3 => ((he a0 a1 a2 h1 h2 h3).1).resolve_left hcl
      · exact fun a0 a1 a2 h1 h2 h3 => (he a0 a1 a2 h1 h2 h3).2
      · intro a pr wk c ha hpr hwkd hal hl hwl hcl hq hac' hT'
        have hac := hac' trivial
        obtain ⟨d2, hd2⟩ := hT' trivial
        exact ih ha hpr hwkd (by omega) hl (le_trans (toom3WorkSize_mono hal) hwl) hcl hac hd2 hq

theorem squareInto_win {dbg : Bool} (L : Lawful D B) {x : List Nat} {len d d' : Nat}
    (hx : Digs B x) (hlen : 2 * x.length ≤ len) (hc : Canon x)
    (hS : mulSafe B d (val B x) (val B x) = true)
    (hF : squareFresh B d' true true (val B x) = true) :
    Sp (fun p => p = .unwrap ∧ ¬ True) (squareInto D dbg x (List.replicate len 0))
      (ProdPost B (val B x * val B x) (List.replicate len 0)) := by
  have hB := L.pos
  have hB2 : 2 ≤ B := by have := L.base; omega
  by_cases h1131 : x.length ≤ 1131
  · exact squareInto_spec L hx hlen h1131 (fun _ => Or.inr ⟨hc, hc, d, hS⟩)
  · obtain ⟨e, he⟩ := squareFresh_toom hB2 hx hc (by omega) hF
    unfold squareInto
    rw [if_neg (by rintro rfl; simp at h1131)]
    simp only []
    refine Sp.bind_eq (a := ()) (by simp [assertR, hlen]) ?_
    rw [if_pos (by unfold toom3Cutoff; omega)]
    refine Sp.bind (squareToom3Into_win (clr := true) (wclr := true)
      (Q := fun c v => squareFresh B e c false v = true) L hx (digs_replicate hB) (digs_replicate hB)
      (by omega) (by simpa using hlen) (by rw [List.length_replicate]) ?_ ?_
      (fun _ => Or.inr ⟨hc, hc, d, hS⟩) id (fun _ => (mulP_evalSafe hB2 hx (by omega) hc hS))
      (Or.inl rfl) ?_ ?_) ?_
    · intro _
      rw [List.take_replicate, Nat.min_eq_left hlen]
    · intro _
      have := toom3WorkSize_eq x.length
      rw [if_pos (by omega)] at this
      rw [List.take_replicate]
      congr 1; omega
    · exact fun a0 a1 a2 h1 h2 h3 => (he a0 a1 a2 h1 h2 h3).2
    · intro a pr wk c ha hpr hwkd hal hl hwl hcl hq hac' hT'
      have hac := hac' trivial
      obtain ⟨d2, hd2⟩ := hT' trivial
      exact squareIntoWithWork_win L _ ha hpr hwkd (by unfold mulFuel; omega) hl
        (le_trans (toom3WorkSize_mono hal) hwl) hcl hac hd2 hq
    · rintro ⟨r, w, n⟩ h
      exact h.prod

/-- The square of a number of any size, if it meets no stale digits. -/
theorem square_fresh_spec {dbg : Bool} (L : Lawful D B) {x : List Nat} {m d d' : Nat}
    (hx : Rep B x m) (hS : mulSafe B d m m = true) (hF : squareFresh B d' true true m = true) :
    Sp (fun p => p = .unwrap ∧ ¬ True) (square D dbg x) (Rep B · (m * m)) := by
  rw [← hx.val_eq] at hS hF ⊢
  unfold square
  by_cases h0 : x = []
  · rw [if_pos h0, h0]
    exact rep_zero B
  · rw [if_neg h0]
    refine Sp.bind (squareInto_win L hx.digs (le_refl _) hx.canon hS hF) ?_
    rintro ⟨r, n⟩ h
    exact h.rep

/-! ## Numbers that are always fine -/

theorem squareFresh_short {x : Nat} {c w : Bool} (d : Nat) (h : size B x < 128) :
    squareFresh B (d + 1) c w x = true := by
  unfold squareFresh
  rw [if_pos h]

/-- A clear buffer is enough if the values of the polynomial have squares that are fine. -/
theorem squareFresh_clear {x d k : Nat} {w : Bool} (hB : 8 ≤ B) (hx : x < B ^ (3 * k))
    (h : ∀ y c, y < B ^ (k + 1) → (w = true → c = true) → squareFresh B d c false y = true) :
    squareFresh B (d + 1) true w x = true := by
  have hs := size_le (show 2 ≤ B by omega) hx
  have hx' := lt_pow_size x (show 2 ≤ B by omega)
  unfold squareFresh
  by_cases h128 : size B x < 128
  · rw [if_pos h128]
  · rw [if_neg h128]
    simp only [Bool.true_or, Bool.true_and, Bool.and_eq_true]
    generalize hsd : (size B x + 2) / 3 = s
    have hP : 0 < B ^ s := Nat.pow_pos (by omega)
    have hsk : B ^ s ≤ B ^ k := Nat.pow_le_pow_right (by omega) (by omega)
    have hP1 : 8 * B ^ k ≤ B ^ (k + 1) := by
      rw [pow_succ, Nat.mul_comm]; exact Nat.mul_le_mul_left _ hB
    have h3 : B ^ size B x ≤ B ^ s * (B ^ s * B ^ s) := by
      rw [← pow_add, ← pow_add]; exact Nat.pow_le_pow_right (by omega) (by omega)
    have a0 : x % B ^ s < B ^ s := Nat.mod_lt _ hP
    have a1 : x / B ^ s % B ^ s < B ^ s := Nat.mod_lt _ hP
    have a2 : x / B ^ s / B ^ s < B ^ s := Nat.div_lt_of_lt_mul (Nat.div_lt_of_lt_mul (by omega))
    generalize x % B ^ s = x0 at *
    generalize x / B ^ s % B ^ s = x1 at *
    generalize x / B ^ s / B ^ s = x2 at *
    have d1 := dist_le_max (x0 + x2) x1
    have d2 := dist_le_max (x0 + 4 * x2) (2 * x1)
    exact ⟨⟨⟨⟨h _ _ (by omega) (fun _ => rfl), h _ _ (by omega) id⟩, h _ _ (by omega) id⟩,
      h _ _ (by omega) id⟩, h _ _ (by omega) (fun _ => rfl)⟩

/-- Squares of up to 1131 digits meet no stale digits. -/
theorem squareFresh_1131 {x : Nat} (hB : 8 ≤ B) (hx : x < B ^ 1131) :
    squareFresh B 3 true true x = true := by
  refine squareFresh_clear (k := 377) hB hx fun y c hy hc => ?_
  rw [hc rfl]
  refine squareFresh_clear (k := 126) hB (lt_of_lt_of_le hy
    (Nat.pow_le_pow_right (by omega) (by omega))) fun z c' hz _ => ?_
  exact squareFresh_short 0 (lt_of_le_of_lt (size_le (by omega) hz) (by omega))

/-- Squares of powers of two meet no stale digits if the base is a power of two. -/
theorem squareFresh_pow2 {w : Nat} (hw : 3 ≤ w) (d : Nat) : ∀ {N x : Nat} {c wc : Bool}, N < d → P2 x →
    x < (2 ^ w) ^ N → squareFresh (2 ^ w) d c wc x = true := by
  have hB8 : 8 ≤ 2 ^ w := by
    calc 8 = 2 ^ 3 := rfl
      _ ≤ 2 ^ w := Nat.pow_le_pow_right (by omega) hw
  have hB : 2 ≤ 2 ^ w := by omega
  induction d with
  | zero => intros; omega
  | succ d ih =>
    intro N x c wc hN hx hxN
    have hsx := size_le hB hxN
    by_cases h1 : size (2 ^ w) x < 128
    · exact squareFresh_short d h1
    have hx' := lt_pow_size x hB
    have hxl : (2 ^ w) ^ (size (2 ^ w) x - 1) ≤ x := by
      have h0 : x ≠ 0 := by rintro rfl; rw [size_zero] at h1; omega
      unfold size
      rw [if_neg h0, Nat.add_sub_cancel]
      exact Nat.pow_log_le_self _ h0
    unfold squareFresh
    rw [if_neg h1]
    simp only []
    generalize hn : size (2 ^ w) x = n at *
    generalize hs : (n + 2) / 3 = s
    have hP : 0 < (2 ^ w) ^ s := Nat.pow_pos (by omega)
    have hP1 : 8 * (2 ^ w) ^ s ≤ (2 ^ w) ^ (s + 1) := by
      rw [pow_succ, Nat.mul_comm]; exact Nat.mul_le_mul_left _ hB8
    have h3 : (2 ^ w) ^ n ≤ (2 ^ w) ^ s * ((2 ^ w) ^ s * (2 ^ w) ^ s) := by
      rw [← pow_add, ← pow_add]; exact Nat.pow_le_pow_right (by omega) (by omega)
    have h4 : (2 ^ w) ^ s * (2 ^ w) ^ s ≤ x := by
      refine le_trans ?_ hxl
      rw [← pow_add]; exact Nat.pow_le_pow_right (by omega) (by omega)
    have a2 : x / (2 ^ w) ^ s / (2 ^ w) ^ s < (2 ^ w) ^ s :=
      Nat.div_lt_of_lt_mul (Nat.div_lt_of_lt_mul (by omega))
    have a3 : 0 < x / (2 ^ w) ^ s / (2 ^ w) ^ s := by
      rw [Nat.div_div_eq_div_mul]
      exact Nat.div_pos h4 (Nat.mul_pos hP hP)
    obtain ⟨p, hp, hps⟩ := hx.split3 (w * s)
    rw [pow_mul] at hps
    have hps : x % (2 ^ w) ^ s = 0 ∧ x / (2 ^ w) ^ s % (2 ^ w) ^ s = 0 ∧
        x / (2 ^ w) ^ s / (2 ^ w) ^ s = p := by
      rcases hps with ⟨-, -, h⟩ | ⟨-, -, h⟩ | h
      · omega
      · omega
      · exact h
    obtain ⟨e1, e2, e3⟩ := hps
    rw [e1, e2, e3]
    rw [e3] at a2
    have ih' := fun {x : Nat} {c wc : Bool} => @ih (s + 1) x c wc (by omega)
    have hz : P2 0 := P2.zero
    have e4 : Nat.dist (0 + p) 0 = p := by simp [Nat.dist]
    have e5 : Nat.dist (0 + 4 * p) (2 * 0) = 4 * p := by simp [Nat.dist]
    have hf : evalFresh (2 ^ w) 0 0 p = true := by
      simp [evalFresh, size_zero]
    rw [e4, e5, hf, show 0 + 0 + p = p by omega, ih' hz (by omega), ih' hp (by omega),
      ih' (x := 4 * p) (hp.mul_pow 2) (by omega)]
    simp [ih' hp (by omega)]

/-! ## Powers and decimal shifts -/

theorem powLoop_fresh_spec {dbg : Bool} (L : Lawful D B) {d d' m e : Nat}
    (hS : powSafe B d m e) (hF : powFresh B d' m e) (fuel : Nat) :
    ∀ {result power : List Nat} {k : Nat}, Rep B result (m ^ (e % 2 ^ (k + 1))) →
    Rep B power (m ^ 2 ^ k) → e / 2 ^ (k + 1) < fuel →
    Sp (fun p => p = .unwrap ∧ ¬ True) (powLoop D dbg fuel result power (e / 2 ^ (k + 1)))
      (Rep B · (m ^ e)) := by
  induction fuel with
  | zero => intro _ _ _ _ _ h; exact absurd h (Nat.not_lt_zero _)
  | succ fuel ih =>
    intro result power k hr hp hn
    have hB2 : 2 ≤ B := by have := L.base; omega
    unfold powLoop
    by_cases hn0 : e / 2 ^ (k + 1) = 0
    · rw [if_pos hn0]
      have : e % 2 ^ (k + 1) = e := by
        have := Nat.div_add_mod e (2 ^ (k + 1)); rw [hn0] at this; omega
      rw [this] at hr
      exact Sp.pure hr
    · rw [if_neg hn0]
      have hpos : 0 < 2 ^ (k + 1) := Nat.pow_pos (by omega)
      have hle : 2 ^ (k + 1) ≤ e := by
        by_contra h; exact hn0 (Nat.div_eq_of_lt (by omega))
      have hsq : m ^ 2 ^ k * m ^ 2 ^ k = m ^ 2 ^ (k + 1) := by
        rw [← pow_add]; congr 1; rw [pow_succ]; omega
      refine Sp.bind (square_fresh_spec L hp (hS k hle).1 (hF k hle)) ?_
      intro power' hp'
      rw [hsq] at hp'
      have hdiv : e / 2 ^ (k + 1) / 2 = e / 2 ^ (k + 1 + 1) := by
        rw [Nat.div_div_eq_div_mul, ← pow_succ]
      have hmod : e % 2 ^ (k + 1 + 1) = e % 2 ^ (k + 1) + 2 ^ (k + 1) * (e / 2 ^ (k + 1) % 2) := by
        rw [pow_succ 2 (k + 1), Nat.mod_mul]
      have hres : Sp (fun p => p = .unwrap ∧ ¬ True)
          (if e / 2 ^ (k + 1) % 2 ≠ 0 then mulBig D dbg result power' else Pure.pure result)
          (Rep B · (m ^ (e % 2 ^ (k + 1 + 1)))) := by
        by_cases hodd : e / 2 ^ (k + 1) % 2 ≠ 0
        · rw [if_pos hodd]
          have h1 : e / 2 ^ (k + 1) % 2 = 1 := by omega
          rw [hmod, h1, Nat.mul_one, pow_add]
          exact mulBig_safe_spec L hr hp' fun _ => ⟨d, (hS k hle).2 h1⟩
        · rw [if_neg hodd]
          have h1 : e / 2 ^ (k + 1) % 2 = 0 := by omega
          rw [hmod, h1, Nat.mul_zero, Nat.add_zero]
          exact hr
      simp only []
      rw [ite_bind_comm]
      refine Sp.bind hres ?_
      intro result' hr'
      rw [hdiv]
      refine ih hr' hp' ?_
      rw [← hdiv]
      exact lt_of_lt_of_le (Nat.div_lt_self (Nat.pos_of_ne_zero hn0) (by omega)) (by omega)

theorem pow_fresh_spec {dbg : Bool} (L : Lawful D B) {x : List Nat} {m e d d' : Nat}
    (hx : Rep B x m) (hS : powSafe B d m e) (hF : powFresh B d' m e) :
    Sp (fun p => p = .unwrap ∧ ¬ True) (pow D dbg x e) (Rep B · (m ^ e)) := by
  have hB2 : 2 ≤ B := by have := L.base; omega
  have hone : Rep B ubigOne 1 := ⟨by simp [ubigOne]; omega, by simp [ubigOne, Canon], by simp [ubigOne]⟩
  unfold pow
  by_cases e0 : e = 0
  · rw [if_pos e0, e0]; exact Sp.pure (by simpa using hone)
  rw [if_neg e0]
  by_cases e1 : e = 1
  · rw [if_pos e1, e1]; exact Sp.pure (by simpa using hx)
  rw [if_neg e1]
  by_cases e2 : e = 2
  · rw [if_pos e2]
    subst e2
    rw [pow_two]
    exact square_fresh_spec L hx (by simpa using (hS 0 (by norm_num)).1)
      (by simpa using hF 0 (by norm_num))
  rw [if_neg e2]
  have key := @powLoop_fresh_spec D B dbg L d d' m e hS hF (e + 1)
    (if e % 2 = 0 then ubigOne else x) x 0
  simp only [Nat.zero_add, pow_one, pow_zero] at key
  refine key ?_ hx (by omega)
  by_cases hev : e % 2 = 0
  · rw [if_pos hev, hev]; simpa using hone
  · rw [if_neg hev, show e % 2 = 1 by omega]; simpa using hx

/-- The shift, with the products and squares that are met. -/
theorem shlDec_fresh_spec {dbg : Bool} (L : Lawful D B) {mh : Nat} {x : List Nat}
    {m n d d' : Nat} (hx : Rep B x m) (hn : ¬ n ≤ 4 * mh)
    (hS : powSafe B d 2 n) (hF : powFresh B d' 2 n) (hm : mulSafe B d m (2 ^ n) = true) :
    Sp (fun p => p = .unwrap ∧ ¬ True) (shlDec D dbg mh x n) (Rep B · (m * 2 ^ n)) := by
  have hB := L.base
  have htwo : addBig D ubigOne ubigOne = .ok [2] := by
    obtain ⟨z, h1, h2, h3, h4, -⟩ := addBig_spec L ubigOne ubigOne (by simp [ubigOne]; omega)
      (by simp [ubigOne]; omega)
    have h2 : Rep B z 2 := ⟨h2, h4 (by simp [ubigOne, Canon]) (by simp [ubigOne, Canon]),
      by rw [h3]; simp [ubigOne]⟩
    rw [h1]
    congr 1
    have h3 : Rep B [2] 2 := ⟨by simp; omega, by simp [Canon], by simp⟩
    exact h2.unique h3
  unfold shlDec
  rw [if_neg hn, htwo, ok_bind]
  have h2 : Rep B [2] 2 := ⟨by simp; omega, by simp [Canon], by simp⟩
  refine Sp.bind (pow_fresh_spec L h2 hS hF) ?_
  intro scale hs
  exact mulBig_safe_spec L hx hs fun _ => ⟨d, hm⟩

end Babs
