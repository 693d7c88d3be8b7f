import Verif.Lemmas.SupTimeline

/-!
# Invariant of the main loop of `updateTimeline`
-/
set_option linter.unusedSectionVars false

namespace MPC

variable {K : Type} [Field K] [LinearOrder K]

theorem Sup.nextType_congr {s s' : Sup K} (h : s'.move = s.move) (t : PhaseType) :
    s'.nextType t = s.nextType t := by
  cases t <;> simp [Sup.nextType, h]

theorem Sup.typeAt_congr {s s' : Sup K} (h : s'.move = s.move) (t : PhaseType) (k : ℕ) :
    s'.typeAt t k = s.typeAt t k := by
  induction k with
  | zero => rfl
  | succ k ih => simp only [Sup.typeAt, ih, Sup.nextType_congr h]

theorem Sup.ssCount_congr {s s' : Sup K} (h : s'.move = s.move) (t : PhaseType) (k : ℕ) :
    s'.ssCount t k = s.ssCount t k := by
  induction k with
  | zero => rfl
  | succ k ih => simp only [Sup.ssCount, ih, Sup.typeAt_congr h]

theorem Sup.stepOff_congr {s s' : Sup K} (h : s'.move = s.move) (t : PhaseType) :
    s'.stepOff t = s.stepOff t := by simp [Sup.stepOff, h]

theorem Sup.phaseAt_congr {s s' : Sup K} (h : s'.move = s.move) (h1 : s'.dsPeriod = s.dsPeriod)
    (h2 : s'.stepPeriod = s.stepPeriod) (f : Phase K) (k : ℕ) : s'.phaseAt f k = s.phaseAt f k := by
  cases k with
  | zero => rfl
  | succ k =>
    simp only [Sup.phaseAt, Sup.typeAt_congr h]
    congr 1
    cases s.typeAt f.type (k + 1) <;> simp [Sup.period, h1, h2]

theorem Sup.durAt_congr {s s' : Sup K} (h : s'.move = s.move) (h1 : s'.dsPeriod = s.dsPeriod)
    (h2 : s'.stepPeriod = s.stepPeriod) (h3 : s'.ttnp = s.ttnp) (t : PhaseType) (k : ℕ) :
    s'.durAt t k = s.durAt t k := by
  cases k with
  | zero => exact h3
  | succ k =>
    simp only [Sup.durAt, Sup.typeAt_congr h]
    cases s.typeAt t (k + 1) <;> simp [Sup.period, h1, h2]

theorem Sup.durAt_phaseAt (s : Sup K) (f : Phase K) (k : ℕ) :
    s.durAt f.type k = if k = 0 then s.ttnp else (s.phaseAt f k).duration := by
  cases k <;> simp [Sup.durAt, Sup.phaseAt]

/-- The members changed by the main loop. -/
def Sup.withTL (s : Sup K) (tl : List (Phase K)) (M : ℕ) : Sup K :=
  { s with timeline := tl, M := M }

section withTL
variable (s : Sup K) (tl : List (Phase K)) (M : ℕ)

@[simp] theorem Sup.withTL_typeAt (t : PhaseType) (k : ℕ) :
    (s.withTL tl M).typeAt t k = s.typeAt t k :=
  Sup.typeAt_congr (s := s) (s' := s.withTL tl M) rfl t k
@[simp] theorem Sup.withTL_nextType (t : PhaseType) :
    (s.withTL tl M).nextType t = s.nextType t :=
  Sup.nextType_congr (s := s) (s' := s.withTL tl M) rfl t
@[simp] theorem Sup.withTL_ssCount (t : PhaseType) (k : ℕ) :
    (s.withTL tl M).ssCount t k = s.ssCount t k :=
  Sup.ssCount_congr (s := s) (s' := s.withTL tl M) rfl t k
@[simp] theorem Sup.withTL_stepOff (t : PhaseType) :
    (s.withTL tl M).stepOff t = s.stepOff t :=
  Sup.stepOff_congr (s := s) (s' := s.withTL tl M) rfl t
@[simp] theorem Sup.withTL_phaseAt (f : Phase K) (k : ℕ) :
    (s.withTL tl M).phaseAt f k = s.phaseAt f k :=
  Sup.phaseAt_congr (s := s) (s' := s.withTL tl M) rfl rfl rfl f k
@[simp] theorem Sup.withTL_durAt (t : PhaseType) (k : ℕ) :
    (s.withTL tl M).durAt t k = s.durAt t k :=
  Sup.durAt_congr (s := s) (s' := s.withTL tl M) rfl rfl rfl rfl t k
@[simp] theorem Sup.withTL_period (t : PhaseType) :
    (s.withTL tl M).period t = s.period t := by cases t <;> rfl
@[simp] theorem Sup.withTL_kinOf (t : PhaseType) :
    (s.withTL tl M).kinOf t = s.kinOf t := by cases t <;> rfl
@[simp] theorem Sup.withTL_nextPhase (p : Phase K) :
    (s.withTL tl M).nextPhase p = s.nextPhase p := by simp [Sup.nextPhase]
@[simp] theorem Sup.withTL_N : (s.withTL tl M).N = s.N := rfl
@[simp] theorem Sup.withTL_T : (s.withTL tl M).T = s.T := rfl
@[simp] theorem Sup.withTL_M : (s.withTL tl M).M = M := rfl
@[simp] theorem Sup.withTL_timeline : (s.withTL tl M).timeline = tl := rfl
@[simp] theorem Sup.withTL_move : (s.withTL tl M).move = s.move := rfl
@[simp] theorem Sup.withTL_left : (s.withTL tl M).left = s.left := rfl
@[simp] theorem Sup.withTL_right : (s.withTL tl M).right = s.right := rfl

end withTL

/-- What the decision vector contains, `m0` footsteps being there at the beginning. -/
structure Content (s : Sup K) (t : PhaseType) (var0 : Vec K) (m0 m : ℕ) (v : Vec K) : Prop where
  size : v.size = 2 * s.N + 2 * m
  cop : ∀ i < 2 * s.N, v.get i = var0.get i
  oldX : ∀ i < m, i < m0 → v.get (2 * s.N + i) = var0.get (2 * s.N + i)
  oldY : ∀ i < m, i < m0 → v.get (2 * s.N + m + i) = var0.get (2 * s.N + m0 + i)
  new : ∀ i < m, m0 ≤ i → ∃ c,
    IsBoxCenter (s.kinOf (s.typeAt t (i + s.stepOff t))).vertices c ∧
    v.get (2 * s.N + i) = (if i = 0 then (if t = .DS then s.left.x.state.p
      else var0.get (2 * s.N - 1)) else v.get (2 * s.N + (i - 1))) + c.x ∧
    v.get (2 * s.N + m + i) = (if i = 0 then (if t = .DS then s.left.y.state.p
      else v.get (2 * s.N)) else v.get (2 * s.N + m + (i - 1))) + c.y

/-- The schedule of the supervisor from its current phase. -/
abbrev Sup.sched (s : Sup K) (t : PhaseType) (j : ℕ) : ℕ × K := MPC.sched s.T (s.durAt t) j

/-- Phase and timer at the head of iteration `j`. -/
def Sup.preSched (s : Sup K) (t : PhaseType) : ℕ → ℕ × K
  | 0 => (0, s.ttnp)
  | j + 1 => ((s.sched t j).1, (s.sched t j).2 - s.T)

theorem Sup.sched_pre (s : Sup K) (t : PhaseType) (j : ℕ) :
    s.sched t j = schedNorm (s.durAt t) (s.preSched t j) := by
  cases j <;> rfl

/-- Number of footsteps in the decision vector after an iteration that previews `M` steps. -/
def Sup.nbSteps (s : Sup K) (m0 M : ℕ) : ℕ :=
  if s.move then max m0 M else max (min m0 1) M

/-- Invariant at the head of iteration `j`. -/
structure TLInv (s : Sup K) (f : Phase K) (var0 : Vec K) (m0 j : ℕ) (l : TLState K) : Prop where
  sup : l.sup = s.withTL l.sup.timeline (s.ssCount f.type l.idx)
  pre : (l.idx, l.phaseTimer) = s.preSched f.type j
  hor : l.horizon = s.N * s.T - j * s.T
  tl : s.Prefix f l.sup.timeline l.idx
  var : Content s f.type var0 m0
    (if j = 0 then m0 else s.nbSteps m0 (s.ssCount f.type l.idx)) l.var

/-- One step is added when the number of previewed steps increases. -/
theorem Sup.enlargeLoop_ok {s : Sup K} {f : Phase K} {tl : List (Phase K)} {k m0 m : ℕ}
    {var0 var : Vec K} (hN : 0 < s.N) (hp : s.Prefix f tl k)
    (hc : Content s f.type var0 m0 m var) (hm0 : m0 ≤ m ∨ s.ssCount f.type k ≤ m)
    (hm : s.ssCount f.type k ≤ m + 1)
    (hpos : ∀ i, m0 ≤ i → i < s.ssCount f.type k →
      0 < (s.kinOf (s.typeAt f.type (i + s.stepOff f.type))).vertices.size) :
    ∃ v, Sup.enlargeLoop (s.withTL tl (s.ssCount f.type k)) var = .ok v ∧
      Content s f.type var0 m0 (max m (s.ssCount f.type k)) v := by
  unfold Sup.enlargeLoop
  by_cases hlt : m < s.ssCount f.type k
  · have hm0' : m0 ≤ m := by omega
    have hk := Sup.kinPolygon_ok (s := s.withTL tl (s.ssCount f.type k)) (f := f) (k := k) (i := m)
      ⟨hp.1, fun i hi => by rw [Sup.withTL_phaseAt]; exact hp.2 i hi⟩ (by simp) hlt
    simp only [Sup.withTL_typeAt, Sup.withTL_stepOff, Sup.withTL_kinOf] at hk
    have hds := Sup.isInDS_ok (s := s.withTL tl (s.ssCount f.type k)) (hp.2 0 (Nat.zero_le _))
    obtain ⟨v, c, h1, h2, h3, h4, h5, h6, h7, h8⟩ := Sup.enlarge_ok (m := m) (var := var)
      (s := s.withTL tl (s.ssCount f.type k)) hN
      hc.size hk (hpos m hm0' hlt) hds
    have hM : s.ssCount f.type k = m + 1 := by omega
    refine ⟨v, ?_, ?_⟩
    · rw [whileLoop_step (by simp only [Sup.withTL_N, Sup.withTL_M]; rw [hc.size]; omega) h1,
        whileLoop_done (by rw [h3]; simp only [Sup.withTL_N, Sup.withTL_M]; omega)]
    · rw [max_eq_right (by omega), hM]
      simp only [Sup.phaseAt, Sup.withTL_N, Sup.withTL_M, Sup.withTL_left, hM]
        at h3 h4 h5 h6 h7 h8
      refine ⟨h3, ?_, ?_, ?_, ?_⟩
      · intro i hi; rw [h4 i hi, hc.cop i hi]
      · intro i hi hi0; rw [h5 i (by omega), hc.oldX i (by omega) hi0]
      · intro i hi hi0; rw [h6 i (by omega), hc.oldY i (by omega) hi0]
      · intro i hi hi0
        rcases Nat.lt_or_ge i m with him | him
        · obtain ⟨c', c1, c2, c3⟩ := hc.new i him hi0
          refine ⟨c', c1, ?_, ?_⟩
          · rw [h5 i him, c2]
            by_cases h0 : i = 0
            · simp [h0]
            · rw [if_neg h0, if_neg h0, h5 _ (by omega)]
          · rw [h6 i him, c3]
            by_cases h0 : i = 0
            · subst h0
              have := h5 0 him
              simp only [Nat.add_zero] at this
              simp [this]
            · rw [if_neg h0, if_neg h0, h6 _ (by omega)]
        · have : i = m := by omega
          subst this
          refine ⟨c, h2, ?_, ?_⟩
          · rw [h7]
            by_cases h0 : i = 0
            · subst h0
              by_cases ht : f.type = .DS
              · simp [ht]
              · simp only [ht, decide_false, Bool.false_eq_true, false_and, if_false, if_true,
                  Nat.add_zero]
                rw [hc.cop _ (by omega)]
            · rw [if_neg (by omega), if_neg h0, h5 _ (by omega)]
              congr 2; omega
          · rw [h8]
            by_cases h0 : i = 0
            · subst h0
              by_cases ht : f.type = .DS <;> simp [ht]
            · rw [if_neg (by omega), if_neg h0, if_neg h0, h6 _ (by omega)]
  · refine ⟨var, whileLoop_done (by simp only [Sup.withTL_N, Sup.withTL_M]; rw [hc.size]; omega), ?_⟩
    rw [max_eq_left (by omega)]
    exact hc

variable [IsStrictOrderedRing K]

theorem TLState.body_ok {s : Sup K} {f : Phase K} {var0 : Vec K} {m0 j : ℕ} {l : TLState K}
    (hN : 0 < s.N) (h : TLInv s f var0 m0 j l)
    (hpos : ∀ i, m0 ≤ i → i < s.ssCount f.type (s.sched f.type j).1 →
      0 < (s.kinOf (s.typeAt f.type (i + s.stepOff f.type))).vertices.size) :
    ∃ l', l.body = .ok l' ∧ TLInv s f var0 m0 (j + 1) l' := by
  -- the phase change
  have h1 : ∃ tl', l.nextPhase = .ok { l with
      sup := s.withTL tl' (s.ssCount f.type (s.sched f.type j).1),
      idx := (s.sched f.type j).1, phaseTimer := (s.sched f.type j).2 } ∧
      s.Prefix f tl' (s.sched f.type j).1 ∧
      s.ssCount f.type (s.sched f.type j).1 ≤ s.ssCount f.type l.idx + 1 := by
    have e := h.pre
    unfold TLState.nextPhase
    by_cases hc : l.phaseTimer < EPS
    · have e2 : s.sched f.type j = (l.idx + 1, s.durAt f.type (l.idx + 1)) := by
        rw [Sup.sched_pre, ← e]; simp [schedNorm, hc]
      rw [if_pos hc, listAt_of_get? (h.tl.2 l.idx le_rfl), ok_bind]
      have hnp : l.sup.nextPhase (s.phaseAt f l.idx) = s.phaseAt f (l.idx + 1) := by
        rw [h.sup, Sup.withTL_nextPhase, Sup.nextPhase_phaseAt]
      simp only [hnp, res_pure]
      refine ⟨if l.idx + 1 = l.sup.timeline.length then l.sup.timeline ++ [s.phaseAt f (l.idx + 1)]
          else l.sup.timeline.set (l.idx + 1) (s.phaseAt f (l.idx + 1)), ?_, ?_, ?_⟩
      · congr 1
        rw [e2]
        congr 1
        rw [h.sup]
        simp only [Sup.phaseAt_type, Sup.ssCount]
        congr 1
        split <;> simp
      · rw [e2]
        have hlen := h.tl.1
        by_cases hl : l.idx + 1 = l.sup.timeline.length
        · rw [if_pos hl]
          refine ⟨by simp; omega, fun i hi => ?_⟩
          simp only at hi
          rcases Nat.lt_or_ge i (l.idx + 1) with h2 | h2
          · rw [List.getElem?_append_left (by omega), h.tl.2 i (by omega)]
          · have : i = l.idx + 1 := by omega
            subst this
            rw [List.getElem?_append_right (by omega)]
            simp [hl]
        · rw [if_neg hl]
          refine ⟨by simp; omega, fun i hi => ?_⟩
          simp only at hi
          rcases Nat.lt_or_ge i (l.idx + 1) with h2 | h2
          · rw [List.getElem?_set_ne (by omega), h.tl.2 i (by omega)]
          · have : i = l.idx + 1 := by omega
            subst this
            rw [List.getElem?_set_self (by omega)]
      · rw [e2]; exact s.ssCount_succ_le f.type l.idx
    · have e2 : s.sched f.type j = (l.idx, l.phaseTimer) := by
        rw [Sup.sched_pre, ← e]; simp [schedNorm, hc]
      rw [if_neg hc]
      refine ⟨l.sup.timeline, ?_, ?_, ?_⟩
      · rw [e2, res_pure]
        simp only
        rw [← h.sup]
      · rw [e2]; exact h.tl
      · rw [e2]; exact Nat.le_succ _
  obtain ⟨tl', hn, hp, hM⟩ := h1
  -- the decision vector
  have hbound : s.ssCount f.type (s.sched f.type j).1 ≤
      (if j = 0 then m0 else s.nbSteps m0 (s.ssCount f.type l.idx)) + 1 := by
    by_cases hj : j = 0
    · subst hj
      have := h.pre
      have h0 : l.idx = 0 := congrArg Prod.fst this
      rw [h0] at hM
      simp only [Sup.ssCount] at hM
      rw [if_pos rfl]; omega
    · rw [if_neg hj]
      unfold Sup.nbSteps
      split <;> omega
  have hm0 : m0 ≤ (if j = 0 then m0 else s.nbSteps m0 (s.ssCount f.type l.idx)) ∨
      s.ssCount f.type (s.sched f.type j).1 ≤
        (if j = 0 then m0 else s.nbSteps m0 (s.ssCount f.type l.idx)) := by
    by_cases hj : j = 0
    · left; rw [if_pos hj]
    · rw [if_neg hj]
      unfold Sup.nbSteps
      cases hmv : s.move
      · have := Sup.ssCount_still hmv f.type (s.sched f.type j).1
        simp only [Bool.false_eq_true, if_false]
        omega
      · left; simp
  obtain ⟨v, hv, hcv⟩ := Sup.enlargeLoop_ok hN hp h.var hm0 hbound hpos
  obtain ⟨v', m', ht, hm', h1, h2, h3, h4⟩ := Sup.trim_ok
    (s := s.withTL tl' (s.ssCount f.type (s.sched f.type j).1)) hcv.size
  refine ⟨{ l with
      sup := s.withTL tl' (s.ssCount f.type (s.sched f.type j).1),
      idx := (s.sched f.type j).1, phaseTimer := (s.sched f.type j).2 - s.T, var := v',
      horizon := l.horizon - s.T }, ?_, ?_⟩
  · unfold TLState.body
    rw [hn, ok_bind]
    simp only
    rw [hv, ok_bind, ht, ok_bind, res_pure]
    rfl
  · refine ⟨rfl, rfl, ?_, hp, ?_⟩
    · simp only; rw [h.hor]; push_cast; ring
    · simp only [Sup.withTL_N] at hm' h1 h2 h3 h4 ⊢
      have hmm : m' = s.nbSteps m0 (s.ssCount f.type (s.sched f.type j).1) := by
        rw [hm']
        unfold Sup.nbSteps
        have hmono : s.ssCount f.type l.idx ≤ s.ssCount f.type (s.sched f.type j).1 := by
          apply Sup.ssCount_mono
          have e := h.pre
          rw [Sup.sched_pre, ← e]
          unfold schedNorm
          split <;> simp
        cases hmv : s.move
        · have := Sup.ssCount_still hmv f.type (s.sched f.type j).1
          simp only [if_true, Bool.false_eq_true, if_false, Sup.withTL_move, hmv]
          by_cases hj : j = 0
          · rw [if_pos hj]; omega
          · rw [if_neg hj]; omega
        · simp only [Bool.true_eq_false, if_false, if_true, Sup.withTL_move, hmv]
          by_cases hj : j = 0
          · rw [if_pos hj]
          · rw [if_neg hj]; omega
      rw [if_neg (by omega), ← hmm]
      have hle : m' ≤ max (if j = 0 then m0 else s.nbSteps m0 (s.ssCount f.type l.idx))
          (s.ssCount f.type (s.sched f.type j).1) := by rw [hm']; split <;> omega
      refine ⟨h1, ?_, ?_, ?_, ?_⟩
      · intro i hi; rw [h2 i hi, hcv.cop i hi]
      · intro i hi hi0; rw [h3 i hi, hcv.oldX i (by omega) hi0]
      · intro i hi hi0; rw [h4 i hi, hcv.oldY i (by omega) hi0]
      · intro i hi hi0
        obtain ⟨c, c1, c2, c3⟩ := hcv.new i (by omega) hi0
        refine ⟨c, c1, ?_, ?_⟩
        · rw [h3 i hi, c2]
          by_cases h0 : i = 0
          · simp [h0]
          · rw [if_neg h0, if_neg h0, h3 _ (by omega)]
        · rw [h4 i hi, c3]
          by_cases h0 : i = 0
          · subst h0
            have := h3 0 hi
            simp only [Nat.add_zero] at this
            simp [this]
          · rw [if_neg h0, if_neg h0, h4 _ (by omega)]

/-- The main loop of `updateTimeline` runs through the sampling instants `0 .. N`. -/
theorem mainLoop_ok {s : Sup K} {f : Phase K} {var : Vec K} {m0 : ℕ} (hN : 0 < s.N)
    (hT : EPS ≤ s.T) (hf : s.timeline[0]? = some f) (hv : var.size = 2 * s.N + 2 * m0)
    (hpos : ∀ i, m0 ≤ i → i < s.ssCount f.type (s.sched f.type s.N).1 →
      0 < (s.kinOf (s.typeAt f.type (i + s.stepOff f.type))).vertices.size) :
    ∃ l, whileLoop (fun l : TLState K => -EPS < l.horizon) TLState.body
        ⟨{ s with M := 0 }, 0, s.ttnp, s.N * s.T, var⟩ = .ok l ∧
      TLInv s f var m0 (s.N + 1) l := by
  refine whileLoop_inv (TLInv s f var m0) (s.N + 1) ?_ ?_ ?_
  · refine ⟨rfl, rfl, by simp, ⟨?_, ?_⟩, ?_⟩
    · simp only
      exact (List.getElem?_eq_some_iff.1 hf).1
    · intro i hi; simp only at hi ⊢; rw [Nat.le_zero.1 hi]; exact hf
    · rw [if_pos rfl]
      exact ⟨hv, fun _ _ => rfl, fun _ _ _ => rfl, fun _ _ _ => rfl, fun i h1 h2 => by omega⟩
  · intro j l hj h
    refine ⟨?_, TLState.body_ok hN h fun i h1 h2 => hpos i h1 (lt_of_lt_of_le h2
      (Sup.ssCount_mono _ _ (sched_mono (by omega))))⟩
    rw [h.hor]
    have h1 : (j : K) ≤ (s.N : K) := by exact_mod_cast (by omega : j ≤ s.N)
    have h2 : (0 : K) < EPS := EPS_pos
    nlinarith
  · intro l h
    rw [h.hor]
    push_cast
    have : (0 : K) < EPS := EPS_pos
    nlinarith

end MPC
