import Verif.Lemmas.SupSelect
import Mathlib.Algebra.Order.Archimedean.Basic

/-!
# `updateTimeline`
-/
set_option linter.unusedSectionVars false

namespace MPC

variable {K : Type} [Field K] [LinearOrder K]

section
variable [IsStrictOrderedRing K]

/-- The time to the next sample. -/
theorem timeToSample_ok [Archimedean K] {T : K} (hT : 0 < T) (t : K) :
    ∃ i : ℕ, timeToSample T t = .ok (t - i * T) ∧ t - i * T ≤ T + EPS ∧
      (i = 0 ∨ EPS < t - i * T) := by
  classical
  have hex : ∃ i : ℕ, t - i * T ≤ T + EPS := by
    obtain ⟨n, hn⟩ := Archimedean.arch t hT
    refine ⟨n, ?_⟩
    rw [nsmul_eq_mul] at hn
    have : (0 : K) < EPS := EPS_pos
    linarith
  have hmin : ∀ i < Nat.find hex, T + EPS < t - i * T := fun i hi =>
    not_le.1 (Nat.find_min hex hi)
  obtain ⟨u, hu, hu'⟩ := whileLoop_inv (cond := fun t : K => T + EPS < t)
    (body := fun t => .ok (t - T)) (fun i (u : K) => u = t - i * T) (Nat.find hex) (s := t)
    (by simp)
    (by
      rintro i u hi rfl
      exact ⟨hmin i hi, _, rfl, by push_cast; ring⟩)
    (by
      rintro u rfl
      exact not_lt.2 (Nat.find_spec hex))
  subst hu'
  refine ⟨Nat.find hex, hu, Nat.find_spec hex, ?_⟩
  rcases Nat.eq_zero_or_pos (Nat.find hex) with h | h
  · exact Or.inl h
  · right
    have := hmin (Nat.find hex - 1) (by omega)
    rw [Nat.cast_sub h] at this
    push_cast at this
    linarith

/-- `computeSampleWeightMatrix`. -/
theorem Sup.sampleWeight_ok [Archimedean K] {s : Sup K} (hN : 0 < s.N) (hT : 0 < s.T) :
    ∃ (i : ℕ) (w : Mat K), s.sampleWeight = .ok w ∧ s.ttnp - i * s.T ≤ s.T + EPS ∧
      (i = 0 ∨ EPS < s.ttnp - i * s.T) ∧ w.rows = s.N ∧ w.cols = s.N ∧
      ∀ a b, w.get a b =
        if a = s.N - 1 ∧ b = s.N - 1 then 105 / 100 - (s.ttnp - i * s.T) / s.T
        else if a = 0 ∧ b = 0 then (s.ttnp - i * s.T) / s.T
        else if a = b then 1 else 0 := by
  obtain ⟨i, h1, h2, h3⟩ := timeToSample_ok hT s.ttnp
  unfold Sup.sampleWeight
  rw [h1, ok_bind, if_neg (ne_of_gt hT), Mat.set?_ok ⟨hN, hN⟩, ok_bind, requireIndex_pos hN,
    ok_bind]
  unfold Mat.at?
  rw [requireIndex_pos ⟨hN, hN⟩, ok_bind, res_pure, ok_bind,
    Mat.set?_ok ⟨by simp [Mat.one]; omega, by simp [Mat.one]; omega⟩]
  refine ⟨i, _, rfl, h2, h3, rfl, rfl, fun a b => ?_⟩
  simp [Mat.one]

end

/-- What `updateTimeline` leaves unchanged. -/
structure Sup.Same (s s' : Sup K) : Prop where
  N : s'.N = s.N
  T : s'.T = s.T
  fb : s'.fb = s.fb
  left : s'.left = s.left
  right : s'.right = s.right
  stepPeriod : s'.stepPeriod = s.stepPeriod
  dsPeriod : s'.dsPeriod = s.dsPeriod
  ttnp : s'.ttnp = s.ttnp
  move : s'.move = s.move

/-- State after the main loop: the timeline, the number of steps and the decision vector. -/
structure Sup.Previewed (s : Sup K) (f : Phase K) (var : Vec K) (m : ℕ) (s' : Sup K) (v : Vec K) :
    Prop where
  same : s.Same s'
  tl : s'.timeline = (List.range ((s.sched f.type s.N).1 + 1)).map (s.phaseAt f)
  M : s'.M = s.ssCount f.type (s.sched f.type s.N).1
  var : Content s f.type var m (s.nbSteps m (s.ssCount f.type (s.sched f.type s.N).1)) v
  sv : s'.stepVec.size = v.size - 2 * s.N
  svg : ∀ i, s'.stepVec.get i = v.get (2 * s.N + i)

theorem take_prefix {s : Sup K} {f : Phase K} {tl : List (Phase K)} {k : ℕ}
    (h : s.Prefix f tl k) : tl.take (k + 1) = (List.range (k + 1)).map (s.phaseAt f) := by
  apply List.ext_getElem?
  intro i
  rcases Nat.lt_or_ge i (k + 1) with hi | hi
  · rw [List.getElem?_take_of_lt hi, h.2 i (by omega), List.getElem?_map,
      List.getElem?_range hi]
    rfl
  · rw [List.getElem?_eq_none (by simp; omega), List.getElem?_eq_none (by simp; omega)]

theorem Sup.Same.typeAt {s s' : Sup K} (h : s.Same s') (t : PhaseType) (k : ℕ) :
    s'.typeAt t k = s.typeAt t k := Sup.typeAt_congr h.move t k
theorem Sup.Same.ssCount {s s' : Sup K} (h : s.Same s') (t : PhaseType) (k : ℕ) :
    s'.ssCount t k = s.ssCount t k := Sup.ssCount_congr h.move t k
theorem Sup.Same.durAt {s s' : Sup K} (h : s.Same s') (t : PhaseType) :
    s'.durAt t = s.durAt t :=
  funext fun k => Sup.durAt_congr h.move h.dsPeriod h.stepPeriod h.ttnp t k
theorem Sup.Same.phaseAt {s s' : Sup K} (h : s.Same s') (f : Phase K) :
    s'.phaseAt f = s.phaseAt f :=
  funext fun k => Sup.phaseAt_congr h.move h.dsPeriod h.stepPeriod f k
theorem Sup.Same.sched {s s' : Sup K} (h : s.Same s') (t : PhaseType) (j : ℕ) :
    s'.sched t j = s.sched t j := by
  unfold Sup.sched; rw [h.T, h.durAt]

theorem Sup.Same.generic {s s' : Sup K} (h : s.Same s') {t : PhaseType} (hg : s.Generic t) :
    s'.Generic t := by
  refine ⟨?_, ?_, ?_⟩
  · intro i h1 h2; rw [h.ttnp, h.T]; rw [h.N] at h2; exact hg.cur i h1 h2
  · intro k h1 h2
    rw [h.durAt]; rw [h.N, h.sched] at h2; exact hg.pos k h1 h2
  · intro k h1 h2 i h3 h4
    rw [h.durAt, h.T]
    rw [h.N, h.sched] at h2
    rw [h.N] at h4
    exact hg.next k h1 h2 i h3 h4

theorem Sup.Previewed.isTL {s s' : Sup K} {f : Phase K} {var v : Vec K} {m : ℕ}
    (h : s.Previewed f var m s' v) : s'.IsTL f := by
  refine ⟨?_, ?_, ?_⟩
  · rw [h.tl, h.same.N, h.same.sched]; simp
  · intro i hi
    rw [h.same.N, h.same.sched] at hi
    rw [h.tl, List.getElem?_map, List.getElem?_range (by omega), h.same.phaseAt]
    rfl
  · rw [h.M, h.same.N, h.same.sched, h.same.ssCount]

variable [IsStrictOrderedRing K]

/-- `updateTimeline` up to the computation of the weights. -/
theorem Sup.updateTimeline_eq {s s₁ : Sup K} {f : Phase K} {var var₁ : Vec K} {fb : K} {m : ℕ}
    (hN : 0 < s₁.N) (hT : EPS ≤ s₁.T) (htl : 0 < s.timeline.length) (hv : 2 * s.N ≤ var.size)
    (hpop : Sup.popPhase { s with fb := fb } var = .ok (s₁, var₁))
    (hf : s₁.timeline[0]? = some f) (hsz : var₁.size = 2 * s₁.N + 2 * m)
    (hpos : ∀ i, m ≤ i → i < s₁.ssCount f.type (s₁.sched f.type s₁.N).1 →
      0 < (s₁.kinOf (s₁.typeAt f.type (i + s₁.stepOff f.type))).vertices.size) :
    ∃ s₂ v, s₁.Previewed f var₁ m s₂ v ∧
      s.updateTimeline var fb = (do
        let w ← s₂.sampleWeight
        let s ← Sup.selection { s₂ with weight := w }
        pure (s, v)) := by
  obtain ⟨l, hl, hi⟩ := mainLoop_ok hN hT hf hsz hpos
  have hidx : l.idx = (s₁.sched f.type s₁.N).1 := congrArg Prod.fst hi.pre
  have hsup := hi.sup
  have hvar := hi.var
  have htl' := hi.tl
  rw [if_neg (by omega)] at hvar
  rw [hidx] at hvar hsup htl'
  have hs2 := hvar.size
  refine ⟨{ l.sup with
      timeline := l.sup.timeline.take (l.idx + 1),
      stepVec := ⟨l.var.size - 2 * s₁.N, fun i => l.var.get (2 * s₁.N + i)⟩ }, l.var, ?_, ?_⟩
  · refine ⟨?_, ?_, ?_, hvar, rfl, fun i => rfl⟩
    · rw [hsup]
      exact ⟨rfl, rfl, rfl, rfl, rfl, rfl, rfl, rfl, rfl⟩
    · simp only
      rw [hidx, take_prefix htl']
    · simp only; rw [hsup]; rfl
  · unfold Sup.updateTimeline
    rw [require_pos htl, ok_bind, require_pos hv, ok_bind]
    simp only
    rw [hpop, ok_bind]
    simp only
    rw [hl, ok_bind]
    have hNe : l.sup.N = s₁.N := by rw [hsup]; rfl
    simp only [hNe]
    rw [Vec.segment?_ok (by omega), ok_bind]

/-- `updateTimeline` succeeds when no phase ends exactly `EPS` after a sampling instant. -/
theorem Sup.updateTimeline_ok [Archimedean K] {s s₁ : Sup K} {f : Phase K} {var var₁ : Vec K}
    {fb : K} {m : ℕ}
    (hN : 0 < s₁.N) (hT : EPS ≤ s₁.T) (htl : 0 < s.timeline.length) (hv : 2 * s.N ≤ var.size)
    (hpop : Sup.popPhase { s with fb := fb } var = .ok (s₁, var₁))
    (hf : s₁.timeline[0]? = some f) (hsz : var₁.size = 2 * s₁.N + 2 * m)
    (hpos : ∀ i, m ≤ i → i < s₁.ssCount f.type (s₁.sched f.type s₁.N).1 →
      0 < (s₁.kinOf (s₁.typeAt f.type (i + s₁.stepOff f.type))).vertices.size)
    (hR : EPS ≤ s₁.ttnp) (hg : s₁.Generic f.type) :
    ∃ s' v, s.updateTimeline var fb = .ok (s', v) ∧ s₁.Previewed f var₁ m s' v ∧
      s'.V0.rows = s₁.N ∧ s'.V0.cols = 1 ∧ s'.V.rows = s₁.N ∧ s'.V.cols = s'.M ∧
      s'.VT = s'.V.transpose ∧ s'.phaseIdx.size = s₁.N ∧
      (∀ r < s₁.N, s'.V0.get r 0 =
        if s₁.ssCount f.type (s₁.smp f.type r) = 0 then 1 else 0) ∧
      (∀ r < s₁.N, ∀ c, s'.V.get r c =
        if s₁.ssCount f.type (s₁.smp f.type r) = c + 1 then 1 else 0) ∧
      (∀ r < s₁.N, s'.phaseIdx.get r = s₁.smp f.type r) ∧
      (∃ t, s'.sampleWeight = .ok t ∧ s'.weight = t) := by
  obtain ⟨s₂, v, hp, he⟩ := Sup.updateTimeline_eq hN hT htl hv hpop hf hsz hpos
  have hT0 : 0 < s₁.T := lt_of_lt_of_le EPS_pos hT
  obtain ⟨i, w, hw, -⟩ := Sup.sampleWeight_ok (s := s₂) (by rw [hp.same.N]; exact hN)
    (by rw [hp.same.T]; exact hT0)
  have hp' : s₁.Previewed f var₁ m { s₂ with weight := w } v :=
    ⟨⟨hp.same.N, hp.same.T, hp.same.fb, hp.same.left, hp.same.right, hp.same.stepPeriod,
      hp.same.dsPeriod, hp.same.ttnp, hp.same.move⟩, hp.tl, hp.M, hp.var, hp.sv, hp.svg⟩
  rw [hw, ok_bind] at he
  generalize hs3 : ({ s₂ with weight := w } : Sup K) = s₃ at he hp'
  obtain ⟨V0, V, idx, h1, h2, h3, h4, h5, h6, h7, h8, h9⟩ := Sup.selection_ok
    (by rw [hp'.same.N]; exact hN) (by rw [hp'.same.T]; exact hT)
    (by rw [hp'.same.ttnp]; exact hR) hp'.isTL (hp'.same.generic hg)
  rw [h1, ok_bind, res_pure] at he
  simp only [Sup.smp, hp'.same.sched, hp'.same.ssCount, hp'.same.N] at h2 h4 h6 h7 h8 h9
  refine ⟨_, v, he, ⟨⟨hp'.same.N, hp'.same.T, hp'.same.fb, hp'.same.left, hp'.same.right,
    hp'.same.stepPeriod, hp'.same.dsPeriod, hp'.same.ttnp, hp'.same.move⟩, hp'.tl, hp'.M, hp'.var,
    hp'.sv, hp'.svg⟩, h2, h3, h4, h5, rfl, h6, h7, h8, h9, w, ?_, by subst hs3; rfl⟩
  subst hs3
  exact hw

/-- From the success of `updateTimeline`, without any assumption on the durations. -/
theorem Sup.updateTimeline_of_ok {s s₁ s' : Sup K} {f : Phase K} {var var₁ v : Vec K}
    {fb : K} {m : ℕ}
    (hN : 0 < s₁.N) (hT : EPS ≤ s₁.T) (htl : 0 < s.timeline.length) (hv : 2 * s.N ≤ var.size)
    (hpop : Sup.popPhase { s with fb := fb } var = .ok (s₁, var₁))
    (hf : s₁.timeline[0]? = some f) (hsz : var₁.size = 2 * s₁.N + 2 * m)
    (hpos : ∀ i, m ≤ i → i < s₁.ssCount f.type (s₁.sched f.type s₁.N).1 →
      0 < (s₁.kinOf (s₁.typeAt f.type (i + s₁.stepOff f.type))).vertices.size)
    (h : s.updateTimeline var fb = .ok (s', v)) : s₁.Previewed f var₁ m s' v := by
  obtain ⟨s₂, v', hp, he⟩ := Sup.updateTimeline_eq hN hT htl hv hpop hf hsz hpos
  rw [h] at he
  obtain ⟨w, hw, he⟩ := bind_eq_ok.1 he.symm
  obtain ⟨s₃, hs, he⟩ := bind_eq_ok.1 he
  rw [res_pure] at he
  cases he
  simp only [Sup.selection, bind_eq_ok, require_eq_ok, res_pure] at hs
  obtain ⟨_, _, l, _, l', _, hs⟩ := hs
  cases hs
  exact ⟨⟨hp.same.N, hp.same.T, hp.same.fb, hp.same.left, hp.same.right,
    hp.same.stepPeriod, hp.same.dsPeriod, hp.same.ttnp, hp.same.move⟩, hp.tl, hp.M, hp.var, hp.sv,
    hp.svg⟩

end MPC
