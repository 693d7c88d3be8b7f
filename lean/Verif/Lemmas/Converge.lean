import Verif.Lemmas.Riccati
import Verif.Props.Recede
/-! One `solve` without limits, with a solver that finds solutions (C80). -/
set_option linter.unusedSectionVars false
namespace MPC
open Finset

variable {K : Type} [Field K] [LinearOrder K] [IsStrictOrderedRing K]

/-- If the jerks that minimise the documented cost are far from the numerical bound, `solve` finds them. -/
theorem solve_optimal {o : Oracle K} (ho : Spec.FindsSolution o) {cs : List (TrajCall K)} {w : TrajWalkgen K}
    (hw : TrajReaches o cs w) (hr : (settingsOf cs).RefsCurrent) (hc : (settingsOf cs).constrained = false)
    (hj : 0 < (settingsOf cs).weighting.jerkMinimization) (J : ℕ → K)
    (hmin : ∀ J', Spec.trajCost (settingsOf cs) w.getState J ≤ Spec.trajCost (settingsOf cs) w.getState J')
    (hX : ∀ i < (settingsOf cs).nbSamples, |w.X.get i| ≤ MAXBOUND / 2)
    (hJ : ∀ i < (settingsOf cs).nbSamples, |J i| ≤ MAXBOUND / 2) {fb : K} (hfb : 0 < fb) :
    ∃ w', TrajReaches o (cs ++ [.solve fb]) w' ∧ w'.getState = Spec.cubic w.getState (J 0) fb ∧
      ∀ i < (settingsOf cs).nbSamples, w'.X.get i = J i := by
  have h : TrajInv (settingsOf cs) w := reachable_inv hw
  obtain ⟨qp, hg, hq, hs⟩ := givesToSolver_of_prepared h hr hfb
  have hfeas : Spec.Feasible qp (fun i => J i - w.X.get i) := by
    rw [prepared_free hq hc]
    intro i hi
    have := abs_sub (J i) (w.X.get i)
    have := hX i hi; have := hJ i hi
    linarith
  have hsol := ho w.solver.calls qp 10000 ⟨_, isSolution_of_min h hq J hfeas (fun d _ => hmin _)⟩
  have hX' := solve_unique o h fb hj hq hsol J hfeas (fun d _ => hmin _)
  refine ⟨solveResult o w qp fb, ?_, ?_, hX'⟩
  · rw [reaches_append hw]
    simp [TrajWalkgen.run, TrajWalkgen.step, hs o, ok_bind]
  · have e : (solveResult o w qp fb).getState = stateStep ((solveResult o w qp fb).X.get 0) fb w.model.state := rfl
    rw [e, hX' 0 h.N_pos]
    show stateStep (J 0) fb w.model.state = Spec.cubic w.model.state (J 0) fb
    simp only [stateStep, Spec.cubic, State3.mk.injEq]
    exact ⟨by ring, by ring, trivial⟩

theorem settingsOf_solve (cs : List (TrajCall K)) (fb : K) : settingsOf (cs ++ [.solve fb]) = settingsOf cs := by
  rw [settingsOf_append]; rfl

/-- The documented cost when only the velocity is tracked. -/
theorem trajCost_vel {s : Spec.TrajSettings K} (hv : 0 ≤ s.weighting.velocityTracking)
    (hp : s.weighting.positionTracking ≤ 0) (hj : 0 ≤ s.weighting.jerkMinimization) {vr : K}
    (href : ∀ i < s.nbSamples, s.velRef.get i = vr) (x : State3 K) (J : ℕ → K) :
    Spec.trajCost s x J = 1 / 2 * velCost s.period s.weighting.velocityTracking s.weighting.jerkMinimization vr
      s.nbSamples x J := by
  unfold Spec.trajCost velCost
  rw [max_eq_left hv, max_eq_right hp, max_eq_left hj, zero_mul, add_zero, sum_add_distrib, mul_sum, mul_sum]
  congr 2
  refine sum_congr rfl fun i hi => ?_
  rw [href i (mem_range.1 hi)]

/-- The state at the next call when the first optimal jerk is applied. -/
def track (g1 g2 fb vr : K) (x : State3 K) : State3 K :=
  Spec.cubic x (-(g1 * (x.v - vr) + g2 * x.a)) fb

/-- Both errors follow the same recurrence. -/
theorem track_recurrence (g1 g2 fb vr : K) (x : State3 K) :
    (track g1 g2 fb vr (track g1 g2 fb vr x)).v - vr
      = (2 - g1 * fb ^ 2 / 2 - g2 * fb) * ((track g1 g2 fb vr x).v - vr)
        - (1 - g2 * fb + g1 * fb ^ 2 / 2) * (x.v - vr) ∧
    (track g1 g2 fb vr (track g1 g2 fb vr x)).a
      = (2 - g1 * fb ^ 2 / 2 - g2 * fb) * (track g1 g2 fb vr x).a - (1 - g2 * fb + g1 * fb ^ 2 / 2) * x.a := by
  simp only [track, Spec.cubic]
  constructor <;> ring

theorem track_stable {g1 g2 T fb : K} (h1 : 0 < g1) (h2 : g1 * T / 2 < g2) (h3 : g2 * T < 2) (hf : 0 < fb)
    (hfT : fb ≤ T) :
    |2 - g1 * fb ^ 2 / 2 - g2 * fb| < 1 + (1 - g2 * fb + g1 * fb ^ 2 / 2) ∧ 1 - g2 * fb + g1 * fb ^ 2 / 2 < 1 := by
  have a1 : 0 < g1 * fb ^ 2 := by positivity
  have a2 : g1 * fb / 2 < g2 := by
    have := mul_le_mul_of_nonneg_left hfT h1.le
    linarith
  have a3 : g1 * fb / 2 * fb < g2 * fb := mul_lt_mul_of_pos_right a2 hf
  have g2p : 0 < g2 := lt_trans (by positivity) a2
  have a4 : g2 * fb < 2 := lt_of_le_of_lt (mul_le_mul_of_nonneg_left hfT g2p.le) h3
  refine ⟨abs_lt.2 ⟨?_, ?_⟩, ?_⟩ <;> nlinarith

/-! ### Before the first `solve` -/

theorem computeConstantPart_X {w w' : TrajWalkgen K} (e : w.computeConstantPart = .ok w') : w'.X = w.X := by
  cases hb : w.withMotionConstraints
  · simp only [TrajWalkgen.computeConstantPart, hb, bind_eq_ok, res_pure, Except.ok.injEq,
      Bool.false_eq_true, if_false] at e
    obtain ⟨_, _, _, _, _, _, _, _, _, _, _, _, _, _, _, _, _, _, _, _, _, _, rfl⟩ := e
    rfl
  · simp only [TrajWalkgen.computeConstantPart, hb, bind_eq_ok, res_pure, Except.ok.injEq,
      if_true] at e
    obtain ⟨_, _, _, _, _, _, _, _, _, _, _, _, _, _, _, _, _, _, _, _, _, _, _, _, rfl⟩ := e
    rfl

theorem refreshFunctions_X {w w' : TrajWalkgen K} (e : w.refreshFunctions = .ok w') : w'.X = w.X := by
  simp only [TrajWalkgen.refreshFunctions, bind_eq_ok, res_pure, Except.ok.injEq] at e
  obtain ⟨_, _, _, _, _, _, rfl⟩ := e
  rfl

theorem step_X {w w' : TrajWalkgen K} {o : Oracle K} {c : TrajCall K} {b : Bool} (e : w.step o c = .ok (b, w'))
    (hc : ∀ fb, c ≠ .solve fb) (h : ∀ i, w.X.get i = 0) : ∀ i, w'.X.get i = 0 := by
  cases c with
  | solve fb => exact absurd rfl (hc fb)
  | setNbSamples n =>
    simp only [TrajWalkgen.step, bind_eq_ok, res_pure, Except.ok.injEq, Prod.mk.injEq] at e
    obtain ⟨_, _, _, _, w1, e1, w2, e2, -, rfl⟩ := e
    rw [computeConstantPart_X e2, refreshFunctions_X e1]
    intro i; rfl
  | setSamplingPeriod T =>
    simp only [TrajWalkgen.step, bind_eq_ok, res_pure, Except.ok.injEq, Prod.mk.injEq] at e
    obtain ⟨_, _, _, _, w1, e1, w2, e2, -, rfl⟩ := e
    rw [computeConstantPart_X e2, refreshFunctions_X e1]
    exact h
  | setWeightings wt =>
    simp only [TrajWalkgen.step, bind_eq_ok, res_pure, Except.ok.injEq, Prod.mk.injEq] at e
    obtain ⟨_, _, _, _, _, _, w1, e1, -, rfl⟩ := e
    rw [computeConstantPart_X e1]; exact h
  | setConfig b =>
    simp only [TrajWalkgen.step, bind_eq_ok, res_pure, Except.ok.injEq, Prod.mk.injEq] at e
    obtain ⟨w1, e1, -, rfl⟩ := e
    rw [computeConstantPart_X e1]; exact h
  | _ =>
    simp only [TrajWalkgen.step, bind_eq_ok, res_pure, Except.ok.injEq, Prod.mk.injEq] at e
    obtain ⟨_, _, -, rfl⟩ := e
    exact h

theorem run_X {o : Oracle K} {cs : List (TrajCall K)} (hc : ∀ fb, TrajCall.solve fb ∉ cs) {w w' : TrajWalkgen K}
    (e : w.run o cs = .ok w') (h : ∀ i, w.X.get i = 0) : ∀ i, w'.X.get i = 0 := by
  induction cs generalizing w with
  | nil => simp only [TrajWalkgen.run, Except.ok.injEq] at e; subst e; exact h
  | cons c cs ih =>
    simp only [TrajWalkgen.run, bind_eq_ok, Prod.exists] at e
    obtain ⟨b, w1, e1, e2⟩ := e
    exact ih (fun fb hm => hc fb (by simp [hm])) e2
      (step_X e1 (fun fb hm => hc fb (by simp [hm])) h)

/-- Before the first `solve` the jerks are zero. -/
theorem reaches_X {o : Oracle K} {cs : List (TrajCall K)} {w : TrajWalkgen K} (hw : TrajReaches o cs w)
    (hc : ∀ fb, TrajCall.solve fb ∉ cs) : ∀ i, w.X.get i = 0 := by
  simp only [TrajReaches, bind_eq_ok] at hw
  obtain ⟨w0, e0, e⟩ := hw
  refine run_X hc e ?_
  simp only [TrajWalkgen.make, bind_eq_ok] at e0
  obtain ⟨m, -, w1, e1, e2⟩ := e0
  rw [computeConstantPart_X e2, refreshFunctions_X e1]
  intro i; rfl

end MPC
