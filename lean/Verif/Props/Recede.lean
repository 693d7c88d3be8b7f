import Verif.Lemmas.Recede

/-!
# Properties C58–C61 of `TrajectoryWalkgen`: repeated solving

Every theorem is about the states reachable by an arbitrary history of API calls.
-/

set_option linter.unusedSectionVars false

namespace MPC

open Finset

variable {K : Type} [Field K] [LinearOrder K] [IsStrictOrderedRing K]

/-! ### C58 -/

/-- **C58 is violated.** With a solver that always finds the optimum, tracking the greatest allowed
velocity from rest leads to a state within the limits from which no jerks are feasible. -/
theorem C58_optimum_then_infeasible :
    ∃ cs : List (TrajCall K), (Spec.TrajSettings.init (K := K)).Legal cs ∧
      ∀ o, Spec.FindsSolution o → ∃ w, TrajReaches o cs w ∧ Spec.StateWithin (settingsOf cs) w.getState ∧
        ∃ qp, GivesToSolver w (settingsOf cs).period qp ∧ ∀ d, ¬ Spec.Feasible qp d := by
  set cs0 : List (TrajCall K) := [.setVelLimit (1 / 2), .setWeightings ⟨1, 0, 0⟩, .setVelRef (Vec.const 1 (1 / 2)),
    .setConfig true, .setState (Vec.const 3 0)] with hcs0
  have hl : (Spec.TrajSettings.init (K := K)).Legal (cs0 ++ [.solve 1]) := by
    simp [cs0, Spec.TrajSettings.Legal, Spec.TrajSettings.Pre, Spec.TrajSettings.apply, Spec.TrajSettings.init,
      Vec.const]
  have hr : (settingsOf cs0).RefsCurrent := ⟨rfl, rfl⟩
  refine ⟨cs0 ++ [.solve 1], hl, fun o ho => ?_⟩
  obtain ⟨w, hw⟩ := C16_no_fault_partial o cs0
    (by simp [cs0, Spec.TrajSettings.Legal, Spec.TrajSettings.Pre, Spec.TrajSettings.apply, Spec.TrajSettings.init,
      Vec.const])
    (by simp [cs0, Spec.TrajSettings.RefsCurrentAtSolves])
  have hx : w.getState = ⟨0, 0, 0⟩ := by
    obtain ⟨w4, hw4⟩ := C16_no_fault_partial o (cs0.dropLast)
      (by simp [cs0, Spec.TrajSettings.Legal, Spec.TrajSettings.Pre, Spec.TrajSettings.apply, Spec.TrajSettings.init,
        Vec.const])
      (by simp [cs0, Spec.TrajSettings.RefsCurrentAtSolves])
    have h5 : TrajReaches o (cs0.dropLast ++ [.setState (Vec.const 3 0)]) w := hw
    rw [reaches_append hw4] at h5
    simp only [TrajWalkgen.run, TrajWalkgen.step, bind_eq_ok, res_pure, Except.ok.injEq, Prod.mk.injEq, Prod.exists]
      at h5
    obtain ⟨_, _, ⟨_, _, _, rfl⟩, rfl⟩ := h5
    rfl
  obtain ⟨qp, w', hg, e, hst, hj, hfe, hco, hwl, hopt⟩ := solve_constrained o (o' := o) hw hr rfl one_pos
  have hlim : ∀ J : ℕ → K, Spec.WithinLimits (settingsOf cs0) w.getState J ↔ |J 0| ≤ 1 := by
    intro J
    rw [hx]
    simp only [Spec.WithinLimits, settingsOf, cs0, Spec.TrajSettings.after, List.foldl, Spec.TrajSettings.apply,
      Spec.TrajSettings.init]
    constructor
    · intro h; exact (h 0 one_pos).2.2
    · intro h i hi
      obtain rfl : i = 0 := by omega
      simp only [Spec.jerkTrajectory, Spec.cubic, abs_le] at *
      refine ⟨⟨?_, ?_⟩, ⟨?_, ?_⟩, ?_⟩ <;> (try constructor) <;> linarith [h.1, h.2]
  have hcost : ∀ J : ℕ → K, Spec.trajCost (settingsOf cs0) w.getState J = 1 / 2 * (J 0 / 2 - 1 / 2) ^ 2 := by
    intro J
    rw [hx]
    simp [Spec.trajCost, settingsOf, cs0, Spec.TrajSettings.after, Spec.TrajSettings.apply, Spec.TrajSettings.init,
      Spec.jerkTrajectory, Spec.cubic, Vec.const]
  have hsol : Spec.IsSolution qp (o w.solver.calls qp 10000).2 := by
    apply ho
    refine ⟨fun i => 1 - w.X.get i, ?_, fun y _ => ?_⟩
    · rw [hfe, hlim]; simp
    · rw [hco, hco, hcost, hcost (fun i => _ + y i)]
      have : (0 : K) ≤ 1 / 2 * ((w.X.get 0 + y 0) / 2 - 1 / 2) ^ 2 := by positivity
      have h0 : (1 : K) / 2 * ((w.X.get 0 + (1 - w.X.get 0)) / 2 - 1 / 2) ^ 2 = 0 := by ring
      rw [h0]; linarith
  have hX : w'.X.get 0 = 1 := by
    have h1 := hopt hsol (fun _ => 1) (by rw [hlim]; simp)
    rw [hcost, hcost] at h1
    have h2 : (w'.X.get 0 / 2 - 1 / 2) ^ 2 ≤ 0 := by linarith
    have h3 := pow_eq_zero_iff (two_ne_zero) |>.1 (le_antisymm h2 (sq_nonneg _))
    linarith
  rw [hX, hx] at hst
  have hw' : TrajReaches o (cs0 ++ [.solve 1]) w' := by
    rw [reaches_append hw]
    simp [TrajWalkgen.run, TrajWalkgen.step, e, ok_bind]
  refine ⟨w', hw', ?_, ?_⟩
  · rw [hst, settingsOf_append]
    simp only [Spec.StateWithin, settingsOf, cs0, Spec.TrajSettings.after, List.foldl, Spec.TrajSettings.apply,
      Spec.TrajSettings.init, Spec.cubic]
    constructor
    · rw [abs_le]; constructor <;> norm_num
    · norm_num
  · obtain ⟨qp', hg', hfe'⟩ := C18_constraints o (cs0 ++ [.solve 1]) w' hw' (by rw [settingsOf_append]; exact hr)
      (by rw [settingsOf_append]; rfl) (settingsOf (cs0 ++ [.solve 1])).period (by rw [settingsOf_append]; exact one_pos)
    refine ⟨qp', hg', fun d hd => ?_⟩
    rw [hfe', hst, settingsOf_append] at hd
    have h0 := hd 0 (by exact one_pos)
    simp only [settingsOf, cs0, Spec.TrajSettings.after, List.foldl, Spec.TrajSettings.apply,
      Spec.TrajSettings.init, Spec.cubic, Spec.jerkTrajectory, abs_le] at h0
    obtain ⟨⟨_, h1⟩, _, h2, _⟩ := h0
    linarith

/-- A solver that always finds the optimum exists. -/
example : ∃ o : Oracle K, Spec.FindsSolution o := by
  classical
  refine ⟨fun _ qp _ => (true, if h : ∃ d, Spec.IsSolution qp d then h.choose else fun _ => 0), ?_⟩
  intro n qp it h
  simp only [h, dif_pos]
  exact h.choose_spec

/-- Some jerks are feasible from every state within the limits exactly when the jerk limit can reverse the
greatest acceleration in one sampling period. -/
theorem C58_feasible_iff (s : Spec.TrajSettings K) (hN : 0 < s.nbSamples) (hT : 0 < s.period) (hV : 0 ≤ s.velLimit)
    (hA : 0 ≤ s.accLimit) :
    (∀ x, Spec.StateWithin s x → ∃ J, Spec.WithinLimits s x J) ↔ 2 * s.accLimit ≤ s.jerkLimit * s.period := by
  constructor
  · intro h
    obtain ⟨J, hJ⟩ := h ⟨0, s.velLimit, s.accLimit⟩ ⟨(abs_of_nonneg hV).le, (abs_of_nonneg hA).le⟩
    obtain ⟨h1, -, h2⟩ := hJ 0 hN
    simp only [Spec.jerkTrajectory, Spec.cubic, abs_le] at h1 h2
    have h3 : (s.accLimit + J 0 * s.period / 2) * s.period ≤ 0 := by
      have : (s.accLimit + J 0 * s.period / 2) * s.period = s.accLimit * s.period + J 0 * s.period ^ 2 / 2 := by ring
      linarith [h1.2]
    have h4 : s.accLimit + J 0 * s.period / 2 ≤ 0 := by
      by_contra hc
      exact absurd h3 (not_le.2 (mul_pos (not_le.1 hc) hT))
    have h5 := mul_le_mul_of_nonneg_right h2.1 hT.le
    linarith
  · intro hJ x hx
    exact ⟨_, withinLimits_alternate hT hJ hx⟩

/-- **C58 (partial).** If the jerk limit can reverse the greatest acceleration in one sampling period, the solver
finds a feasible point when there is one, and the state is within the limits, then during any sequence of
`solve(period)` and of changes of references and weightings no call faults, the state stays within the limits and
the QP stays feasible. Missing: weaker jerk limits (false, `C58_optimum_then_infeasible`, `C58_feasible_iff`). -/
theorem C58_recursive_partial (o : Oracle K) (ho : Spec.FindsFeasible o) (cs : List (TrajCall K)) (w : TrajWalkgen K)
    (hw : TrajReaches o cs w) (hr : (settingsOf cs).RefsCurrent) (hc : (settingsOf cs).constrained = true)
    (hJ : 2 * (settingsOf cs).accLimit ≤ (settingsOf cs).jerkLimit * (settingsOf cs).period)
    (hx : Spec.StateWithin (settingsOf cs) w.getState) (cs' : List (TrajCall K))
    (ht : ∀ c ∈ cs', Spec.Tracking (settingsOf cs) c) :
    ∃ w', TrajReaches o (cs ++ cs') w' ∧ Spec.StateWithin (settingsOf cs) w'.getState ∧
      ∃ qp, GivesToSolver w' (settingsOf cs).period qp ∧ ∃ d, Spec.Feasible qp d := by
  induction cs' generalizing cs w with
  | nil =>
    have h : TrajInv (settingsOf cs) w := reachable_inv hw
    obtain ⟨qp, hg, hf⟩ := C18_constraints o cs w hw hr hc (settingsOf cs).period h.T_pos
    refine ⟨w, by simpa using hw, hx, qp, hg,
      fun i => (-1) ^ (i + 1) * (2 * w.getState.a / (settingsOf cs).period) - w.X.get i, ?_⟩
    rw [hf]
    simpa using withinLimits_alternate h.T_pos hJ hx
  | cons c cs' ih =>
    have h : TrajInv (settingsOf cs) w := reachable_inv hw
    have htc := ht c (by simp)
    have hpre : CodePre (settingsOf cs) c := by
      cases c with
      | solve fb => obtain rfl : fb = _ := htc; exact ⟨h.T_pos, hr⟩
      | setVelRef v => exact htc
      | setPosRef v => exact htc
      | setWeightings wt => exact ⟨htc.1, htc.2.2⟩
      | _ => exact absurd htc (by simp [Spec.Tracking])
    obtain ⟨b, w1, e1, h1⟩ := step_ok h o c hpre
    have hw1 : TrajReaches o (cs ++ [c]) w1 := by
      rw [reaches_append hw]; simp [TrajWalkgen.run, e1, ok_bind]
    have hsame : (settingsOf (cs ++ [c])).RefsCurrent ∧ (settingsOf (cs ++ [c])).constrained = true ∧
        (settingsOf (cs ++ [c])).accLimit = (settingsOf cs).accLimit ∧
        (settingsOf (cs ++ [c])).velLimit = (settingsOf cs).velLimit ∧
        (settingsOf (cs ++ [c])).jerkLimit = (settingsOf cs).jerkLimit ∧
        (settingsOf (cs ++ [c])).period = (settingsOf cs).period ∧
        (settingsOf (cs ++ [c])).nbSamples = (settingsOf cs).nbSamples := by
      rw [settingsOf_append]
      cases c with
      | solve fb => exact ⟨hr, hc, rfl, rfl, rfl, rfl, rfl⟩
      | setVelRef v => exact ⟨⟨htc, hr.2⟩, hc, rfl, rfl, rfl, rfl, rfl⟩
      | setPosRef v => exact ⟨⟨hr.1, htc⟩, hc, rfl, rfl, rfl, rfl, rfl⟩
      | setWeightings wt => exact ⟨hr, hc, rfl, rfl, rfl, rfl, rfl⟩
      | _ => exact absurd htc (by simp [Spec.Tracking])
    obtain ⟨hr1, hc1, ea, ev, ej, ep, en⟩ := hsame
    have hx1 : Spec.StateWithin (settingsOf cs) w1.getState := by
      by_cases hs : ∃ fb, c = .solve fb
      · obtain ⟨fb, rfl⟩ := hs
        obtain rfl : fb = _ := htc
        obtain ⟨qp, w', hg, e, hst, -, hfe, -, hwl, -⟩ :=
          solve_constrained o (o' := o) hw hr hc h.T_pos
        obtain rfl : w' = w1 := by
          have : w.solve o (settingsOf cs).period = .ok (b, w1) := e1
          rw [this] at e; cases e; rfl
        have hf := hwl (ho _ _ _ (hg.consistent h) ⟨fun i => (-1) ^ (i + 1) * (2 * w.getState.a / (settingsOf cs).period)
          - w.X.get i, by rw [hfe]; simpa using withinLimits_alternate h.T_pos hJ hx⟩)
        obtain ⟨h3, h4, -⟩ := hf 0 h.N_pos
        rw [hst]
        exact ⟨h3, h4⟩
      · rw [step_state h e1 htc (fun fb e => hs ⟨fb, e⟩)]; exact hx
    have hth : ∀ c' ∈ cs', Spec.Tracking (settingsOf (cs ++ [c])) c' := by
      intro c' hc'
      have := ht c' (by simp [hc'])
      cases c' <;> simp only [Spec.Tracking, ep, en] at this ⊢ <;> exact this
    obtain ⟨w', g1, g2, qp, g3, g4⟩ := ih (cs ++ [c]) w1 hw1 hr1 hc1 (by rw [ea, ej, ep]; exact hJ)
      (by unfold Spec.StateWithin at hx1 ⊢; rw [ev, ea]; exact hx1) hth
    refine ⟨w', by simpa using g1, ?_, qp, by rw [← ep]; exact g3, g4⟩
    unfold Spec.StateWithin at g2 ⊢; rw [ev, ea] at g2; exact g2

/-- The hypotheses of `C58_recursive_partial` are met, from a state at the limits. -/
example (o : Oracle ℚ) : ∃ (cs : List (TrajCall ℚ)) (w : TrajWalkgen ℚ), TrajReaches o cs w ∧
    (settingsOf cs).RefsCurrent ∧ (settingsOf cs).constrained = true ∧
    2 * (settingsOf cs).accLimit ≤ (settingsOf cs).jerkLimit * (settingsOf cs).period ∧
    Spec.StateWithin (settingsOf cs) w.getState ∧ w.getState.a = (settingsOf cs).accLimit ∧
    ∀ c ∈ [.setPosRef (Vec.const 1 5), .solve 1, .solve 1, .setWeightings ⟨0, 1, 1⟩, .solve 1],
      Spec.Tracking (settingsOf cs) c := by
  obtain ⟨w, hw⟩ := C16_no_fault_partial o
    ([.setJerkLimit 2, .setWeightings ⟨1, 2, 1 / 100⟩, .setConfig true, .setState (Vec.const 3 1)])
    (by simp [Spec.TrajSettings.Legal, Spec.TrajSettings.Pre, Spec.TrajSettings.apply, Vec.const])
    (by simp [Spec.TrajSettings.RefsCurrentAtSolves])
  have hx : w.getState = ⟨1, 1, 1⟩ := by
    obtain ⟨w4, hw4⟩ := C16_no_fault_partial o
      ([.setJerkLimit 2, .setWeightings ⟨1, 2, 1 / 100⟩, .setConfig true])
      (by simp [Spec.TrajSettings.Legal, Spec.TrajSettings.Pre, Spec.TrajSettings.apply])
      (by simp [Spec.TrajSettings.RefsCurrentAtSolves])
    have h5 : TrajReaches o (([.setJerkLimit 2, .setWeightings ⟨1, 2, 1 / 100⟩, .setConfig true])
      ++ [.setState (Vec.const 3 1)]) w := hw
    rw [reaches_append hw4] at h5
    simp only [TrajWalkgen.run, TrajWalkgen.step, bind_eq_ok, res_pure, Except.ok.injEq, Prod.mk.injEq, Prod.exists]
      at h5
    obtain ⟨_, _, ⟨_, _, _, rfl⟩, rfl⟩ := h5
    rfl
  refine ⟨_, w, hw, ⟨rfl, rfl⟩, rfl, ?_, ?_, by rw [hx]; rfl, ?_⟩
  · simp [settingsOf, Spec.TrajSettings.after, Spec.TrajSettings.apply, Spec.TrajSettings.init]
  · rw [hx]; simp [settingsOf, Spec.TrajSettings.after, Spec.TrajSettings.apply, Spec.TrajSettings.init, Spec.StateWithin]
  · simp [settingsOf, Spec.TrajSettings.after, Spec.TrajSettings.apply, Spec.TrajSettings.init, Spec.Tracking, Vec.const]

/-! ### C59 -/

/-- **C59.** If the state moves at a constant velocity that meets the references (and the limits when the
constraints are on, the numerical bound otherwise), the jerk weighting is positive and the solver returns a
solution, then `solve` publishes a zero jerk and the motion goes on at this velocity. -/
theorem C59_steady (o o' : Oracle K) (cs : List (TrajCall K)) (w : TrajWalkgen K)
    (hw : TrajReaches o cs w) (hr : (settingsOf cs).RefsCurrent) (hj : 0 < (settingsOf cs).weighting.jerkMinimization)
    (p v : K) (hx : w.getState = ⟨p, v, 0⟩)
    (hv : ∀ i < (settingsOf cs).nbSamples, 0 < (settingsOf cs).weighting.velocityTracking →
      (settingsOf cs).velRef.get i = v)
    (hp : ∀ i < (settingsOf cs).nbSamples, 0 < (settingsOf cs).weighting.positionTracking →
      (settingsOf cs).posRef.get i = p + v * (settingsOf cs).period * (i + 1))
    (hc : if (settingsOf cs).constrained then |v| ≤ (settingsOf cs).velLimit
      else ∀ i < (settingsOf cs).nbSamples, |w.X.get i| ≤ MAXBOUND) (fb : K) (hfb : 0 < fb) :
    ∃ qp, GivesToSolver w fb qp ∧ (∃ d, Spec.IsSolution qp d) ∧
      ∀ b w', Spec.IsSolution qp (o' w.solver.calls qp 10000).2 → w.solve o' fb = .ok (b, w') →
      w'.getState = ⟨p + v * fb, v, 0⟩ ∧ w'.getJerk = .ok 0 ∧
        ∀ i < (settingsOf cs).nbSamples, w'.X.get i = 0 := by
  have h : TrajInv (settingsOf cs) w := reachable_inv hw
  obtain ⟨qp, hg, hq, hs⟩ := givesToSolver_of_prepared h hr hfb
  have hx' : w.model.state = ⟨p, v, 0⟩ := hx
  have h0 : Spec.trajCost (settingsOf cs) w.model.state (fun _ => 0) = 0 := by
    have e1 : max (settingsOf cs).weighting.velocityTracking 0 * ∑ i ∈ range (settingsOf cs).nbSamples,
        (v - (settingsOf cs).velRef.get i) ^ 2 = 0 := by
      rcases le_or_gt (settingsOf cs).weighting.velocityTracking 0 with h1 | h1
      · rw [max_eq_right h1, zero_mul]
      · rw [sum_eq_zero, mul_zero]
        intro i hi
        rw [hv i (mem_range.1 hi) h1]; ring
    have e2 : max (settingsOf cs).weighting.positionTracking 0 * ∑ i ∈ range (settingsOf cs).nbSamples,
        (p + v * (settingsOf cs).period * (i + 1) - (settingsOf cs).posRef.get i) ^ 2 = 0 := by
      rcases le_or_gt (settingsOf cs).weighting.positionTracking 0 with h1 | h1
      · rw [max_eq_right h1, zero_mul]
      · rw [sum_eq_zero, mul_zero]
        intro i hi
        rw [hp i (mem_range.1 hi) h1]; ring
    simp only [Spec.trajCost, hx', jerkTrajectory_zero, e1, e2]
    simp
  have hfeas : Spec.Feasible qp (fun i => 0 - w.X.get i) := by
    cases hcs : (settingsOf cs).constrained with
    | true =>
      rw [hcs] at hc
      obtain ⟨-, hla, hlj⟩ := reachable_limits hw
      rw [prepared_feasible h hq hcs]
      have e : (fun i => w.X.get i + (0 - w.X.get i)) = fun _ => (0 : K) := by funext i; ring
      rw [e, hx']
      intro i hi
      rw [jerkTrajectory_zero]
      exact ⟨hc, by simpa using hla, by simpa using hlj⟩
    | false =>
      rw [hcs] at hc
      rw [prepared_free hq hcs]
      intro i hi
      rw [zero_sub, abs_neg]
      exact hc i hi
  have hmin : ∀ d, Spec.Feasible qp d → Spec.trajCost (settingsOf cs) w.model.state (fun _ => 0)
      ≤ Spec.trajCost (settingsOf cs) w.model.state (fun i => w.X.get i + d i) :=
    fun d _ => by rw [h0]; exact trajCost_nonneg _ _ _
  refine ⟨qp, hg, ⟨_, isSolution_of_min h hq (fun _ => 0) hfeas hmin⟩, fun b w' hsol e => ?_⟩
  rw [hs o'] at e
  cases e
  have hX := solve_unique o' h fb hj hq hsol (fun _ => 0) hfeas hmin
  have hX0 := hX 0 h.N_pos
  have hN : 0 < w.X.size := by rw [h.X_size]; exact h.N_pos
  refine ⟨?_, ?_, hX⟩
  · have : (solveResult o' w qp fb).getState = stateStep ((solveResult o' w qp fb).X.get 0) fb w.model.state := rfl
    rw [this, hX0, hx']
    simp only [stateStep, State3.mk.injEq]
    refine ⟨by ring, by ring, by ring⟩
  · rw [← hX0]
    exact Vec.at?_ok (by exact hN)

/-- **C59, forever.** At rest on the references, with a positive jerk weighting and a solver that finds solutions,
any number of calls of `solve` leaves the state where it is. -/
theorem C59_rest (o : Oracle K) (ho : Spec.FindsSolution o) (cs : List (TrajCall K)) (w : TrajWalkgen K)
    (hw : TrajReaches o cs w) (hr : (settingsOf cs).RefsCurrent) (hj : 0 < (settingsOf cs).weighting.jerkMinimization)
    (p : K) (hx : w.getState = ⟨p, 0, 0⟩)
    (hv : ∀ i < (settingsOf cs).nbSamples, 0 < (settingsOf cs).weighting.velocityTracking →
      (settingsOf cs).velRef.get i = 0)
    (hp : ∀ i < (settingsOf cs).nbSamples, 0 < (settingsOf cs).weighting.positionTracking →
      (settingsOf cs).posRef.get i = p)
    (hc : (settingsOf cs).constrained = false → ∀ i < (settingsOf cs).nbSamples, |w.X.get i| ≤ MAXBOUND)
    (fbs : List K) (hfb : ∀ fb ∈ fbs, 0 < fb) :
    ∃ w', TrajReaches o (cs ++ fbs.map .solve) w' ∧ w'.getState = ⟨p, 0, 0⟩ := by
  induction fbs generalizing cs w with
  | nil => exact ⟨w, by simpa using hw, hx⟩
  | cons fb fbs ih =>
    have h : TrajInv (settingsOf cs) w := reachable_inv hw
    have hfb0 := hfb fb (by simp)
    obtain ⟨qp, hg, hex, hst⟩ := C59_steady o o cs w hw hr hj p 0 hx hv
      (fun i hi h1 => by rw [hp i hi h1]; ring)
      (by
        cases hcs : (settingsOf cs).constrained with
        | true => simpa using (reachable_limits hw).1
        | false => simpa using hc hcs) fb hfb0
    obtain ⟨b, w1, e1, -⟩ := hg o
    obtain ⟨h1, -, h3⟩ := hst b w1 (ho _ _ _ hex) e1
    rw [zero_mul, add_zero] at h1
    have hw1 : TrajReaches o (cs ++ [.solve fb]) w1 := by
      rw [reaches_append hw]; simp [TrajWalkgen.run, TrajWalkgen.step, e1, ok_bind]
    have es : settingsOf (cs ++ [.solve fb]) = settingsOf cs := by rw [settingsOf_append]; rfl
    obtain ⟨w', g1, g2⟩ := ih (cs ++ [.solve fb]) w1 hw1 (by rw [es]; exact hr) (by rw [es]; exact hj) h1
      (by rw [es]; exact hv) (by rw [es]; exact hp)
      (by rw [es]; intro _ i hi; rw [h3 i hi, abs_zero]; unfold MAXBOUND; norm_num)
      (fun f hf => hfb f (by simp [hf]))
    exact ⟨w', by simpa using g1, g2⟩

/-- The hypotheses of `C59_steady` are met by a motion at the velocity limit. -/
example (o : Oracle ℚ) : ∃ (cs : List (TrajCall ℚ)) (w : TrajWalkgen ℚ), TrajReaches o cs w ∧
    (settingsOf cs).RefsCurrent ∧ 0 < (settingsOf cs).weighting.jerkMinimization ∧ w.getState = ⟨5, 1, 0⟩ ∧
    (∀ i < (settingsOf cs).nbSamples, (settingsOf cs).velRef.get i = 1) ∧
    (∀ i < (settingsOf cs).nbSamples, (settingsOf cs).posRef.get i = 5 + 1 * (settingsOf cs).period * (i + 1)) ∧
    (settingsOf cs).nbSamples = 2 ∧
    if (settingsOf cs).constrained then |(1 : ℚ)| ≤ (settingsOf cs).velLimit
      else ∀ i < (settingsOf cs).nbSamples, |w.X.get i| ≤ MAXBOUND := by
  obtain ⟨w4, hw4⟩ := C16_no_fault_partial o
    ([.setNbSamples 2, .setWeightings ⟨1, 2, 1 / 100⟩, .setConfig true, .setVelRef (Vec.const 2 1),
      .setPosRef ⟨2, fun i => 6 + i⟩])
    (by simp [Spec.TrajSettings.Legal, Spec.TrajSettings.Pre, Spec.TrajSettings.apply, Vec.const])
    (by simp [Spec.TrajSettings.RefsCurrentAtSolves])
  have h : TrajInv _ w4 := reachable_inv hw4
  obtain ⟨b, w, e, -⟩ := step_ok h o (.setState ⟨3, fun i => if i = 0 then 5 else if i = 1 then 1 else 0⟩) rfl
  refine ⟨_, w, (reaches_append (cs' := [.setState ⟨3, fun i => if i = 0 then 5 else if i = 1 then 1 else 0⟩]) hw4).2
    (by simp [TrajWalkgen.run, e, ok_bind]), ⟨rfl, rfl⟩, ?_, ?_, ?_, ?_, rfl, ?_⟩
  · simp [settingsOf, Spec.TrajSettings.after, Spec.TrajSettings.apply, Spec.TrajSettings.init]
  · simp only [TrajWalkgen.step, bind_eq_ok, res_pure, Except.ok.injEq, Prod.mk.injEq] at e
    obtain ⟨_, _, _, rfl⟩ := e
    rfl
  · intro i _; rfl
  · intro i _
    simp only [settingsOf, Spec.TrajSettings.after, Spec.TrajSettings.apply, Spec.TrajSettings.init, List.foldl,
      List.cons_append, List.nil_append]
    ring
  · simp [settingsOf, Spec.TrajSettings.after, Spec.TrajSettings.apply, Spec.TrajSettings.init]

/-! ### C60 -/

/-- **C60.** After `solve` with the sampling period the new state is the first sample of the plan, and the rest of
the plan, made from the new state, goes through the same samples. If the answer was feasible, this rest respects the
limits. -/
theorem C60_tail (o o' : Oracle K) (cs : List (TrajCall K)) (w w' : TrajWalkgen K) (b : Bool)
    (hw : TrajReaches o cs w) (e : w.solve o' (settingsOf cs).period = .ok (b, w')) :
    w'.getState = Spec.jerkTrajectory (settingsOf cs).period (settingsOf cs).period w.getState w'.X.get 0 ∧
    (∀ i, Spec.jerkTrajectory (settingsOf cs).period (settingsOf cs).period w'.getState (fun k => w'.X.get (k + 1)) i
      = Spec.jerkTrajectory (settingsOf cs).period (settingsOf cs).period w.getState w'.X.get (i + 1)) ∧
    ((settingsOf cs).constrained = true → ∃ qp, GivesToSolver w (settingsOf cs).period qp ∧
      (Spec.Feasible qp (o' w.solver.calls qp 10000).2 →
        Spec.WithinLimits { settingsOf cs with nbSamples := (settingsOf cs).nbSamples - 1 } w'.getState
          (fun k => w'.X.get (k + 1)))) := by
  have h : TrajInv (settingsOf cs) w := reachable_inv hw
  obtain ⟨hr, -⟩ := refs_of_solve o' h e
  obtain ⟨qp, hq, e'⟩ := solve_ok o' h hr h.T_pos
  have hst : w'.getState = Spec.cubic w.getState (w'.X.get 0) (settingsOf cs).period := by
    rw [e] at e'; cases e'
    simp only [TrajWalkgen.getState, solveResult, stateStep, Spec.cubic, State3.mk.injEq]
    refine ⟨by ring, by ring, trivial⟩
  refine ⟨hst, fun i => by rw [hst, jerkTrajectory_tail], fun hc => ?_⟩
  obtain ⟨qp', w1, hg, e1, -, -, -, -, hwl, -⟩ := solve_constrained o (o' := o') hw hr hc h.T_pos
  rw [e] at e1; cases e1
  refine ⟨qp', hg, fun hf i hi => ?_⟩
  have := hwl hf (i + 1) (by have : i < (settingsOf cs).nbSamples - 1 := hi; omega)
  rw [hst, jerkTrajectory_tail]
  exact this

/-! ### C61 -/

/-- **C61.** Moving the state and the position references by `δ` does not change what the generator does: in two
histories that led to the same settings and states up to this move, whatever else they did, a solver that returns
solutions gives the same jerks and states that still differ by `δ`. -/
theorem C61_translation (o₁ o₂ o : Oracle K) (cs₁ cs₂ : List (TrajCall K)) (w₁ w₂ : TrajWalkgen K)
    (hw₁ : TrajReaches o₁ cs₁ w₁) (hw₂ : TrajReaches o₂ cs₂ w₂) (δ : K)
    (hs : { settingsOf cs₂ with posRef := (settingsOf cs₁).posRef } = settingsOf cs₁)
    (hp : (settingsOf cs₂).posRef = ⟨(settingsOf cs₁).posRef.size, fun i => (settingsOf cs₁).posRef.get i + δ⟩)
    (hx : w₂.getState = Spec.State3.shift w₁.getState δ)
    (hr : (settingsOf cs₁).RefsCurrent) (hj : 0 < (settingsOf cs₁).weighting.jerkMinimization)
    (hc : (settingsOf cs₁).constrained = true) (fb : K) (hfb : 0 < fb) :
    ∃ qp₁ qp₂, GivesToSolver w₁ fb qp₁ ∧ GivesToSolver w₂ fb qp₂ ∧ ∀ b₁ b₂ w₁' w₂',
      Spec.IsSolution qp₁ (o w₁.solver.calls qp₁ 10000).2 → Spec.IsSolution qp₂ (o w₂.solver.calls qp₂ 10000).2 →
      w₁.solve o fb = .ok (b₁, w₁') → w₂.solve o fb = .ok (b₂, w₂') →
      (∀ i < (settingsOf cs₁).nbSamples, w₁'.X.get i = w₂'.X.get i) ∧
      w₂'.getState = Spec.State3.shift w₁'.getState δ := by
  have h₁ : TrajInv (settingsOf cs₁) w₁ := reachable_inv hw₁
  have h₂ : TrajInv (settingsOf cs₂) w₂ := reachable_inv hw₂
  generalize settingsOf cs₁ = s₁ at *
  generalize settingsOf cs₂ = s₂ at *
  have eN : s₂.nbSamples = s₁.nbSamples := congrArg (·.nbSamples) hs
  have eT : s₂.period = s₁.period := congrArg (·.period) hs
  have eV : s₂.velRef = s₁.velRef := congrArg (·.velRef) hs
  have ev : s₂.velLimit = s₁.velLimit := congrArg (·.velLimit) hs
  have ea : s₂.accLimit = s₁.accLimit := congrArg (·.accLimit) hs
  have ej : s₂.jerkLimit = s₁.jerkLimit := congrArg (·.jerkLimit) hs
  have ew : s₂.weighting = s₁.weighting := congrArg (·.weighting) hs
  have ec : s₂.constrained = s₁.constrained := congrArg (·.constrained) hs
  have hr₂ : s₂.RefsCurrent := ⟨by rw [eV, eN]; exact hr.1, by rw [hp, eN]; exact hr.2⟩
  obtain ⟨qp₁, hg₁, hq₁, hs₁⟩ := givesToSolver_of_prepared h₁ hr hfb
  obtain ⟨qp₂, hg₂, hq₂, hs₂⟩ := givesToSolver_of_prepared h₂ hr₂ hfb
  refine ⟨qp₁, qp₂, hg₁, hg₂, fun b₁ b₂ w₁' w₂' hsol₁ hsol₂ e₁ e₂ => ?_⟩
  rw [hs₁ o] at e₁; cases e₁
  rw [hs₂ o] at e₂; cases e₂
  have hx' : w₂.model.state = Spec.State3.shift w₁.model.state δ := hx
  have hlim : ∀ J, Spec.WithinLimits s₂ w₂.model.state J ↔ Spec.WithinLimits s₁ w₁.model.state J := by
    intro J
    rw [hx']
    simp only [Spec.WithinLimits, eN, eT, ev, ea, ej, jerkTrajectory_shift]
    simp only [Spec.State3.shift]
  have hcost : ∀ J, Spec.trajCost s₂ w₂.model.state J = Spec.trajCost s₁ w₁.model.state J := by
    intro J
    rw [hx']
    simp only [Spec.trajCost, eN, eT, eV, ew, jerkTrajectory_shift]
    simp only [Spec.State3.shift, hp, add_sub_add_right_eq_sub]
  have hc₂ : s₂.constrained = true := by rw [ec]; exact hc
  have hj₂ : 0 < s₂.weighting.jerkMinimization := by rw [ew]; exact hj
  have hd' := solution_congr (hq₁.consistent h₁)
      (y := fun i => if i < w₁.solver.nbVar then (o w₁.solver.calls qp₁ 10000).2 i else w₁.dX.get i)
      (fun i hi => by simp only [hi, if_true]) hsol₁
  have hX := solve_unique o h₂ fb hj₂ hq₂ hsol₂ (solveResult o w₁ qp₁ fb).X.get
    (by
      rw [prepared_feasible h₂ hq₂ hc₂]
      have e : (fun i => w₂.X.get i + ((solveResult o w₁ qp₁ fb).X.get i - w₂.X.get i))
        = (solveResult o w₁ qp₁ fb).X.get := by funext i; ring
      rw [e, hlim]
      exact (prepared_feasible h₁ hq₁ hc _).1 hd'.1)
    (fun d hd => by
      rw [prepared_feasible h₂ hq₂ hc₂, hlim] at hd
      rw [hcost, hcost]
      have hf : Spec.Feasible qp₁ (fun i => (w₂.X.get i + d i) - w₁.X.get i) := by
        rw [prepared_feasible h₁ hq₁ hc]
        have e : (fun i => w₁.X.get i + (w₂.X.get i + d i - w₁.X.get i)) = fun i => w₂.X.get i + d i := by
          funext i; ring
        rw [e]; exact hd
      have h3 := hd'.2 _ hf
      rw [prepared_cost h₁ hq₁, prepared_cost h₁ hq₁] at h3
      have e : (fun i => w₁.X.get i + (w₂.X.get i + d i - w₁.X.get i)) = fun i => w₂.X.get i + d i := by
          funext i; ring
      rw [e] at h3
      exact (sub_le_sub_iff_right _).1 h3)
  rw [eN] at hX
  refine ⟨fun i hi => (hX i hi).symm, ?_⟩
  have g₁ : (solveResult o w₁ qp₁ fb).getState = stateStep ((solveResult o w₁ qp₁ fb).X.get 0) fb w₁.model.state := rfl
  have g₂ : (solveResult o w₂ qp₂ fb).getState = stateStep ((solveResult o w₂ qp₂ fb).X.get 0) fb w₂.model.state := rfl
  rw [g₁, g₂, hX 0 h₁.N_pos, hx']
  simp only [stateStep, Spec.State3.shift, State3.mk.injEq]
  exact ⟨by ring, trivial, trivial⟩

/-- The hypotheses of `C61_translation` are met by two generators moved by 7. -/
example (o : Oracle ℚ) : ∃ (cs₁ cs₂ : List (TrajCall ℚ)) (w₁ w₂ : TrajWalkgen ℚ), TrajReaches o cs₁ w₁ ∧
    TrajReaches o cs₂ w₂ ∧ { settingsOf cs₂ with posRef := (settingsOf cs₁).posRef } = settingsOf cs₁ ∧
    (settingsOf cs₂).posRef = ⟨(settingsOf cs₁).posRef.size, fun i => (settingsOf cs₁).posRef.get i + 7⟩ ∧
    w₂.getState = Spec.State3.shift w₁.getState 7 ∧ (settingsOf cs₁).RefsCurrent ∧
    0 < (settingsOf cs₁).weighting.jerkMinimization ∧ (settingsOf cs₁).constrained = true := by
  have key : ∀ a b : ℚ, ∃ w, TrajReaches o [.setWeightings ⟨1, 2, 1 / 100⟩, .setConfig true, .setPosRef ⟨1, fun _ => b⟩,
      .setState ⟨3, fun i => if i = 0 then a else 0⟩] w ∧ w.getState = ⟨a, 0, 0⟩ := by
    intro a b
    obtain ⟨w4, hw4⟩ := C16_no_fault_partial o
      ([.setWeightings ⟨1, 2, 1 / 100⟩, .setConfig true, .setPosRef ⟨1, fun _ => b⟩])
      (by simp [Spec.TrajSettings.Legal, Spec.TrajSettings.Pre, Spec.TrajSettings.apply, Spec.TrajSettings.init])
      (by simp [Spec.TrajSettings.RefsCurrentAtSolves])
    have h : TrajInv _ w4 := reachable_inv hw4
    obtain ⟨b, w, e, -⟩ := step_ok h o (.setState ⟨3, fun i => if i = 0 then a else 0⟩) rfl
    refine ⟨w, (reaches_append (cs' := [.setState ⟨3, fun i => if i = 0 then a else 0⟩]) hw4).2
      (by simp [TrajWalkgen.run, e, ok_bind]), ?_⟩
    simp only [TrajWalkgen.step, bind_eq_ok, res_pure, Except.ok.injEq, Prod.mk.injEq] at e
    obtain ⟨_, _, _, rfl⟩ := e
    rfl
  obtain ⟨w₁, h1, e1⟩ := key 1 2
  obtain ⟨w₂, h2, e2⟩ := key 8 9
  refine ⟨_, _, w₁, w₂, h1, h2, rfl, ?_, ?_, ⟨rfl, rfl⟩, ?_, rfl⟩
  · simp only [settingsOf, Spec.TrajSettings.after, Spec.TrajSettings.apply, Spec.TrajSettings.init, List.foldl,
      Vec.mk.injEq, true_and]
    funext i; norm_num
  · rw [e1, e2]; simp only [Spec.State3.shift, State3.mk.injEq]; norm_num
  · simp [settingsOf, Spec.TrajSettings.after, Spec.TrajSettings.apply]

end MPC
