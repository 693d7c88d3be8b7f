import Verif.Lemmas.Trajectory

/-!
# Properties C15–C21, C43 of `TrajectoryWalkgen`

Every theorem is about the states reachable by an arbitrary history of API calls, for an arbitrary
QP solver.
-/

set_option linter.unusedSectionVars false

namespace MPC

open Finset

variable {K : Type} [Field K] [LinearOrder K] [IsStrictOrderedRing K]

/-- Constructing a `TrajectoryWalkgen` and making the calls `cs` leads to `w` without any fault. -/
def TrajReaches (o : Oracle K) (cs : List (TrajCall K)) (w : TrajWalkgen K) : Prop :=
  (do TrajWalkgen.run o (← TrajWalkgen.make) cs) = .ok w

/-- What the user configured with the calls `cs`. -/
def settingsOf (cs : List (TrajCall K)) : Spec.TrajSettings K := Spec.TrajSettings.init.after cs

/-- `qp` is the QP that `solve(fb)` gives to qpOASES: for every qpOASES, `solve` succeeds and adds to
the jerks the answer of qpOASES for `qp`. -/
def GivesToSolver (w : TrajWalkgen K) (fb : K) (qp : QPMatrices K) : Prop :=
  ∀ o : Oracle K, ∃ b w', w.solve o fb = .ok (b, w') ∧ w'.X.size = w.X.size ∧
    ∀ i < w.X.size, w'.X.get i = w.X.get i + (o w.solver.calls qp 10000).2 i

theorem givesToSolver_of_prepared {s : Spec.TrajSettings K} {w : TrajWalkgen K} (h : TrajInv s w)
    (hr : s.RefsCurrent) {fb : K} (hfb : 0 < fb) :
    ∃ qp, GivesToSolver w fb qp ∧ Prepared s w qp ∧
      ∀ o, w.solve o fb = .ok (true, solveResult o w qp fb) := by
  obtain ⟨qp, e, hq⟩ := prepare_ok h hr hfb
  have hs : ∀ o, w.solve o fb = .ok (true, solveResult o w qp fb) := by
    intro o
    obtain ⟨qp', hq', e'⟩ := solve_ok o h hr hfb
    have : qp' = qp := by
      have e2 := e'
      simp only [TrajWalkgen.solve, e, ok_bind] at e2
      rw [solverSolve_ok _ _ _ _ _ _ _ (hq.consistent h) (by rw [h.nbVar, h.dX_size])] at e2
      simp only [ok_bind, bind_eq_ok, res_pure, Except.ok.injEq, Prod.mk.injEq] at e2
      obtain ⟨_, _, _, _, _, _, _, e2⟩ := e2
      exact (congrArg TrajWalkgen.qp e2).symm
    rw [e', this]
  refine ⟨qp, fun o => ⟨_, _, hs o, rfl, fun i hi => ?_⟩, hq, hs⟩
  have : i < w.solver.nbVar := by rw [h.nbVar, ← h.X_size]; exact hi
  simp [solveResult, this]

/-! ### C16 -/

/-- **C16 is violated.** There is a history where every call meets its documented preconditions and
that ends in a size mismatch, for every QP solver: changing the number of samples leaves the
references with their old size. -/
theorem C16_stale_reference_fault :
    ∃ cs : List (TrajCall K), (Spec.TrajSettings.init (K := K)).Legal cs ∧
      ∀ o, (do TrajWalkgen.run o (← TrajWalkgen.make) cs) = .error .assertFail := by
  refine ⟨[.setNbSamples 2, .solve 1], ⟨by simp [Spec.TrajSettings.Pre], one_pos, trivial⟩, ?_⟩
  intro o
  obtain ⟨w0, e0, h0⟩ := make_inv (K := K)
  obtain ⟨w1, e1, h1, -, hX⟩ := setNbSamples_inv h0 (n := 2) (by norm_num) o
  rw [e0, ok_bind]
  simp only [TrajWalkgen.run, e1, ok_bind]
  simp only [TrajWalkgen.step, TrajWalkgen.solve, TrajWalkgen.prepare, TrackingObjective.getGradient]
  rw [h1.velRef, hX, require_neg (by simp [Spec.TrajSettings.apply, Spec.TrajSettings.init, Vec.const])]
  rfl

/-- The same holds in every reachable state: `solve` fails exactly when a reference is not current. -/
theorem C16_solve_fails_iff (o o' : Oracle K) (cs : List (TrajCall K)) (w : TrajWalkgen K)
    (hw : TrajReaches o cs w) (fb : K) (hfb : 0 < fb) :
    (∃ r, w.solve o' fb = .ok r) ↔ (settingsOf cs).RefsCurrent := by
  have h : TrajInv (settingsOf cs) w := reachable_inv hw
  constructor
  · rintro ⟨r, e⟩; exact (refs_of_solve o' h e).1
  · intro hr
    obtain ⟨_, _, e⟩ := solve_ok o' h hr hfb
    exact ⟨_, e⟩

/-- **C16 (partial).** A history that meets the documented preconditions and in which both references
are current at each `solve` never faults. Missing: histories where `setNbSamples` is not followed by
new references (false, `C16_stale_reference_fault`). -/
theorem C16_no_fault_partial (o : Oracle K) (cs : List (TrajCall K))
    (hl : (Spec.TrajSettings.init (K := K)).Legal cs)
    (hr : (Spec.TrajSettings.init (K := K)).RefsCurrentAtSolves cs) :
    ∃ w, TrajReaches o cs w := by
  obtain ⟨w0, e0, h0⟩ := make_inv (K := K)
  unfold TrajReaches
  rw [e0, ok_bind]
  generalize Spec.TrajSettings.init (K := K) = s at *
  clear e0
  induction cs generalizing s w0 with
  | nil => exact ⟨w0, rfl⟩
  | cons c cs ih =>
    obtain ⟨hp, hl⟩ := hl
    obtain ⟨hr, hrs⟩ := hr
    have hc : CodePre s c := by
      cases c with
      | setWeightings wt => exact ⟨hp.1, hp.2.2⟩
      | solve fb => exact ⟨hp, hr fb rfl⟩
      | _ => exact hp
    obtain ⟨b, w1, e1, h1⟩ := step_ok h0 o c hc
    simp only [TrajWalkgen.run, e1, ok_bind]
    exact ih w1 _ hl hrs h1

/-- A history that meets the hypotheses of `C16_no_fault_partial`. -/
example : let cs : List (TrajCall ℚ) := [.setNbSamples 3, .setSamplingPeriod (1 / 10),
      .setWeightings ⟨1, 2, 1 / 100⟩, .setConfig true, .setVelRef (Vec.const 3 1),
      .setPosRef (Vec.const 3 0), .setVelLimit 2, .solve (1 / 20), .setState (Vec.const 3 0),
      .solve (1 / 10)]
    Spec.TrajSettings.init.Legal cs ∧ Spec.TrajSettings.init.RefsCurrentAtSolves cs := by
  constructor
  · simp [Spec.TrajSettings.Legal, Spec.TrajSettings.Pre, Spec.TrajSettings.apply, Vec.const]
  · simp [Spec.TrajSettings.RefsCurrentAtSolves, Spec.TrajSettings.RefsCurrent,
      Spec.TrajSettings.apply, Vec.const]

/-! ### C17 -/

/-- **C17.** In every reachable state, the QP given to the solver has as cost of an increment `d`
exactly the documented cost of the jerks `X + d` minus the one of `X`. -/
theorem C17_cost (o : Oracle K) (cs : List (TrajCall K)) (w : TrajWalkgen K)
    (hw : TrajReaches o cs w) (hr : (settingsOf cs).RefsCurrent) (fb : K) (hfb : 0 < fb) :
    ∃ qp, GivesToSolver w fb qp ∧
      ∀ d, Spec.cost qp d = Spec.trajCost (settingsOf cs) w.getState (fun i => w.X.get i + d i)
        - Spec.trajCost (settingsOf cs) w.getState w.X.get := by
  have h : TrajInv (settingsOf cs) w := reachable_inv hw
  obtain ⟨qp, hg, hq, -⟩ := givesToSolver_of_prepared h hr hfb
  exact ⟨qp, hg, prepared_cost h hq⟩

/-- Consequence of C17 and C18: if qpOASES returns a solution of its QP, then the new jerks minimise
the documented cost among all the jerks that respect the limits. -/
theorem C17_optimal (o : Oracle K) (cs : List (TrajCall K)) (w : TrajWalkgen K)
    (hw : TrajReaches o cs w) (hr : (settingsOf cs).RefsCurrent)
    (hc : (settingsOf cs).constrained = true) (fb : K) (hfb : 0 < fb) :
    ∃ qp, GivesToSolver w fb qp ∧ ∀ (o' : Oracle K) b w',
      Spec.IsSolution qp (o' w.solver.calls qp 10000).2 → w.solve o' fb = .ok (b, w') →
      Spec.WithinLimits (settingsOf cs) w.getState w'.X.get ∧
      ∀ J, Spec.WithinLimits (settingsOf cs) w.getState J →
        Spec.trajCost (settingsOf cs) w.getState w'.X.get ≤
          Spec.trajCost (settingsOf cs) w.getState J := by
  have h : TrajInv (settingsOf cs) w := reachable_inv hw
  obtain ⟨qp, hg, hq, hs⟩ := givesToSolver_of_prepared h hr hfb
  refine ⟨qp, hg, fun o' b w' hsol e => ?_⟩
  have hcons := hq.consistent h
  obtain ⟨d, hd, hX⟩ : ∃ d : ℕ → K, (∀ i < w.solver.nbVar,
      (o' w.solver.calls qp 10000).2 i = d i) ∧ w'.X.get = fun i => w.X.get i + d i := by
    rw [hs o'] at e; cases e
    exact ⟨fun i => if i < w.solver.nbVar then (o' w.solver.calls qp 10000).2 i else w.dX.get i,
      fun i hi => by simp only [hi, if_true], rfl⟩
  have hd' := solution_congr hcons hd hsol
  rw [hX]
  refine ⟨(prepared_feasible h hq hc d).1 hd'.1, fun J hJ => ?_⟩
  have hJ' : J = fun i => w.X.get i + (J i - w.X.get i) := by funext i; ring
  have hf : Spec.Feasible qp (fun i => J i - w.X.get i) := by
    rw [prepared_feasible h hq hc]
    rw [hJ'] at hJ; exact hJ
  have h1 := hd'.2 _ hf
  rw [prepared_cost h hq, prepared_cost h hq, ← hJ'] at h1
  exact (sub_le_sub_iff_right _).1 h1

/-! ### C18 -/

/-- **C18.** With motion constraints on, an increment `d` is feasible for the QP given to the solver
iff the jerks `X + d` keep predicted velocities, accelerations and jerks within the limits. -/
theorem C18_constraints (o : Oracle K) (cs : List (TrajCall K)) (w : TrajWalkgen K)
    (hw : TrajReaches o cs w) (hr : (settingsOf cs).RefsCurrent)
    (hc : (settingsOf cs).constrained = true) (fb : K) (hfb : 0 < fb) :
    ∃ qp, GivesToSolver w fb qp ∧
      ∀ d, Spec.Feasible qp d ↔
        Spec.WithinLimits (settingsOf cs) w.getState (fun i => w.X.get i + d i) := by
  have h : TrajInv (settingsOf cs) w := reachable_inv hw
  obtain ⟨qp, hg, hq, -⟩ := givesToSolver_of_prepared h hr hfb
  exact ⟨qp, hg, prepared_feasible h hq hc⟩

/-- Without motion constraints the only bounds are the numerical ones. -/
theorem C18_unconstrained (o : Oracle K) (cs : List (TrajCall K)) (w : TrajWalkgen K)
    (hw : TrajReaches o cs w) (hr : (settingsOf cs).RefsCurrent)
    (hc : (settingsOf cs).constrained = false) (fb : K) (hfb : 0 < fb) :
    ∃ qp, GivesToSolver w fb qp ∧
      ∀ d, Spec.Feasible qp d ↔ ∀ i < (settingsOf cs).nbSamples, |d i| ≤ MAXBOUND := by
  have h : TrajInv (settingsOf cs) w := reachable_inv hw
  obtain ⟨qp, hg, hq, -⟩ := givesToSolver_of_prepared h hr hfb
  refine ⟨qp, hg, fun d => ?_⟩
  have hM : trajM (settingsOf cs) = 0 := by simp [trajM, hc]
  have hf := hq.free hc
  unfold Spec.Feasible
  rw [hq.xl_size, hq.xu_size, hq.bl_size, hq.bu_size]
  change (∀ i < (settingsOf cs).nbSamples, _) ∧ (∀ i < (settingsOf cs).nbSamples, _) ∧
    (∀ i < trajM (settingsOf cs), _) ∧ (∀ i < trajM (settingsOf cs), _) ↔ _
  simp only [hM, (hf _).1, (hf _).2, abs_le]
  constructor
  · rintro ⟨h1, h2, -, -⟩ i hi; exact ⟨h1 i hi, h2 i hi⟩
  · intro h1
    exact ⟨fun i hi => (h1 i hi).1, fun i hi => (h1 i hi).2, fun i hi => by omega,
      fun i hi => by omega⟩

/-! ### C19 -/

/-- **C19.** If the answer of the solver is feasible then after `solve(fb)`:
the new state is the old one driven by the published jerk for `fb`; this jerk is within its limit;
if `fb` is the sampling period, velocity and acceleration are within their limits; if `fb` is
shorter, the acceleration is within its limit when it was before the call. -/
theorem C19_limits_after_solve (o : Oracle K) (cs : List (TrajCall K)) (w : TrajWalkgen K)
    (hw : TrajReaches o cs w) (hr : (settingsOf cs).RefsCurrent)
    (hc : (settingsOf cs).constrained = true) (fb : K) (hfb : 0 < fb)
    (hle : fb ≤ (settingsOf cs).period) :
    ∃ qp, GivesToSolver w fb qp ∧ ∀ (o' : Oracle K) b w',
      Spec.Feasible qp (o' w.solver.calls qp 10000).2 → w.solve o' fb = .ok (b, w') →
      ∃ j, w'.getJerk = .ok j ∧ |j| ≤ (settingsOf cs).jerkLimit ∧
        w'.getState = Spec.cubic w.getState j fb ∧
        (fb = (settingsOf cs).period → |w'.getState.v| ≤ (settingsOf cs).velLimit ∧
          |w'.getState.a| ≤ (settingsOf cs).accLimit) ∧
        (|w.getState.a| ≤ (settingsOf cs).accLimit →
          |w'.getState.a| ≤ (settingsOf cs).accLimit) := by
  have h : TrajInv (settingsOf cs) w := reachable_inv hw
  obtain ⟨qp, hg, hq, hs⟩ := givesToSolver_of_prepared h hr hfb
  refine ⟨qp, hg, fun o' b w' hfeas e => ?_⟩
  rw [hs o'] at e
  cases e
  have hN : 0 < w.X.size := by rw [h.X_size]; exact h.N_pos
  have hnb : w.solver.nbVar = (settingsOf cs).nbSamples := h.nbVar
  have hd := feasible_congr (hq.consistent h)
    (y := fun i => if i < w.solver.nbVar then (o' w.solver.calls qp 10000).2 i else w.dX.get i)
    (fun i hi => by simp only [hi, if_true]) hfeas
  have hlim := (prepared_feasible h hq hc _).1 hd 0 h.N_pos
  obtain ⟨hv, ha, hj⟩ := hlim
  simp only [Spec.jerkTrajectory] at hv ha
  have hst : (solveResult o' w qp fb).getState
      = Spec.cubic w.getState ((solveResult o' w qp fb).X.get 0) fb := by
    simp only [TrajWalkgen.getState, solveResult, stateStep, Spec.cubic, State3.mk.injEq]
    refine ⟨by ring, by ring, trivial⟩
  refine ⟨_, Vec.at?_ok (by exact hN), hj, hst, ?_, ?_⟩
  · rintro rfl
    rw [hst]
    exact ⟨hv, ha⟩
  · intro h0
    rw [hst]
    have hT : 0 < (settingsOf cs).period := h.T_pos
    rw [abs_le] at h0 ha ⊢
    change -_ ≤ w.model.state.a + (solveResult o' w qp fb).X.get 0 * (settingsOf cs).period ∧
      w.model.state.a + (solveResult o' w qp fb).X.get 0 * (settingsOf cs).period ≤ _ at ha
    change -_ ≤ w.model.state.a + (solveResult o' w qp fb).X.get 0 * fb ∧
      w.model.state.a + (solveResult o' w qp fb).X.get 0 * fb ≤ _
    change -_ ≤ w.model.state.a ∧ w.model.state.a ≤ _ at h0
    rcases le_total 0 ((solveResult o' w qp fb).X.get 0) with hs | hs
    · have := mul_le_mul_of_nonneg_left hle hs
      have := mul_nonneg hs hfb.le
      constructor <;> linarith [h0.1, h0.2, ha.1, ha.2]
    · have := mul_le_mul_of_nonpos_left hle hs
      have := mul_nonpos_of_nonpos_of_nonneg hs hfb.le
      constructor <;> linarith [h0.1, h0.2, ha.1, ha.2]

/-! ### C20 -/

/-- A history that configures a new `TrajectoryWalkgen` with given settings. -/
def freshHistory (s : Spec.TrajSettings K) : List (TrajCall K) :=
  [.setNbSamples s.nbSamples, .setSamplingPeriod s.period, .setWeightings s.weighting,
    .setConfig s.constrained, .setVelRef s.velRef, .setPosRef s.posRef]

/-- **C20.** At each `solve`, the matrices given to the solver are those of a new
`TrajectoryWalkgen` with the current settings, and are also those the solver was initialised with, so
that the warm start works on the requested problem. -/
theorem C20_matrices_fresh (o o' : Oracle K) (cs : List (TrajCall K)) (w w' : TrajWalkgen K)
    (hw : TrajReaches o cs w) (hr : (settingsOf cs).RefsCurrent)
    (hw' : TrajReaches o' (freshHistory (settingsOf cs)) w') (fb : K) (hfb : 0 < fb) :
    ∃ qp qp', GivesToSolver w fb qp ∧ GivesToSolver w' fb qp' ∧ qp.Q.Same qp'.Q ∧ qp.A.Same qp'.A ∧
      (w.solver.initialized = true → w.solver.Q = qp.Q ∧ w.solver.A = qp.A) := by
  have h : TrajInv (settingsOf cs) w := reachable_inv hw
  have h' := reachable_inv hw'
  have hr' : (Spec.TrajSettings.init.after (freshHistory (settingsOf cs))).RefsCurrent := hr
  obtain ⟨qp, hg, hq, -⟩ := givesToSolver_of_prepared h hr hfb
  obtain ⟨qp', hg', hq', -⟩ := givesToSolver_of_prepared h' hr' hfb
  obtain ⟨h1, h2⟩ := inv_same h h' rfl rfl rfl rfl
  rw [← hq.Q, ← hq'.Q] at h1
  rw [← hq.A, ← hq'.A] at h2
  refine ⟨qp, qp', hg, hg', h1, h2, fun hi => ?_⟩
  rw [hq.Q, hq.A]
  exact h.warm hi

/-- The fresh configuration used in C20 exists, also for settings that are not the defaults. -/
example (o : Oracle ℚ) : ∃ w, TrajReaches o (freshHistory
    ⟨3, 1 / 10, Vec.const 3 1, Vec.const 3 0, 1, 1, 1, ⟨1, 2, 3⟩, true⟩) w := by
  apply C16_no_fault_partial
  · simp [freshHistory, Spec.TrajSettings.Legal, Spec.TrajSettings.Pre, Spec.TrajSettings.apply,
      Vec.const]
  · simp [freshHistory, Spec.TrajSettings.RefsCurrentAtSolves, Spec.TrajSettings.RefsCurrent,
      Spec.TrajSettings.apply, Vec.const]

/-! ### C21 -/

/-- **C21.** The problem given to the solver is convex; it is strictly convex, with at most one
solution, when the jerk weighting is positive. -/
theorem C21_convex (o : Oracle K) (cs : List (TrajCall K)) (w : TrajWalkgen K)
    (hw : TrajReaches o cs w) (hr : (settingsOf cs).RefsCurrent) (fb : K) (hfb : 0 < fb) :
    ∃ qp, GivesToSolver w fb qp ∧
      qp.Q.rows = (settingsOf cs).nbSamples ∧ qp.Q.cols = (settingsOf cs).nbSamples ∧
      (∀ i j, qp.Q.get i j = qp.Q.get j i) ∧
      (∀ d : ℕ → K, 0 ≤ ∑ i ∈ range qp.Q.rows, ∑ j ∈ range qp.Q.cols, d i * qp.Q.get i j * d j) ∧
      (0 < (settingsOf cs).weighting.jerkMinimization →
        (∀ d : ℕ → K, (∃ i < (settingsOf cs).nbSamples, d i ≠ 0) →
          0 < ∑ i ∈ range qp.Q.rows, ∑ j ∈ range qp.Q.cols, d i * qp.Q.get i j * d j) ∧
        ∀ x y, Spec.IsSolution qp x → Spec.IsSolution qp y →
          ∀ i < (settingsOf cs).nbSamples, x i = y i) := by
  have h : TrajInv (settingsOf cs) w := reachable_inv hw
  obtain ⟨qp, hg, hq, -⟩ := givesToSolver_of_prepared h hr hfb
  have hpos : 0 < (settingsOf cs).weighting.jerkMinimization → ∀ d : ℕ → K,
      (∃ i < (settingsOf cs).nbSamples, d i ≠ 0) → 0 < quadForm qp.Q d := by
    rintro hwj d ⟨i, hi, hdi⟩
    rw [quadForm_prepared h hq]
    have h1 : 0 < ∑ i ∈ range (settingsOf cs).nbSamples, d i ^ 2 :=
      sum_pos' (fun k _ => sq_nonneg _) ⟨i, mem_range.2 hi, by positivity⟩
    have h2 : 0 < max (settingsOf cs).weighting.jerkMinimization 0 := lt_max_of_lt_left hwj
    refine add_pos_of_nonneg_of_pos (add_nonneg ?_ ?_) (mul_pos h2 h1)
    all_goals exact mul_nonneg (le_max_right _ _) (sum_nonneg fun k _ => sq_nonneg _)
  refine ⟨qp, hg, by rw [hq.Q]; exact h.Q_rows, by rw [hq.Q]; exact h.Q_cols, ?_, ?_, ?_⟩
  · intro i j
    rw [hq.Q, h.Q_get, h.Q_get]
    unfold trajQ
    rw [gram_symm, gram_symm _ (posU _ _)]
    simp only [eq_comm]
  · intro d
    change 0 ≤ quadForm qp.Q d
    rw [quadForm_prepared h hq]
    refine add_nonneg (add_nonneg ?_ ?_) ?_
    all_goals exact mul_nonneg (le_max_right _ _) (sum_nonneg fun k _ => sq_nonneg _)
  · intro hwj
    refine ⟨hpos hwj, fun x y hx hy i hi => ?_⟩
    by_contra hne
    have h1 := solution_unique qp x y hx hy
    have h2 := hpos hwj (fun i => x i - y i) ⟨i, hi, sub_ne_zero.2 hne⟩
    exact absurd h1 (not_le.2 h2)

/-- With all weights zero the problem is not strictly convex, so the hypothesis of C21 matters. -/
example : ∃ (d : ℕ → ℚ), d 0 ≠ 0 ∧
    quadForm (⟨1, 1, trajQ Spec.TrajSettings.init⟩ : Mat ℚ) d = 0 :=
  ⟨fun _ => 1, one_ne_zero, by simp [quadForm, trajQ, Spec.TrajSettings.init]⟩

/-- The hypotheses of C17–C21 are met by a history with constraints and several `solve`s. -/
example (o : Oracle ℚ) : ∃ (cs : List (TrajCall ℚ)) (w : TrajWalkgen ℚ), TrajReaches o cs w ∧
    (settingsOf cs).RefsCurrent ∧ (settingsOf cs).constrained = true ∧
    0 < (settingsOf cs).weighting.jerkMinimization ∧ (settingsOf cs).nbSamples = 3 := by
  obtain ⟨w, hw⟩ := C16_no_fault_partial o
    ([.setNbSamples 3, .setSamplingPeriod (1 / 10), .setWeightings ⟨1, 2, 1 / 100⟩, .setConfig true,
      .setVelRef (Vec.const 3 1), .setPosRef (Vec.const 3 0), .solve (1 / 10), .setVelLimit 2,
      .solve (1 / 20)])
    (by simp [Spec.TrajSettings.Legal, Spec.TrajSettings.Pre, Spec.TrajSettings.apply, Vec.const])
    (by simp [Spec.TrajSettings.RefsCurrentAtSolves, Spec.TrajSettings.RefsCurrent,
      Spec.TrajSettings.apply, Vec.const])
  refine ⟨_, w, hw, ⟨rfl, rfl⟩, rfl, ?_, rfl⟩
  show (0 : ℚ) < 1 / 100
  norm_num

/-! ### C15 and C43 for this generator -/

/-- **C15 is violated at the level of the generator**: `solve` returns `true` whatever qpOASES
reports. -/
theorem C15_trajectory_hides_failure (o o' : Oracle K) (cs : List (TrajCall K)) (w : TrajWalkgen K)
    (hw : TrajReaches o cs w) (hr : (settingsOf cs).RefsCurrent) (fb : K) (hfb : 0 < fb) :
    ∃ w', w.solve o' fb = .ok (true, w') := by
  have h : TrajInv (settingsOf cs) w := reachable_inv hw
  obtain ⟨_, _, e⟩ := solve_ok o' h hr hfb
  exact ⟨_, e⟩

/-- **C43 is violated**: `setWeightings` accepts a negative position weighting (it checks the velocity
weighting twice) in every reachable state. -/
theorem C43_trajectory_accepts_negative (o o' : Oracle K) (cs : List (TrajCall K)) (w : TrajWalkgen K)
    (hw : TrajReaches o cs w) (wp : K) (_ : wp < 0) :
    ∃ w', w.step o' (.setWeightings ⟨0, wp, 0⟩) = .ok (true, w') ∧
      w'.weighting.positionTracking = wp := by
  have h : TrajInv (settingsOf cs) w := reachable_inv hw
  obtain ⟨b, w', e, h'⟩ := step_ok h o' (.setWeightings ⟨0, wp, 0⟩) ⟨le_rfl, le_rfl⟩
  refine ⟨w', ?_, by rw [h'.weighting]; rfl⟩
  rw [e]
  simp only [TrajWalkgen.step, bind_eq_ok, res_pure, Except.ok.injEq, Prod.mk.injEq] at e
  obtain ⟨_, _, _, _, _, _, _, _, rfl, _⟩ := e
  rfl

/-- **C43 (partial).** The two other weightings are checked. -/
theorem C43_trajectory_partial (o o' : Oracle K) (cs : List (TrajCall K)) (w : TrajWalkgen K)
    (hw : TrajReaches o cs w) (wt : TrajWeighting K) :
    (∃ r, w.step o' (.setWeightings wt) = .ok r) ↔
      0 ≤ wt.velocityTracking ∧ 0 ≤ wt.jerkMinimization := by
  have h : TrajInv (settingsOf cs) w := reachable_inv hw
  constructor
  · rintro ⟨r, e⟩; exact codePre_of_ok h o' _ e
  · intro hp
    obtain ⟨_, _, e, _⟩ := step_ok h o' (.setWeightings wt) hp
    exact ⟨_, e⟩

end MPC
