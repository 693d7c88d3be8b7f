import Verif.Lemmas.Between
import Verif.Props.Recede
import Verif.Props.ZebRest
import Verif.Lemmas.Eval
import Mathlib.Data.Rat.Floor

/-!
# Property C70: limits between the samples

The constraints of the QPs are about the samples of the horizon. Here: what they imply at all other times, for the plan
and for the motion that results when the problem is solved again before the end of the sampling period.
-/

set_option linter.unusedSectionVars false

namespace MPC

open Finset

section
variable {K : Type} [Field K] [LinearOrder K] [IsStrictOrderedRing K]

/-! ### `TrajectoryWalkgen` -/

/-- **C70, plan (partial).** Feasible jerks keep the acceleration within its limit at all times of the horizon, and the
velocity up to `J T² / 8`, from the first sample on, and from the start if the state is within the limits.
Missing: the velocity limit itself (false, `C70_violated`). -/
theorem C70_plan_partial (o : Oracle K) (cs : List (TrajCall K)) (w : TrajWalkgen K)
    (hw : TrajReaches o cs w) (hr : (settingsOf cs).RefsCurrent)
    (hc : (settingsOf cs).constrained = true) (fb : K) (hfb : 0 < fb) :
    ∃ qp, GivesToSolver w fb qp ∧ ∀ d, Spec.Feasible qp d → ∀ i < (settingsOf cs).nbSamples,
      (i = 0 → Spec.StateWithin (settingsOf cs) w.getState) → ∀ t, 0 ≤ t → t ≤ (settingsOf cs).period →
      (settingsOf cs).limits.UpTo ((settingsOf cs).jerkLimit * (settingsOf cs).period ^ 2 / 8)
        (Spec.planAt (settingsOf cs).period w.getState (fun i => w.X.get i + d i) i t) := by
  have h : TrajInv (settingsOf cs) w := reachable_inv hw
  obtain ⟨qp, hg, hf⟩ := C18_constraints o cs w hw hr hc fb hfb
  refine ⟨qp, hg, fun d hd i hi h0 t t0 t1 => ?_⟩
  have hl := (hf d).1 hd
  have up : ∀ x : State3 K, |x.v| ≤ (settingsOf cs).velLimit → |x.a| ≤ (settingsOf cs).accLimit →
      (settingsOf cs).limits.UpTo 0 x := fun x h1 h2 => ⟨by rw [add_zero]; exact h1, h2⟩
  refine planAt_between (l := (settingsOf cs).limits) h.T_pos ?_ ?_ (hl i hi).2.2 t0 t1
  · cases i with
    | zero => rw [planAt_start]; exact up _ (h0 rfl).1 (h0 rfl).2
    | succ k => rw [planAt_zero]; exact up _ (hl k (by omega)).1 (hl k (by omega)).2.1
  · rw [planAt_end]; exact up _ (hl i hi).1 (hl i hi).2.1

/-- A run that continues `cs₀`, `w₀`: calls of `solve` with feedback periods from `f` to the sampling period, each with
a feasible answer of the solver, and any other calls that do not change state, limits, sampling period and
configuration. -/
inductive TrajLoop (o : Oracle K) (f : K) (cs₀ : List (TrajCall K)) (w₀ : TrajWalkgen K) :
    List (TrajCall K) → TrajWalkgen K → Prop
  | start : TrajLoop o f cs₀ w₀ cs₀ w₀
  | solve {cs w fb b w'} : TrajLoop o f cs₀ w₀ cs w → f ≤ fb → fb ≤ (settingsOf cs).period →
      (∃ qp, GivesToSolver w fb qp ∧ Spec.Feasible qp (o w.solver.calls qp 10000).2) →
      w.solve o fb = .ok (b, w') → TrajLoop o f cs₀ w₀ (cs ++ [.solve fb]) w'
  | other {cs w c b w'} : TrajLoop o f cs₀ w₀ cs w → w.step o c = .ok (b, w') → w'.getState = w.getState →
      (settingsOf (cs ++ [c])).limits = (settingsOf cs).limits →
      (settingsOf (cs ++ [c])).constrained = (settingsOf cs).constrained →
      TrajLoop o f cs₀ w₀ (cs ++ [c]) w'

/-- One `solve` of a run as in `TrajLoop`. -/
theorem traj_cycle (o : Oracle K) {cs : List (TrajCall K)} {w w' : TrajWalkgen K} {f fb : K} {b : Bool}
    (hw : TrajReaches o cs w) (hc : (settingsOf cs).constrained = true) (hf : 0 < f) (h1 : f ≤ fb)
    (h2 : fb ≤ (settingsOf cs).period) (hx : (settingsOf cs).limits.Loosely f w.getState)
    (ha : ∃ qp, GivesToSolver w fb qp ∧ Spec.Feasible qp (o w.solver.calls qp 10000).2)
    (e : w.solve o fb = .ok (b, w')) :
    ∃ j, w'.getJerk = .ok j ∧ |j| ≤ (settingsOf cs).jerkLimit ∧ w'.getState = Spec.cubic w.getState j fb ∧
      (settingsOf cs).limits.Loosely f w'.getState ∧
      ∀ t, 0 ≤ t → t ≤ fb → (settingsOf cs).limits.UpTo
        ((settingsOf cs).jerkLimit * (2 * (settingsOf cs).period - f) ^ 2 / 8) (Spec.cubic w.getState j t) := by
  have h : TrajInv (settingsOf cs) w := reachable_inv hw
  obtain ⟨hr, -⟩ := refs_of_solve o h e
  obtain ⟨qp, w1, hg, e1, hst, hj, -, -, hwl, -⟩ := solve_constrained o (o' := o) hw hr hc (hf.trans_le h1)
  rw [e] at e1
  cases e1
  obtain ⟨qp', hg', hfe⟩ := ha
  obtain rfl := hg.unique h hg'
  obtain ⟨l1, l2, l3⟩ := hwl hfe 0 h.N_pos
  obtain ⟨g1, g2⟩ := loosely_cycle (l := (settingsOf cs).limits) hf h1 h2 hx l3 l1 l2
  exact ⟨_, hj, l3, hst, by rw [hst]; exact g1, g2⟩

/-- **C70, run (partial).** During any run with feedback periods of at least `f`, feasible answers and constraints on,
the acceleration is within its limit, the velocity after each call is within its limit up to `J T (T - f) / 2`, and at
all times in between up to `J (2 T - f)² / 8`. For `f = T` the velocities after the calls are within the limit.
Missing: the velocity limit itself for shorter feedback periods and between the calls (false, `C70_violated`). -/
theorem C70_run_partial (o : Oracle K) (cs₀ cs : List (TrajCall K)) (w₀ w : TrajWalkgen K)
    (hw : TrajReaches o cs₀ w₀) (hc : (settingsOf cs₀).constrained = true) (f : K) (hf : 0 < f)
    (hx : (settingsOf cs₀).limits.Loosely f w₀.getState) (hl : TrajLoop o f cs₀ w₀ cs w) :
    TrajReaches o cs w ∧ (settingsOf cs₀).limits.Loosely f w.getState ∧
    ∀ fb b w', f ≤ fb → fb ≤ (settingsOf cs).period →
      (∃ qp, GivesToSolver w fb qp ∧ Spec.Feasible qp (o w.solver.calls qp 10000).2) →
      w.solve o fb = .ok (b, w') →
      ∃ j, w'.getJerk = .ok j ∧ |j| ≤ (settingsOf cs₀).jerkLimit ∧ w'.getState = Spec.cubic w.getState j fb ∧
        ∀ t, 0 ≤ t → t ≤ fb → (settingsOf cs₀).limits.UpTo
          ((settingsOf cs₀).jerkLimit * (2 * (settingsOf cs₀).period - f) ^ 2 / 8) (Spec.cubic w.getState j t) := by
  have key : TrajReaches o cs w ∧ (settingsOf cs).limits = (settingsOf cs₀).limits ∧
      (settingsOf cs).constrained = true ∧ (settingsOf cs₀).limits.Loosely f w.getState := by
    induction hl with
    | start => exact ⟨hw, rfl, hc, hx⟩
    | @solve cs w fb b w' _ h1 h2 ha e ih =>
      obtain ⟨i1, i2, i3, i4⟩ := ih
      obtain ⟨j, -, -, -, g, -⟩ := traj_cycle o i1 i3 hf h1 h2 (i2 ▸ i4) ha e
      have es : settingsOf (cs ++ [.solve fb]) = settingsOf cs := by rw [settingsOf_append]; rfl
      refine ⟨?_, by rw [es]; exact i2, by rw [es]; exact i3, i2 ▸ g⟩
      rw [reaches_append i1]; simp [TrajWalkgen.run, TrajWalkgen.step, e, ok_bind]
    | @other cs w c b w' _ e hs hlim hcon ih =>
      obtain ⟨i1, i2, i3, i4⟩ := ih
      refine ⟨?_, hlim.trans i2, hcon.trans i3, by rw [hs]; exact i4⟩
      rw [reaches_append i1]; simp [TrajWalkgen.run, e, ok_bind]
  obtain ⟨k1, k2, k3, k4⟩ := key
  refine ⟨k1, k4, fun fb b w' h1 h2 ha e => ?_⟩
  obtain ⟨j, g1, g2, g3, -, g5⟩ := traj_cycle o k1 k3 hf h1 h2 (k2 ▸ k4) ha e
  have e1 : (settingsOf cs).jerkLimit = (settingsOf cs₀).jerkLimit := congrArg Spec.Limits.jerk k2
  have e2 : (settingsOf cs).period = (settingsOf cs₀).period := congrArg Spec.Limits.period k2
  rw [e1, e2, k2] at g5
  exact ⟨j, g1, e1 ▸ g2, g3, g5⟩

/-- **C70 is violated.** From a state within the limits, with any solver that finds feasible points, `solve` with half
of the sampling period as feedback period ends at a velocity that is `J T² / 8` above its limit. -/
theorem C70_violated : ∃ cs : List (TrajCall K), (Spec.TrajSettings.init (K := K)).Legal cs ∧
    ∀ o, Spec.FindsFeasible o → ∃ w w', TrajReaches o cs w ∧ Spec.StateWithin (settingsOf cs) w.getState ∧
      (settingsOf cs).constrained = true ∧ w.solve o ((settingsOf cs).period / 2) = .ok (true, w') ∧
      (∃ qp, GivesToSolver w ((settingsOf cs).period / 2) qp ∧ Spec.Feasible qp (o w.solver.calls qp 10000).2) ∧
      w'.getState.v = (settingsOf cs).velLimit + (settingsOf cs).jerkLimit * (settingsOf cs).period ^ 2 / 8 ∧
      (settingsOf cs).velLimit < w'.getState.v := by
  set cs0 : List (TrajCall K) := [.setConfig true, .setState ⟨3, fun i => if i = 0 then 0 else if i = 1 then 1 else 1 / 2⟩]
    with hcs0
  have hl : (Spec.TrajSettings.init (K := K)).Legal cs0 := by
    simp [cs0, Spec.TrajSettings.Legal, Spec.TrajSettings.Pre]
  refine ⟨cs0, hl, fun o ho => ?_⟩
  have hr : (settingsOf cs0).RefsCurrent := ⟨rfl, rfl⟩
  obtain ⟨w1, hw1⟩ := C16_no_fault_partial o (cs0.take 1)
    (by simp [cs0, Spec.TrajSettings.Legal, Spec.TrajSettings.Pre]) (by simp [cs0, Spec.TrajSettings.RefsCurrentAtSolves])
  obtain ⟨w, hw⟩ := C16_no_fault_partial o cs0 hl (by simp [cs0, Spec.TrajSettings.RefsCurrentAtSolves])
  have hx : w.getState = ⟨0, 1, 1 / 2⟩ := by
    have h5 : TrajReaches o (cs0.take 1 ++ cs0.drop 1) w := hw
    rw [reaches_append hw1] at h5
    simp only [cs0, List.drop_succ_cons, List.drop_zero, TrajWalkgen.run, TrajWalkgen.step, bind_eq_ok, res_pure,
      Except.ok.injEq, Prod.mk.injEq, Prod.exists] at h5
    obtain ⟨_, _, ⟨_, _, _, rfl⟩, rfl⟩ := h5
    rfl
  have hs : settingsOf cs0 = { (Spec.TrajSettings.init (K := K)) with constrained := true } := rfl
  obtain ⟨qp, w', hg, e, hst, hj, hfe, -, hwl, -⟩ := solve_constrained o (o' := o) hw hr rfl
    (show (0 : K) < (settingsOf cs0).period / 2 by rw [hs]; exact half_pos one_pos)
  have hfeas : Spec.Feasible qp (o w.solver.calls qp 10000).2 := by
    refine ho _ _ _ (hg.consistent (reachable_inv hw)) ⟨fun i => -1 - w.X.get i, ?_⟩
    rw [hfe, hx, hs]
    intro i hi
    obtain rfl : i = 0 := by simpa [Spec.TrajSettings.init] using hi
    simp only [Spec.jerkTrajectory, Spec.cubic, Spec.TrajSettings.init, abs_le]
    norm_num
  obtain ⟨h1, -, h2⟩ := hwl hfeas 0 (by rw [hs]; exact one_pos)
  have hX : w'.X.get 0 = -1 := by
    rw [hx, hs] at h1
    rw [hs] at h2
    simp only [Spec.jerkTrajectory, Spec.cubic, Spec.TrajSettings.init, abs_le] at h1 h2
    linarith [h1.2, h2.1]
  have hv : w'.getState.v = 9 / 8 := by
    rw [hst, hX, hx, hs]
    simp only [Spec.cubic, Spec.TrajSettings.init]
    norm_num
  refine ⟨w, w', hw, ?_, rfl, e, ⟨qp, hg, hfeas⟩, ?_, ?_⟩
  · rw [hx, hs]
    simp only [Spec.StateWithin, Spec.TrajSettings.init, abs_le]
    norm_num
  · rw [hv, hs]
    simp only [Spec.TrajSettings.init]
    norm_num
  · rw [hv, hs]
    simp only [Spec.TrajSettings.init]
    norm_num

end

/-- Nothing to do at a constant velocity at the limit. -/
theorem idle_solve {cs : List (TrajCall ℚ)} {w : TrajWalkgen ℚ} {p fb : ℚ}
    (hw : TrajReaches (fun _ _ _ => (true, fun _ => 0)) cs w) (hs : settingsOf cs = { Spec.TrajSettings.init with
      constrained := true }) (hx : w.getState = ⟨p, 1, 0⟩) (hX : w.X.get 0 = 0) (hfb : 0 < fb) :
    ∃ b w', w.solve (fun _ _ _ => (true, fun _ => 0)) fb = .ok (b, w') ∧
      (∃ qp, GivesToSolver w fb qp ∧ Spec.Feasible qp fun _ => 0) ∧ w'.getState = ⟨p + fb, 1, 0⟩ ∧ w'.X.get 0 = 0 := by
  have hr : (settingsOf cs).RefsCurrent := by rw [hs]; exact ⟨rfl, rfl⟩
  have h : TrajInv (settingsOf cs) w := reachable_inv hw
  obtain ⟨qp, w', hg, e, hst, -, hfe, -⟩ := solve_constrained _ (o' := fun _ _ _ => (true, fun _ => 0)) hw hr
    (by rw [hs]) hfb
  obtain ⟨b, w1, e1, -, h1⟩ := hg fun _ _ _ => (true, fun _ => 0)
  obtain ⟨-, rfl⟩ : true = b ∧ w' = w1 := by simpa using e.symm.trans e1
  have hX' : w'.X.get 0 = 0 := by
    rw [h1 0 (by rw [h.X_size]; exact h.N_pos), hX]; simp
  refine ⟨_, w', e, ⟨qp, hg, ?_⟩, ?_, hX'⟩
  · rw [hfe, hs, hx]
    intro i hi
    obtain rfl : i = 0 := by simpa [Spec.TrajSettings.init] using hi
    simp [Spec.jerkTrajectory, Spec.cubic, Spec.TrajSettings.init, hX]
  · rw [hst, hX', hx]
    simp [Spec.cubic]

/-- Constraints on and the greatest velocity. -/
def idleCalls : List (TrajCall ℚ) := [.setConfig true, .setState ⟨3, fun i => if i = 1 then 1 else 0⟩]

/-- The hypotheses of `C70_run_partial` are met by a run of three `solve`s with different feedback periods, at the
velocity limit. -/
example : ∃ (o : Oracle ℚ) (cs₀ cs : List (TrajCall ℚ)) (w₀ w : TrajWalkgen ℚ), TrajReaches o cs₀ w₀ ∧
    (settingsOf cs₀).constrained = true ∧ (settingsOf cs₀).limits.Loosely (1 / 2) w₀.getState ∧
    TrajLoop o (1 / 2) cs₀ w₀ cs w ∧ cs = cs₀ ++ [.solve (1 / 2), .solve 1, .solve (3 / 4)] ∧
    w₀.getState = ⟨0, 1, 0⟩ := by
  have h : okAnd (fun w : TrajWalkgen ℚ => decide (w.model.state.p = 0 ∧ w.model.state.v = 1 ∧ w.model.state.a = 0 ∧
      w.X.get 0 = 0)) (do TrajWalkgen.run (fun _ _ _ => (true, fun _ => 0)) (← TrajWalkgen.make) idleCalls) = true := by
    decide +kernel
  obtain ⟨w, hw, hc⟩ := okAnd_true h
  simp only [decide_eq_true_eq] at hc
  obtain ⟨c1, c2, c3, c4⟩ := hc
  have hx : w.getState = ⟨0, 1, 0⟩ := by
    have : w.getState = ⟨w.model.state.p, w.model.state.v, w.model.state.a⟩ := rfl
    rw [this, c1, c2, c3]
  obtain ⟨b1, w1, e1, f1, x1, X1⟩ := idle_solve (fb := 1 / 2) hw rfl hx c4 (by norm_num)
  have r1 := (reaches_append (cs' := [.solve (1 / 2)]) (w' := w1) hw).2
    (by simp only [TrajWalkgen.run, TrajWalkgen.step, e1, ok_bind])
  obtain ⟨b2, w2, e2, f2, x2, X2⟩ := idle_solve (fb := 1) r1 rfl x1 X1 (by norm_num)
  have r2 := (reaches_append (cs' := [.solve 1]) (w' := w2) r1).2
    (by simp only [TrajWalkgen.run, TrajWalkgen.step, e2, ok_bind])
  obtain ⟨b3, w3, e3, f3, x3, X3⟩ := idle_solve (fb := 3 / 4) r2 rfl x2 X2 (by norm_num)
  refine ⟨_, _, _, w, w3, hw, rfl, ?_, ((TrajLoop.start.solve ?_ ?_ f1 e1).solve ?_ ?_ f2 e2).solve ?_ ?_ f3 e3, rfl, hx⟩
  · rw [hx]
    constructor <;> simp [Spec.TrajSettings.limits, settingsOf, Spec.TrajSettings.after, Spec.TrajSettings.apply,
      idleCalls, Spec.TrajSettings.init]
    norm_num
  all_goals simp [settingsOf, idleCalls, Spec.TrajSettings.after, Spec.TrajSettings.apply, Spec.TrajSettings.init] <;> norm_num

section
variable {K : Type} [Field K] [LinearOrder K] [IsStrictOrderedRing K] [FloorRing K]
variable {o : Oracle K} {tr : Trig K} {cx cy : K} {cs : List (ZebCall K)} {w : Zeb K} {fb : K}

/-! ### `ZebulonWalkgen` -/

/-- **C70, plan of the Zebulon base (partial)**, as `C70_plan_partial`. -/
theorem C70_base_plan_partial (hw : ZebReaches o tr cx cy cs w) (hr : (zebSettingsOf cx cy cs).RefsCurrent)
    (hc : (zebSettingsOf cx cy cs).config.base = true) (hfb : 0 < fb) :
    ∃ qp, ZebGives tr w fb qp ∧ ∀ d, Spec.Feasible qp d → ∀ i < (zebSettingsOf cx cy cs).nbSamples,
      (i = 0 → (zebSettingsOf cx cy cs).limits.UpTo 0 w.base.x ∧ (zebSettingsOf cx cy cs).limits.UpTo 0 w.base.y) →
      ∀ t, 0 ≤ t → t ≤ (zebSettingsOf cx cy cs).period →
      (zebSettingsOf cx cy cs).limits.UpTo ((zebSettingsOf cx cy cs).jerkLimit * (zebSettingsOf cx cy cs).period ^ 2 / 8)
        (Spec.planAt (zebSettingsOf cx cy cs).period w.base.x
          (Spec.jerkBX (zebSettingsOf cx cy cs).nbSamples fun i => w.X.get i + d i) i t) ∧
      (zebSettingsOf cx cy cs).limits.UpTo ((zebSettingsOf cx cy cs).jerkLimit * (zebSettingsOf cx cy cs).period ^ 2 / 8)
        (Spec.planAt (zebSettingsOf cx cy cs).period w.base.y
          (Spec.jerkBY (zebSettingsOf cx cy cs).nbSamples fun i => w.X.get i + d i) i t) := by
  have h := zReachable_inv hw
  have hT : 0 < (zebSettingsOf cx cy cs).period := h.part.user.model.T_pos
  obtain ⟨qp, hg, hf⟩ := C57_constraints hw hr hfb
  refine ⟨qp, hg, fun d hd i hi h0 t t0 t1 => ?_⟩
  have hl := ((hf d).1 hd).2.1 hc
  clear hf hg hr
  generalize zebSettingsOf cx cy cs = s at *
  have up : ∀ x : State3 K, |x.v| ≤ s.velLimit → |x.a| ≤ s.accLimit →
      s.limits.UpTo 0 x := fun x h1 h2 => ⟨by rw [add_zero]; exact h1, h2⟩
  constructor
  · refine planAt_between (l := s.limits) hT ?_ ?_ (hl i hi).2.2.2.2.1 t0 t1
    · cases i with
      | zero => rw [planAt_start]; exact (h0 rfl).1
      | succ k => rw [planAt_zero]; exact up _ (hl k (by omega)).1 (hl k (by omega)).2.2.1
    · rw [planAt_end]; exact up _ (hl i hi).1 (hl i hi).2.2.1
  · refine planAt_between (l := s.limits) hT ?_ ?_ (hl i hi).2.2.2.2.2 t0 t1
    · cases i with
      | zero => rw [planAt_start]; exact (h0 rfl).2
      | succ k => rw [planAt_zero]; exact up _ (hl k (by omega)).2.1 (hl k (by omega)).2.2.2.1
    · rw [planAt_end]; exact up _ (hl i hi).2.1 (hl i hi).2.2.2.1

/-- A run of `ZebulonWalkgen`, as `TrajLoop`. -/
inductive ZebLoop (o : Oracle K) (tr : Trig K) (cx cy f : K) (cs₀ : List (ZebCall K)) (w₀ : Zeb K) :
    List (ZebCall K) → Zeb K → Prop
  | start : ZebLoop o tr cx cy f cs₀ w₀ cs₀ w₀
  | solve {cs w fb b w'} : ZebLoop o tr cx cy f cs₀ w₀ cs w → f ≤ fb → fb ≤ (zebSettingsOf cx cy cs).period →
      (∃ qp, ZebGives tr w fb qp ∧ Spec.Feasible qp (o w.solver.calls qp 10000).2) →
      w.solve o tr fb = .ok (b, w') → ZebLoop o tr cx cy f cs₀ w₀ (cs ++ [.solve fb]) w'
  | other {cs w c b w'} : ZebLoop o tr cx cy f cs₀ w₀ cs w → w.step o tr c = .ok (b, w') →
      w'.base.x = w.base.x → w'.base.y = w.base.y →
      (zebSettingsOf cx cy (cs ++ [c])).limits = (zebSettingsOf cx cy cs).limits →
      (zebSettingsOf cx cy (cs ++ [c])).config.base = (zebSettingsOf cx cy cs).config.base →
      ZebLoop o tr cx cy f cs₀ w₀ (cs ++ [c]) w'

theorem zeb_cycle {w' : Zeb K} {f : K} {b : Bool} (hw : ZebReaches o tr cx cy cs w)
    (hc : (zebSettingsOf cx cy cs).config.base = true) (hf : 0 < f) (h1 : f ≤ fb)
    (h2 : fb ≤ (zebSettingsOf cx cy cs).period) (hx : (zebSettingsOf cx cy cs).limits.Loosely f w.base.x)
    (hy : (zebSettingsOf cx cy cs).limits.Loosely f w.base.y)
    (ha : ∃ qp, ZebGives tr w fb qp ∧ Spec.Feasible qp (o w.solver.calls qp 10000).2)
    (e : w.solve o tr fb = .ok (b, w')) :
    ∃ jx jy, w'.X.at? (2 * (zebSettingsOf cx cy cs).nbSamples) = .ok jx ∧
      w'.X.at? (3 * (zebSettingsOf cx cy cs).nbSamples) = .ok jy ∧
      |jx| ≤ (zebSettingsOf cx cy cs).jerkLimit ∧ |jy| ≤ (zebSettingsOf cx cy cs).jerkLimit ∧
      w'.base.x = Spec.cubic w.base.x jx fb ∧ w'.base.y = Spec.cubic w.base.y jy fb ∧
      (zebSettingsOf cx cy cs).limits.Loosely f w'.base.x ∧ (zebSettingsOf cx cy cs).limits.Loosely f w'.base.y ∧
      ∀ t, 0 ≤ t → t ≤ fb →
        (zebSettingsOf cx cy cs).limits.UpTo
          ((zebSettingsOf cx cy cs).jerkLimit * (2 * (zebSettingsOf cx cy cs).period - f) ^ 2 / 8)
          (Spec.cubic w.base.x jx t) ∧
        (zebSettingsOf cx cy cs).limits.UpTo
          ((zebSettingsOf cx cy cs).jerkLimit * (2 * (zebSettingsOf cx cy cs).period - f) ^ 2 / 8)
          (Spec.cubic w.base.y jy t) := by
  have h := zReachable_inv hw
  have hfb : 0 < fb := hf.trans_le h1
  have hr : (zebSettingsOf cx cy cs).RefsCurrent := (C54_solve_fails_iff o hw hfb).1 ⟨_, e⟩
  have hN : 0 < (zebSettingsOf cx cy cs).nbSamples := h.part.user.model.N_pos
  obtain ⟨qp, hg, hadv⟩ := C66_advance hw hr hfb
  obtain ⟨hXs, hX, hst, -⟩ := hadv o b w' e
  obtain ⟨qp1, hg1, hfeas⟩ := C57_constraints hw hr hfb
  obtain rfl := hg.unique h hg1
  obtain ⟨qp2, hg2, hans⟩ := ha
  obtain rfl := hg.unique h hg2
  obtain ⟨vx, vy, ax, ay, jx, jy⟩ := ((hfeas _).1 hans).2.1 hc 0 hN
  simp only [Spec.ZebSettings.baseX, Spec.ZebSettings.baseY, Spec.jerkTrajectory, Spec.jerkBX, Spec.jerkBY, add_zero]
    at vx vy ax ay jx jy
  rw [← hX _ (by omega)] at vx ax jx
  rw [← hX _ (by omega)] at vy ay jy
  have sx : w'.base.x = Spec.cubic w.base.x (w'.X.get (2 * (zebSettingsOf cx cy cs).nbSamples)) fb :=
    congrArg Spec.ZebState.bx hst
  have sy : w'.base.y = Spec.cubic w.base.y (w'.X.get (3 * (zebSettingsOf cx cy cs).nbSamples)) fb :=
    congrArg Spec.ZebState.by_ hst
  obtain ⟨gx, gx'⟩ := loosely_cycle (l := (zebSettingsOf cx cy cs).limits) hf h1 h2 hx jx vx ax
  obtain ⟨gy, gy'⟩ := loosely_cycle (l := (zebSettingsOf cx cy cs).limits) hf h1 h2 hy jy vy ay
  exact ⟨_, _, Vec.at?_ok (by omega), Vec.at?_ok (by omega), jx, jy, sx, sy, by rw [sx]; exact gx, by rw [sy]; exact gy,
    fun t t0 t1 => ⟨gx' t t0 t1, gy' t t0 t1⟩⟩

/-- **C70, run of the Zebulon base (partial)**, as `C70_run_partial`. -/
theorem C70_base_run_partial {cs₀ : List (ZebCall K)} {w₀ : Zeb K} {f : K} (hw : ZebReaches o tr cx cy cs₀ w₀)
    (hc : (zebSettingsOf cx cy cs₀).config.base = true) (hf : 0 < f)
    (hx : (zebSettingsOf cx cy cs₀).limits.Loosely f w₀.base.x)
    (hy : (zebSettingsOf cx cy cs₀).limits.Loosely f w₀.base.y) (hl : ZebLoop o tr cx cy f cs₀ w₀ cs w) :
    ZebReaches o tr cx cy cs w ∧ (zebSettingsOf cx cy cs₀).limits.Loosely f w.base.x ∧
    (zebSettingsOf cx cy cs₀).limits.Loosely f w.base.y ∧
    ∀ fb b w', f ≤ fb → fb ≤ (zebSettingsOf cx cy cs).period →
      (∃ qp, ZebGives tr w fb qp ∧ Spec.Feasible qp (o w.solver.calls qp 10000).2) →
      w.solve o tr fb = .ok (b, w') →
      ∃ jx jy, |jx| ≤ (zebSettingsOf cx cy cs₀).jerkLimit ∧ |jy| ≤ (zebSettingsOf cx cy cs₀).jerkLimit ∧
        w'.base.x = Spec.cubic w.base.x jx fb ∧ w'.base.y = Spec.cubic w.base.y jy fb ∧
        ∀ t, 0 ≤ t → t ≤ fb →
          (zebSettingsOf cx cy cs₀).limits.UpTo
            ((zebSettingsOf cx cy cs₀).jerkLimit * (2 * (zebSettingsOf cx cy cs₀).period - f) ^ 2 / 8)
            (Spec.cubic w.base.x jx t) ∧
          (zebSettingsOf cx cy cs₀).limits.UpTo
            ((zebSettingsOf cx cy cs₀).jerkLimit * (2 * (zebSettingsOf cx cy cs₀).period - f) ^ 2 / 8)
            (Spec.cubic w.base.y jy t) := by
  have key : ZebReaches o tr cx cy cs w ∧ (zebSettingsOf cx cy cs).limits = (zebSettingsOf cx cy cs₀).limits ∧
      (zebSettingsOf cx cy cs).config.base = true ∧ (zebSettingsOf cx cy cs₀).limits.Loosely f w.base.x ∧
      (zebSettingsOf cx cy cs₀).limits.Loosely f w.base.y := by
    induction hl with
    | start => exact ⟨hw, rfl, hc, hx, hy⟩
    | @solve cs w fb b w' _ h1 h2 ha e ih =>
      obtain ⟨i1, i2, i3, i4, i5⟩ := ih
      obtain ⟨jx, jy, -, -, -, -, -, -, g1, g2, -⟩ := zeb_cycle i1 i3 hf h1 h2 (i2 ▸ i4) (i2 ▸ i5) ha e
      have es : zebSettingsOf cx cy (cs ++ [.solve fb]) = zebSettingsOf cx cy cs := by
        unfold zebSettingsOf; rw [after_append]; rfl
      refine ⟨?_, by rw [es]; exact i2, by rw [es]; exact i3, i2 ▸ g1, i2 ▸ g2⟩
      rw [zReaches_append i1]; simp [Zeb.run, Zeb.step, e, ok_bind]
    | @other cs w c b w' _ e hsx hsy hlim hcon ih =>
      obtain ⟨i1, i2, i3, i4, i5⟩ := ih
      refine ⟨?_, hlim.trans i2, hcon.trans i3, by rw [hsx]; exact i4, by rw [hsy]; exact i5⟩
      rw [zReaches_append i1]; simp [Zeb.run, e, ok_bind]
  obtain ⟨k1, k2, k3, k4, k5⟩ := key
  refine ⟨k1, k4, k5, fun fb b w' h1 h2 ha e => ?_⟩
  obtain ⟨jx, jy, -, -, g1, g2, g3, g4, -, -, g5⟩ := zeb_cycle k1 k3 hf h1 h2 (k2 ▸ k4) (k2 ▸ k5) ha e
  have e1 : (zebSettingsOf cx cy cs).jerkLimit = (zebSettingsOf cx cy cs₀).jerkLimit := congrArg Spec.Limits.jerk k2
  have e2 : (zebSettingsOf cx cy cs).period = (zebSettingsOf cx cy cs₀).period := congrArg Spec.Limits.period k2
  rw [e1, e2, k2] at g5
  exact ⟨jx, jy, e1 ▸ g1, e1 ▸ g2, g3, g4, g5⟩

end

/-- The hypotheses of `C70_base_run_partial` are met by a run with a `solve`, all constraints on. -/
example (o : Oracle ℚ) (ho : Spec.FindsFeasible o) : ∃ w₀ w, ZebReaches o trigZero 0 0 zRestHistory w₀ ∧
    (zebSettingsOf (0 : ℚ) 0 zRestHistory).config.base = true ∧
    (zebSettingsOf 0 0 zRestHistory).limits.Loosely (1 / 2) w₀.base.x ∧
    (zebSettingsOf 0 0 zRestHistory).limits.Loosely (1 / 2) w₀.base.y ∧
    ZebLoop o trigZero 0 0 (1 / 2) zRestHistory w₀ (zRestHistory ++ [.solve (1 / 2)]) w := by
  obtain ⟨w, hw, hz, hX⟩ := zRest_reaches o
  have hr : (zebSettingsOf (0 : ℚ) 0 zRestHistory).RefsCurrent := ⟨rfl, rfl, rfl⟩
  obtain ⟨-, ha, -⟩ := Resting.steady (zRest_resting hz) (trigZero.cos (zebSettingsOf 0 0 zRestHistory).yaw.p)
    (trigZero.sin (zebSettingsOf 0 0 zRestHistory).yaw.p) w.X.get (zReachable_limits hw) hX
  obtain ⟨qp, hg, hf⟩ := C57_constraints hw hr (fb := 1 / 2) (by norm_num)
  obtain ⟨b, w', e, -⟩ := hg o
  have hb : w.base.x = ⟨3, 0, 0⟩ ∧ w.base.y = ⟨-2, 0, 0⟩ :=
    ⟨congrArg Spec.ZebState.bx hz, congrArg Spec.ZebState.by_ hz⟩
  have hq : Spec.Feasible qp fun i => 0 - w.X.get i := by
    rw [hf]
    have e0 : (fun i => w.X.get i + (0 - w.X.get i)) = fun _ => (0 : ℚ) := by funext i; ring
    rw [e0]
    exact ha
  refine ⟨w, w', hw, rfl, ?_, ?_, ZebLoop.start.solve le_rfl ?_ ⟨qp, hg, ho _ _ _ (hg.consistent (zReachable_inv hw)) ⟨_, hq⟩⟩ e⟩
  · rw [hb.1]; constructor <;> decide +kernel
  · rw [hb.2]; constructor <;> decide +kernel
  · decide +kernel

end MPC
