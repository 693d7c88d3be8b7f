import Verif.Lemmas.ZebGives
import Verif.Lemmas.ZebQuad
import Verif.Lemmas.ZebEval
import Verif.Lemmas.ZebUninit
import Verif.Lemmas.Trajectory
import Mathlib.Data.Rat.Floor
import Mathlib.Tactic.IntervalCases

/-!
# Properties C45, C46, C48, C53, C54, C57 of `ZebulonWalkgen`

Every theorem is about the states reachable by an arbitrary history of API calls, for an arbitrary QP solver and
arbitrary functions `sin` and `cos`. `cx`, `cy` is what the memory of the tilt contact point holds at construction.
-/

set_option linter.unusedSectionVars false

namespace MPC

open Finset

variable {K : Type} [Field K] [LinearOrder K] [IsStrictOrderedRing K] [FloorRing K]

/-- What the user configured with the calls `cs`. -/
def zebSettingsOf (cx cy : K) (cs : List (ZebCall K)) : Spec.ZebSettings K := (Spec.ZebSettings.init cx cy).after cs

variable {o : Oracle K} {tr : Trig K} {cx cy : K} {cs : List (ZebCall K)} {w : Zeb K} {fb : K}

/-! ### C54 -/

/-- **C54 is violated.** There is a history where every call meets its documented preconditions and that ends in a
size mismatch, for every QP solver: changing the number of samples leaves the references with their old size. -/
theorem C54_stale_reference_fault (tr : Trig K) (cx cy : K) :
    ∃ cs : List (ZebCall K), (Spec.ZebSettings.init cx cy).Legal cs ∧
      ∀ o, ∃ e, (do Zeb.run o tr (← Zeb.make tr (some cx, some cy)) cs) = .error e := by
  refine ⟨[.setNbSamples 2, .solve 1], ⟨⟨by norm_num, zInit_regular cx cy⟩, one_pos, trivial⟩, fun o => ?_⟩
  cases e : (do Zeb.run o tr (← Zeb.make tr (some cx, some cy)) [.setNbSamples 2, .solve 1]) with
  | error f => exact ⟨f, rfl⟩
  | ok w =>
    exfalso
    obtain ⟨w0, e0, h0⟩ := zMake_ok tr cx cy
    rw [e0, ok_bind] at e
    unfold Zeb.run at e
    obtain ⟨⟨b, w1⟩, e1, e⟩ := bind_eq_ok.1 e
    have h1 := zStep_inv h0 o _ e1
    unfold Zeb.run at e
    obtain ⟨⟨b2, w2⟩, e2, e⟩ := bind_eq_ok.1 e
    have := (zCodePre_of_ok h1 o (.solve 1) e2).2.1
    simp [Spec.ZebSettings.apply, Spec.ZebSettings.init, Vec.const] at this

/-- In every reachable state `solve` fails exactly when a reference is not current. -/
theorem C54_solve_fails_iff (o' : Oracle K) (hw : ZebReaches o tr cx cy cs w) (hfb : 0 < fb) :
    (∃ r, w.solve o' tr fb = .ok r) ↔ (zebSettingsOf cx cy cs).RefsCurrent := by
  have h := zReachable_inv hw
  constructor
  · rintro ⟨r, e⟩; exact (zRefs_of_solve o' h e).2
  · intro hr
    obtain ⟨_, _, _, _, _, -, -, e⟩ := zebGives_of_inv h hr hfb
    exact ⟨_, e o'⟩

/-- **C54 (partial).** A history that meets the preconditions of its calls and in which the three references are
current at each `solve` never faults. Missing: histories where `setNbSamples` is not followed by new references
(false, `C54_stale_reference_fault`). -/
theorem C54_no_fault_partial (o : Oracle K) (tr : Trig K) (cx cy : K) (cs : List (ZebCall K))
    (hl : (Spec.ZebSettings.init cx cy).Legal cs) (hr : (Spec.ZebSettings.init cx cy).RefsCurrentAtSolves cs) :
    ∃ w, ZebReaches o tr cx cy cs w := by
  obtain ⟨w0, e0, h0⟩ := zMake_ok tr cx cy
  obtain ⟨w, e⟩ := zRun_ok h0 o cs hl hr
  exact ⟨w, by unfold ZebReaches; rw [e0, ok_bind, e]⟩

/-- A history that meets the hypotheses of `C54_no_fault_partial`, with every constraint and objective on. -/
def zExampleHistory : List (ZebCall ℚ) :=
  [.setNbSamples 2, .setSamplingPeriod (1 / 10), .setBodyMass 12, .setBaseMass 16, .setBodyHeight (4 / 5),
    .setBaseHeight (1 / 10), .setCopPolygon ⟨4, fun i => [⟨1, 1⟩, ⟨-1, 1⟩, ⟨-1, -1⟩, ⟨1, -1⟩].getD i ⟨0, 0⟩⟩,
    .setComPolygon ⟨4, fun i => [⟨1, 1⟩, ⟨-1, 1⟩, ⟨-1, -1⟩, ⟨1, -1⟩].getD i ⟨0, 0⟩⟩,
    .setVelRef (Vec.const 4 1), .setPosRef (Vec.const 4 0), .setCopRef (Vec.const 4 0),
    .setWeightings ⟨1, 1, 1, 1, 1, 1, 1⟩, .setConfig ⟨true, true, true, true⟩, .setYaw (Vec.const 3 1), .setVelLimit 2,
    .solve (1 / 20), .setBaseX (Vec.const 3 0), .setGravity (1 / 10) 0 (49 / 5), .solve (1 / 10)]

theorem zExample_legal (cx cy : ℚ) : (Spec.ZebSettings.init cx cy).Legal zExampleHistory ∧
    (Spec.ZebSettings.init cx cy).RefsCurrentAtSolves zExampleHistory := by
  constructor
  · simp [zExampleHistory, Spec.ZebSettings.Legal, Spec.ZebSettings.Pre, Spec.ZebSettings.apply, Spec.ZebSettings.init,
      Spec.ZebSettings.TiltRegular, Spec.tiltGain, GRAVITY_NORM, EPS, Vec.const, abs_of_pos]
    norm_num
  · simp [zExampleHistory, Spec.ZebSettings.RefsCurrentAtSolves, Spec.ZebSettings.RefsCurrent, Spec.ZebSettings.apply,
      Vec.const]

/-- The hypotheses of the theorems of this file are met by a history with two `solve`s and every constraint on. -/
example (o : Oracle ℚ) (tr : Trig ℚ) (cx cy : ℚ) : ∃ w, ZebReaches o tr cx cy zExampleHistory w ∧
    (zebSettingsOf cx cy zExampleHistory).RefsCurrent ∧
    (zebSettingsOf cx cy zExampleHistory).config = ⟨true, true, true, true⟩ ∧
    0 < (zebSettingsOf cx cy zExampleHistory).weighting.jerkMinimization ∧
    (zebSettingsOf cx cy zExampleHistory).nbSamples = 2 := by
  obtain ⟨w, hw⟩ := C54_no_fault_partial o tr cx cy _ (zExample_legal cx cy).1 (zExample_legal cx cy).2
  refine ⟨w, hw, ⟨rfl, rfl, rfl⟩, rfl, ?_, rfl⟩
  show (0 : ℚ) < 1
  norm_num

/-- Number of rows of the four constraints. -/
def Spec.ZebSettings.rowsOf (s : Spec.ZebSettings K) : Fin 4 → ℕ
  | 0 => if s.config.cop = true then s.nbSamples * s.copPolygon.size else 0
  | 1 => if s.config.base = true then s.nbSamples * 4 else 0
  | 2 => if s.config.com = true then s.nbSamples * s.comPolygon.size else 0
  | 3 => if s.config.tilt = true then s.nbSamples * 2 else 0

/-- First row of each constraint. -/
def Spec.ZebSettings.firstRow (s : Spec.ZebSettings K) (c : Fin 4) : ℕ := ∑ i : Fin 4, if i < c then s.rowsOf i else 0

/-- **C54, sizes.** The QP given to the solver has consistent sizes and as many rows as the enabled constraints
together: each constraint owns its rows. -/
theorem C54_rows (hw : ZebReaches o tr cx cy cs w) (hr : (zebSettingsOf cx cy cs).RefsCurrent) (hfb : 0 < fb) :
    ∃ qp, ZebGives tr w fb qp ∧ qp.DimensionsAreConsistent (4 * (zebSettingsOf cx cy cs).nbSamples)
      (∑ c, (zebSettingsOf cx cy cs).rowsOf c) := by
  have h := zReachable_inv hw
  obtain ⟨qp, u, ps, v, qs, hg, hq, -⟩ := zebGives_of_inv h hr hfb
  refine ⟨qp, hg, ?_⟩
  have := hq.consistent h
  rw [h.qp.nbVar, h.qp.nbCtr] at this
  rw [Fin.sum_univ_four]
  exact this

/-! ### C45 -/

/-- **C45.** With base motion constraints on, an increment `d` meets the rows of this constraint and the bounds of
the base jerks iff the base motion predicted for `X + d` is within its limits. -/
theorem C45_base_limits (hw : ZebReaches o tr cx cy cs w) (hr : (zebSettingsOf cx cy cs).RefsCurrent)
    (hc : (zebSettingsOf cx cy cs).config.base = true) (hfb : 0 < fb) :
    ∃ qp, ZebGives tr w fb qp ∧ ∀ d : ℕ → K,
      ((∀ r < (zebSettingsOf cx cy cs).rowsOf 1,
          qp.bl.get ((zebSettingsOf cx cy cs).firstRow 1 + r)
            ≤ ∑ j ∈ range qp.A.cols, qp.A.get ((zebSettingsOf cx cy cs).firstRow 1 + r) j * d j ∧
          ∑ j ∈ range qp.A.cols, qp.A.get ((zebSettingsOf cx cy cs).firstRow 1 + r) j * d j
            ≤ qp.bu.get ((zebSettingsOf cx cy cs).firstRow 1 + r)) ∧
        (∀ i < 2 * (zebSettingsOf cx cy cs).nbSamples,
          qp.xl.get (2 * (zebSettingsOf cx cy cs).nbSamples + i) ≤ d (2 * (zebSettingsOf cx cy cs).nbSamples + i) ∧
          d (2 * (zebSettingsOf cx cy cs).nbSamples + i) ≤ qp.xu.get (2 * (zebSettingsOf cx cy cs).nbSamples + i))) ↔
      (zebSettingsOf cx cy cs).BaseWithinLimits w.state fun i => w.X.get i + d i := by
  have h := zReachable_inv hw
  obtain ⟨qp, u, ps, v, qs, hg, hq, -⟩ := zebGives_of_inv h hr hfb
  refine ⟨qp, hg, fun d => ?_⟩
  change ZPrep tr (zebSettingsOf cx cy cs) _ _ w u ps v qs qp at hq
  generalize zebSettingsOf cx cy cs = s at *
  have f1 : s.firstRow 1 = zM1 s := by
    unfold Spec.ZebSettings.firstRow; rw [Fin.sum_univ_four]; simp; rfl
  have r1 : s.rowsOf 1 = zM2 s := rfl
  rw [f1, r1]
  have e1 : (∀ r < zM2 s, qp.bl.get (zM1 s + r) ≤ ∑ j ∈ range qp.A.cols, qp.A.get (zM1 s + r) j * d j ∧
      ∑ j ∈ range qp.A.cols, qp.A.get (zM1 s + r) j * d j ≤ qp.bu.get (zM1 s + r)) ↔
      zMotion s w.state fun i => w.X.get i + d i := by
    rw [← zRow_base (tr := tr) hc]
    exact forall_congr' fun r => imp_congr_right fun hr => zRow_iff hq d (by unfold zM; omega)
  have e2 : (∀ i < 2 * s.nbSamples, qp.xl.get (2 * s.nbSamples + i) ≤ d (2 * s.nbSamples + i) ∧
      d (2 * s.nbSamples + i) ≤ qp.xu.get (2 * s.nbSamples + i)) ↔
      ∀ i < 2 * s.nbSamples, |w.X.get (2 * s.nbSamples + i) + d (2 * s.nbSamples + i)| ≤ s.jerkLimit := by
    refine forall_congr' fun i => imp_congr_right fun hi => ?_
    rw [zVar_iff hq d (by omega), if_pos ⟨hc, by omega⟩]
  rw [e1, e2]
  constructor
  · rintro ⟨m, j⟩ i hi
    obtain ⟨a, b, c, d'⟩ := m i hi
    refine ⟨a, b, c, d', j i (by omega), ?_⟩
    have := j (s.nbSamples + i) (by omega)
    rwa [show 2 * s.nbSamples + (s.nbSamples + i) = 3 * s.nbSamples + i by omega] at this
  · intro m
    refine ⟨fun i hi => ⟨(m i hi).1, (m i hi).2.1, (m i hi).2.2.1, (m i hi).2.2.2.1⟩, fun i hi => ?_⟩
    by_cases h1 : i < s.nbSamples
    · exact (m i h1).2.2.2.2.1
    · have := (m (i - s.nbSamples) (by omega)).2.2.2.2.2
      unfold Spec.jerkBY at this
      rwa [show 3 * s.nbSamples + (i - s.nbSamples) = 2 * s.nbSamples + i by omega] at this

/-! ### C57: the QP is the documented problem -/

/-- **C57, cost.** Up to the positive factor `c` chosen by the normalisation, the cost of an increment `d` is the
documented cost of the jerks `X + d` minus the one of `X`. `ψ`, `ω` are predictions of tilt angles and angular
velocities, for X and Y; see C47 for what they predict. -/
theorem C57_cost (hw : ZebReaches o tr cx cy cs w) (hr : (zebSettingsOf cx cy cs).RefsCurrent) (hfb : 0 < fb) :
    ∃ qp, ZebGives tr w fb qp ∧ ∃ c, 0 < c ∧ ∃ ψx ψy ωx ωy : (ℕ → K) → ℕ → K,
      ((zebSettingsOf cx cy cs).period ^ 2 * EPS ≤ 2 → ∀ X,
        (zebSettingsOf cx cy cs).PredictsCodeTilt ((Spec.ZebSettings.init cx cy).tiltHeight 0 cs)
          (zebSettingsOf cx cy cs).contactX ((zebSettingsOf cx cy cs).comX w.state X)
          ((zebSettingsOf cx cy cs).baseX w.state X) (zebSettingsOf cx cy cs).roll (ψx X) (ωx X) ∧
        (zebSettingsOf cx cy cs).PredictsCodeTilt ((Spec.ZebSettings.init cx cy).tiltHeight 0 cs)
          (zebSettingsOf cx cy cs).contactY ((zebSettingsOf cx cy cs).comY w.state X)
          ((zebSettingsOf cx cy cs).baseY w.state X) (zebSettingsOf cx cy cs).pitch (ψy X) (ωy X)) ∧
      ∀ d, Spec.cost qp d = c *
        ((zebSettingsOf cx cy cs).totalCost ((Spec.ZebSettings.init cx cy).usedShift (0, 0) cs)
            ((zebSettingsOf cx cy cs).tiltCost (ψx fun i => w.X.get i + d i) (ψy fun i => w.X.get i + d i))
            ((zebSettingsOf cx cy cs).tiltCost (ωx fun i => w.X.get i + d i) (ωy fun i => w.X.get i + d i))
            w.state (fun i => w.X.get i + d i)
          - (zebSettingsOf cx cy cs).totalCost ((Spec.ZebSettings.init cx cy).usedShift (0, 0) cs)
            ((zebSettingsOf cx cy cs).tiltCost (ψx w.X.get) (ψy w.X.get))
            ((zebSettingsOf cx cy cs).tiltCost (ωx w.X.get) (ωy w.X.get)) w.state w.X.get) := by
  have h := zReachable_inv hw
  obtain ⟨qp, u, ps, v, qs, hg, hq, -⟩ := zebGives_of_inv h hr hfb
  have hT : 0 < (zebSettingsOf cx cy cs).period := h.part.user.model.T_pos
  change ZPrep tr (zebSettingsOf cx cy cs) _ _ w u ps v qs qp at hq
  generalize zebSettingsOf cx cy cs = s at *
  generalize (Spec.ZebSettings.init cx cy).tiltHeight 0 cs = L at *
  generalize (Spec.ZebSettings.init cx cy).usedShift (0, 0) cs = k at *
  exact ⟨qp, hg, w.invObj, hq.invObj_pos,
    fun X => zTilt s L u ps s.roll s.contactX (s.comX w.state X) (s.baseX w.state X),
    fun X => zTilt s L u ps s.pitch s.contactY (s.comY w.state X) (s.baseY w.state X),
    fun X => zTilt s L v qs s.roll s.contactX (s.comX w.state X) (s.baseX w.state X),
    fun X => zTilt s L v qs s.pitch s.contactY (s.comY w.state X) (s.baseY w.state X),
    fun hE X => ⟨zTilt_motion hT hE hq.sol hq.velSol _ _ _ _, zTilt_motion hT hE hq.sol hq.velSol _ _ _ _⟩,
    fun d => zCost hq d⟩

/-- **C57, constraints.** `d` is feasible for the QP iff the jerks `X + d` meet the enabled constraints, where the
polygon constraints are the ones of C46. -/
theorem C57_constraints (hw : ZebReaches o tr cx cy cs w) (hr : (zebSettingsOf cx cy cs).RefsCurrent)
    (hfb : 0 < fb) : ∃ qp, ZebGives tr w fb qp ∧ ∀ d, Spec.Feasible qp d ↔
      (zebSettingsOf cx cy cs).Allowed (tr.cos (zebSettingsOf cx cy cs).yaw.p) (tr.sin (zebSettingsOf cx cy cs).yaw.p)
        w.state w.X.get fun i => w.X.get i + d i := by
  have h := zReachable_inv hw
  obtain ⟨qp, u, ps, v, qs, hg, hq, -⟩ := zebGives_of_inv h hr hfb
  refine ⟨qp, hg, fun d => ?_⟩
  rw [zFeasible h.part.user.model.N_pos hq d]
  simp only [Spec.ZebSettings.Allowed, add_sub_cancel_left]
  rfl

/-- **C57, optimality.** If qpOASES returns a solution of its QP, the new jerks are allowed and minimise the
documented cost among the allowed jerks; the measured cost is the one of `C57_cost`. -/
theorem C57_optimal (hw : ZebReaches o tr cx cy cs w) (hr : (zebSettingsOf cx cy cs).RefsCurrent) (hfb : 0 < fb) :
    ∃ qp, ZebGives tr w fb qp ∧ ∃ ψx ψy ωx ωy : (ℕ → K) → ℕ → K,
      ((zebSettingsOf cx cy cs).period ^ 2 * EPS ≤ 2 → ∀ X,
        (zebSettingsOf cx cy cs).PredictsCodeTilt ((Spec.ZebSettings.init cx cy).tiltHeight 0 cs)
          (zebSettingsOf cx cy cs).contactX ((zebSettingsOf cx cy cs).comX w.state X)
          ((zebSettingsOf cx cy cs).baseX w.state X) (zebSettingsOf cx cy cs).roll (ψx X) (ωx X) ∧
        (zebSettingsOf cx cy cs).PredictsCodeTilt ((Spec.ZebSettings.init cx cy).tiltHeight 0 cs)
          (zebSettingsOf cx cy cs).contactY ((zebSettingsOf cx cy cs).comY w.state X)
          ((zebSettingsOf cx cy cs).baseY w.state X) (zebSettingsOf cx cy cs).pitch (ψy X) (ωy X)) ∧
      ∀ (o' : Oracle K) b w', Spec.IsSolution qp (o' w.solver.calls qp 10000).2 → w.solve o' tr fb = .ok (b, w') →
        (zebSettingsOf cx cy cs).Allowed (tr.cos (zebSettingsOf cx cy cs).yaw.p)
          (tr.sin (zebSettingsOf cx cy cs).yaw.p) w.state w.X.get w'.X.get ∧
        ∀ J, (zebSettingsOf cx cy cs).Allowed (tr.cos (zebSettingsOf cx cy cs).yaw.p)
            (tr.sin (zebSettingsOf cx cy cs).yaw.p) w.state w.X.get J →
          (zebSettingsOf cx cy cs).totalCost ((Spec.ZebSettings.init cx cy).usedShift (0, 0) cs)
              ((zebSettingsOf cx cy cs).tiltCost (ψx w'.X.get) (ψy w'.X.get))
              ((zebSettingsOf cx cy cs).tiltCost (ωx w'.X.get) (ωy w'.X.get)) w.state w'.X.get
            ≤ (zebSettingsOf cx cy cs).totalCost ((Spec.ZebSettings.init cx cy).usedShift (0, 0) cs)
              ((zebSettingsOf cx cy cs).tiltCost (ψx J) (ψy J)) ((zebSettingsOf cx cy cs).tiltCost (ωx J) (ωy J))
              w.state J := by
  have h := zReachable_inv hw
  obtain ⟨qp, hg, c, hc, ψx, ψy, ωx, ωy, hψ, hcost⟩ := C57_cost hw hr hfb
  obtain ⟨qp', hg', hfeas⟩ := C57_constraints hw hr hfb
  obtain rfl := hg.unique h hg'
  obtain ⟨qp'', u, ps, v, qs, hg'', hq, hs⟩ := zebGives_of_inv h hr hfb
  obtain rfl := hg.unique h hg''
  refine ⟨qp, hg, ψx, ψy, ωx, ωy, hψ, fun o' b w' hsol e => ?_⟩
  obtain ⟨d, hd, hX⟩ : ∃ d : ℕ → K, (∀ i < w.solver.nbVar,
      (o' w.solver.calls qp 10000).2 i = d i) ∧ w'.X.get = fun i => w.X.get i + d i := by
    rw [hs o'] at e; cases e
    exact ⟨fun i => if i < w.solver.nbVar then (o' w.solver.calls qp 10000).2 i else w.dX.get i,
      fun i hi => by simp only [hi, if_true], rfl⟩
  have hd' := solution_congr (hq.consistent h) hd hsol
  rw [hX]
  refine ⟨(hfeas d).1 hd'.1, fun J hJ => ?_⟩
  have hJ' : J = fun i => w.X.get i + (J i - w.X.get i) := by funext i; ring
  have hf : Spec.Feasible qp (fun i => J i - w.X.get i) := by
    rw [hfeas]
    rw [hJ'] at hJ; exact hJ
  have h1 := hd'.2 _ hf
  rw [hcost, hcost, ← hJ', mul_le_mul_iff_right₀ hc] at h1
  exact (sub_le_sub_iff_right _).1 h1

/-- **C57, convexity.** The problem given to the solver is convex; it is strictly convex, with at most one solution,
when the jerk weighting is positive. -/
theorem C57_convex (hw : ZebReaches o tr cx cy cs w) (hr : (zebSettingsOf cx cy cs).RefsCurrent) (hfb : 0 < fb) :
    ∃ qp, ZebGives tr w fb qp ∧
      qp.Q.rows = 4 * (zebSettingsOf cx cy cs).nbSamples ∧ qp.Q.cols = 4 * (zebSettingsOf cx cy cs).nbSamples ∧
      (∀ i < qp.Q.rows, ∀ j < qp.Q.cols, qp.Q.get i j = qp.Q.get j i) ∧
      (∀ d : ℕ → K, 0 ≤ ∑ i ∈ range qp.Q.rows, ∑ j ∈ range qp.Q.cols, d i * qp.Q.get i j * d j) ∧
      (0 < (zebSettingsOf cx cy cs).weighting.jerkMinimization →
        (∀ d : ℕ → K, (∃ i < 4 * (zebSettingsOf cx cy cs).nbSamples, d i ≠ 0) →
          0 < ∑ i ∈ range qp.Q.rows, ∑ j ∈ range qp.Q.cols, d i * qp.Q.get i j * d j) ∧
        ∀ x y, Spec.IsSolution qp x → Spec.IsSolution qp y →
          ∀ i < 4 * (zebSettingsOf cx cy cs).nbSamples, x i = y i) := by
  have h := zReachable_inv hw
  obtain ⟨qp, u, ps, v, qs, hg, hq, -⟩ := zebGives_of_inv h hr hfb
  have hpos : 0 < (zebSettingsOf cx cy cs).weighting.jerkMinimization → ∀ d : ℕ → K,
      (∃ i < 4 * (zebSettingsOf cx cy cs).nbSamples, d i ≠ 0) → 0 < quadForm qp.Q d := by
    rintro hwj d ⟨i, hi, hdi⟩
    refine lt_of_lt_of_le ?_ (zQuad_ge hq d)
    have h1 : 0 < ∑ i ∈ range (4 * (zebSettingsOf cx cy cs).nbSamples), d i ^ 2 :=
      sum_pos' (fun k _ => sq_nonneg _) ⟨i, mem_range.2 hi, by positivity⟩
    exact mul_pos hq.invObj_pos (mul_pos (lt_max_of_lt_left hwj) h1)
  refine ⟨qp, hg, hq.Q.1, hq.Q.2.1, fun i hi j hj => ?_, fun d => ?_, fun hwj => ⟨hpos hwj, fun x y hx hy i hi => ?_⟩⟩
  · exact zQ_symm hq (by rwa [hq.Q.1] at hi) (by rwa [hq.Q.2.1] at hj)
  · refine le_trans ?_ (zQuad_ge hq d)
    exact mul_nonneg hq.invObj_pos.le (mul_nonneg (le_max_right _ _) (sum_nonneg fun _ _ => sq_nonneg _))
  · by_contra hne
    have h1 := solution_unique qp x y hx hy
    have h2 := hpos hwj (fun i => x i - y i) ⟨i, hi, sub_ne_zero.2 hne⟩
    exact absurd h1 (not_le.2 h2)

/-- **C57, limits after `solve`.** If the answer of the solver is feasible then after `solve(fb)` the base is in its
old state driven by the published jerks for `fb`, these jerks are within their limit, after a full sampling period
so are velocities and accelerations, and after a shorter time the accelerations are if they were before. -/
theorem C57_limits_after_solve (hw : ZebReaches o tr cx cy cs w) (hr : (zebSettingsOf cx cy cs).RefsCurrent)
    (hc : (zebSettingsOf cx cy cs).config.base = true) (hfb : 0 < fb) (hle : fb ≤ (zebSettingsOf cx cy cs).period) :
    ∃ qp, ZebGives tr w fb qp ∧ ∀ (o' : Oracle K) b w',
      Spec.Feasible qp (o' w.solver.calls qp 10000).2 → w.solve o' tr fb = .ok (b, w') →
      ∃ jx jy, w'.X.at? (2 * (zebSettingsOf cx cy cs).nbSamples) = .ok jx ∧
        w'.X.at? (3 * (zebSettingsOf cx cy cs).nbSamples) = .ok jy ∧
        |jx| ≤ (zebSettingsOf cx cy cs).jerkLimit ∧ |jy| ≤ (zebSettingsOf cx cy cs).jerkLimit ∧
        w'.base.x = Spec.cubic w.base.x jx fb ∧ w'.base.y = Spec.cubic w.base.y jy fb ∧
        (fb = (zebSettingsOf cx cy cs).period →
          |w'.base.x.v| ≤ (zebSettingsOf cx cy cs).velLimit ∧ |w'.base.y.v| ≤ (zebSettingsOf cx cy cs).velLimit ∧
          |w'.base.x.a| ≤ (zebSettingsOf cx cy cs).accLimit ∧ |w'.base.y.a| ≤ (zebSettingsOf cx cy cs).accLimit) ∧
        (|w.base.x.a| ≤ (zebSettingsOf cx cy cs).accLimit → |w'.base.x.a| ≤ (zebSettingsOf cx cy cs).accLimit) ∧
        (|w.base.y.a| ≤ (zebSettingsOf cx cy cs).accLimit → |w'.base.y.a| ≤ (zebSettingsOf cx cy cs).accLimit) := by
  have h := zReachable_inv hw
  obtain ⟨qp, u, ps, v, qs, hg, hq, hs⟩ := zebGives_of_inv h hr hfb
  refine ⟨qp, hg, fun o' b w' hfeas e => ?_⟩
  have hnb : w.solver.nbVar = 4 * (zebSettingsOf cx cy cs).nbSamples := h.qp.nbVar
  have hXs : w.X.size = 4 * (zebSettingsOf cx cy cs).nbSamples := h.part.user.X
  have hN : 0 < (zebSettingsOf cx cy cs).nbSamples := h.part.user.model.N_pos
  change ZPrep tr (zebSettingsOf cx cy cs) _ _ w u ps v qs qp at hq
  replace hs := hs o'
  change _ = Except.ok (true, zSolveResult o' (zebSettingsOf cx cy cs).nbSamples w qp fb) at hs
  have hcons := hq.consistent h
  generalize zebSettingsOf cx cy cs = s at *
  rw [hs] at e
  cases e
  have hd := feasible_congr hcons
    (y := fun i => if i < w.solver.nbVar then (o' w.solver.calls qp 10000).2 i else w.dX.get i)
    (fun i hi => by simp only [hi, if_true]) hfeas
  obtain ⟨vx, vy, ax, ay, jx, jy⟩ := ((zFeasible hN hq _).1 hd).2.1 hc 0 hN
  have key : ∀ (z : State3 K) (j : K), stateStep j fb z = Spec.cubic z j fb := by
    intro z j
    simp only [stateStep, Spec.cubic, State3.mk.injEq]
    refine ⟨by ring, by ring, trivial⟩
  have acc : ∀ (z : State3 K) (j l : K), |(Spec.cubic z j s.period).a| ≤ l → |z.a| ≤ l → |(Spec.cubic z j fb).a| ≤ l := by
    intro z j l ha h0
    simp only [Spec.cubic] at ha ⊢
    rw [abs_le] at h0 ha ⊢
    rcases le_total 0 j with hs | hs
    · have := mul_le_mul_of_nonneg_left hle hs
      have := mul_nonneg hs hfb.le
      constructor <;> linarith [h0.1, h0.2, ha.1, ha.2]
    · have := mul_le_mul_of_nonpos_left hle hs
      have := mul_nonpos_of_nonpos_of_nonneg hs hfb.le
      constructor <;> linarith [h0.1, h0.2, ha.1, ha.2]
  have ebx : (zSolveResult o' s.nbSamples w qp fb).base.x
      = Spec.cubic w.base.x ((zSolveResult o' s.nbSamples w qp fb).X.get (2 * s.nbSamples)) fb := by
    rw [← key]; rfl
  have eby : (zSolveResult o' s.nbSamples w qp fb).base.y
      = Spec.cubic w.base.y ((zSolveResult o' s.nbSamples w qp fb).X.get (3 * s.nbSamples)) fb := by
    rw [← key]; rfl
  refine ⟨_, _, Vec.at?_ok (by show _ < w.X.size; omega), Vec.at?_ok (by show _ < w.X.size; omega), jx, jy, ebx, eby,
    ?_, ?_, ?_⟩
  · rintro rfl
    rw [ebx, eby]
    exact ⟨vx, vy, ax, ay⟩
  · intro h0
    rw [ebx]
    exact acc _ _ _ ax h0
  · intro h0
    rw [eby]
    exact acc _ _ _ ay h0

/-! ### C48 -/

/-- **C48.** With tilt motion constraints on, a feasible `d` gives predicted CoM and base velocities without
component orthogonal to the heading `(cos yaw, sin yaw)` given by the last `setBaseStateYaw`. -/
theorem C48_heading (hw : ZebReaches o tr cx cy cs w) (hr : (zebSettingsOf cx cy cs).RefsCurrent)
    (hc : (zebSettingsOf cx cy cs).config.tilt = true) (hfb : 0 < fb) :
    ∃ qp, ZebGives tr w fb qp ∧ ∀ d, Spec.Feasible qp d →
      (zebSettingsOf cx cy cs).AlongHeading (tr.cos (zebSettingsOf cx cy cs).yaw.p)
        (tr.sin (zebSettingsOf cx cy cs).yaw.p) w.state fun i => w.X.get i + d i := by
  obtain ⟨qp, hg, hf⟩ := C57_constraints hw hr hfb
  exact ⟨qp, hg, fun d hd => ((hf d).1 hd).2.2.2.1 hc⟩

/-! ### C46 -/

theorem inPolygon_of_rows {p : Vec (Pt K)} {N : ℕ} {old new : ℕ → Pt K} (h : Spec.PolygonRows p N old new) {i : ℕ}
    (hi : i < N) : Spec.InPolygon p (Spec.Pt.reflect (new i)) := fun e he => (h e he i hi).1

/-- **C46 as the code has it**: a feasible `d` keeps the *reflections* at the origin of the predicted CoM and CoP
relative to the base in the polygons. -/
theorem C46_reflected (hw : ZebReaches o tr cx cy cs w) (hr : (zebSettingsOf cx cy cs).RefsCurrent) (hfb : 0 < fb) :
    ∃ qp, ZebGives tr w fb qp ∧ ∀ d, Spec.Feasible qp d → ∀ i < (zebSettingsOf cx cy cs).nbSamples,
      ((zebSettingsOf cx cy cs).config.com = true → Spec.InPolygon (zebSettingsOf cx cy cs).comPolygon
        (Spec.Pt.reflect ((zebSettingsOf cx cy cs).comRel w.state (fun i => w.X.get i + d i) i))) ∧
      ((zebSettingsOf cx cy cs).config.cop = true → Spec.InPolygon (zebSettingsOf cx cy cs).copPolygon
        (Spec.Pt.reflect ((zebSettingsOf cx cy cs).copRel w.state (fun i => w.X.get i + d i) i))) := by
  obtain ⟨qp, hg, hf⟩ := C57_constraints hw hr hfb
  refine ⟨qp, hg, fun d hd i hi => ?_⟩
  obtain ⟨h1, -, h2, -⟩ := (hf d).1 hd
  exact ⟨fun hc => inPolygon_of_rows (h2 hc) hi, fun hc => inPolygon_of_rows (h1 hc) hi⟩

/-- **C46 (partial).** A feasible `d` keeps the predicted CoM and CoP relative to the base in polygons that are
symmetric about the origin. Missing: other convex polygons (false, `C46_violated`). -/
theorem C46_symmetric_partial (hw : ZebReaches o tr cx cy cs w) (hr : (zebSettingsOf cx cy cs).RefsCurrent)
    (hfb : 0 < fb) :
    ∃ qp, ZebGives tr w fb qp ∧ ∀ d, Spec.Feasible qp d → ∀ i < (zebSettingsOf cx cy cs).nbSamples,
      ((zebSettingsOf cx cy cs).config.com = true → Spec.CentrallySymmetric (zebSettingsOf cx cy cs).comPolygon →
        Spec.InPolygon (zebSettingsOf cx cy cs).comPolygon
          ((zebSettingsOf cx cy cs).comRel w.state (fun i => w.X.get i + d i) i)) ∧
      ((zebSettingsOf cx cy cs).config.cop = true → Spec.CentrallySymmetric (zebSettingsOf cx cy cs).copPolygon →
        Spec.InPolygon (zebSettingsOf cx cy cs).copPolygon
          ((zebSettingsOf cx cy cs).copRel w.state (fun i => w.X.get i + d i) i)) := by
  obtain ⟨qp, hg, hf⟩ := C46_reflected hw hr hfb
  exact ⟨qp, hg, fun d hd i hi =>
    ⟨fun hc hs => (hs _).2 ((hf d hd i hi).1 hc), fun hc hs => (hs _).2 ((hf d hd i hi).2 hc)⟩⟩

/-- The square of `zExampleHistory` is symmetric. -/
example (cx cy : ℚ) : Spec.CentrallySymmetric (zebSettingsOf cx cy zExampleHistory).comPolygon := by
  intro X
  have e : (zebSettingsOf cx cy zExampleHistory).comPolygon
    = ⟨4, fun i => [⟨1, 1⟩, ⟨-1, 1⟩, ⟨-1, -1⟩, ⟨1, -1⟩].getD i ⟨0, 0⟩⟩ := rfl
  rw [e]
  constructor
  · intro h
    have h0 := h 0 (by norm_num); have h1 := h 1 (by norm_num); have h2 := h 2 (by norm_num); have h3 := h 3 (by norm_num)
    norm_num [Spec.InnerSide] at h0 h1 h2 h3
    intro i hi
    have hi : i < 4 := hi
    interval_cases i <;> norm_num [Spec.InnerSide, Spec.Pt.reflect] <;> linarith
  · intro h
    have h0 := h 0 (by norm_num); have h1 := h 1 (by norm_num); have h2 := h 2 (by norm_num); have h3 := h 3 (by norm_num)
    norm_num [Spec.InnerSide, Spec.Pt.reflect] at h0 h1 h2 h3
    intro i hi
    have hi : i < 4 := hi
    interval_cases i <;> norm_num [Spec.InnerSide, Spec.Pt.reflect] <;> linarith

instance (p : Vec (Pt ℚ)) (X : Pt ℚ) : Decidable (Spec.InPolygon p X) := by
  unfold Spec.InPolygon Spec.InnerSide; infer_instance

instance (a b X : Pt ℚ) : Decidable (Spec.InnerSide a b X) := by unfold Spec.InnerSide; infer_instance

instance (p : Vec (Pt ℚ)) : Decidable (Spec.Convex p) := by unfold Spec.Convex; infer_instance

/-- A triangle around the origin, wider towards the front. -/
def zTriangle : Vec (Pt ℚ) := ⟨3, fun i => [⟨3, 0⟩, ⟨-1, 1⟩, ⟨-1, -1⟩].getD i ⟨0, 0⟩⟩

/-- History of the violation of C46. -/
def zTriangleHistory : List (ZebCall ℚ) := [.setComPolygon zTriangle, .setConfig ⟨false, true, false, false⟩]

theorem zTriangle_reaches (o : Oracle ℚ) : ∃ w, ZebReaches o trigZero 0 0 zTriangleHistory w ∧
    w.state = ⟨⟨0, 0, 0⟩, ⟨0, 0, 0⟩, ⟨0, 0, 0⟩, ⟨0, 0, 0⟩⟩ ∧ ∀ i < 4, w.X.get i = 0 := by
  have h : okAnd (fun w : Zeb ℚ => zAtRest w && zNoJerk w)
      (do Zeb.run (fun _ _ _ => (true, fun _ => 0)) trigZero (← Zeb.make trigZero (some 0, some 0)) zTriangleHistory)
      = true := by
    decide +kernel
  obtain ⟨w, e, hw⟩ := okAnd_true h
  rw [Bool.and_eq_true] at hw
  refine ⟨w, ?_, zAtRest_state hw.1, zNoJerk_get hw.2⟩
  rw [zReaches_setters _ _ (by decide) o] at e
  exact e

/-- **C46 is violated.** There are a convex polygon around the origin, a history that enables the CoM constraint
with it, and an increment that is feasible for the QP given to the solver although the CoM predicted with it leaves
the polygon, for every QP solver. -/
theorem C46_violated (o : Oracle ℚ) : Spec.Convex zTriangle ∧ Spec.InPolygon zTriangle ⟨0, 0⟩ ∧
    (zebSettingsOf 0 0 zTriangleHistory).comPolygon = zTriangle ∧
    (zebSettingsOf 0 0 zTriangleHistory).config.com = true ∧
    ∃ w qp d, ZebReaches o trigZero 0 0 zTriangleHistory w ∧ ZebGives trigZero w 1 qp ∧ Spec.Feasible qp d ∧
      ¬ Spec.InPolygon zTriangle
        ((zebSettingsOf 0 0 zTriangleHistory).comRel w.state (fun i => w.X.get i + d i) 0) := by
  refine ⟨by decide +kernel, by decide +kernel, rfl, rfl, ?_⟩
  obtain ⟨w, hw, hz, hX⟩ := zTriangle_reaches o
  obtain ⟨qp, hg, hf⟩ := C57_constraints hw ⟨rfl, rfl, rfl⟩ (one_pos (α := ℚ))
  have hx : ∀ d : ℕ → ℚ, (zebSettingsOf 0 0 zTriangleHistory).comRel w.state (fun i => w.X.get i + d i) 0
      = (zebSettingsOf 0 0 zTriangleHistory).comRel ⟨⟨0, 0, 0⟩, ⟨0, 0, 0⟩, ⟨0, 0, 0⟩, ⟨0, 0, 0⟩⟩ (fun i => 0 + d i) 0 := by
    intro d
    rw [hz]
    have e0 := hX 0 (by norm_num); have e1 := hX 1 (by norm_num)
    have e2 := hX 2 (by norm_num); have e3 := hX 3 (by norm_num)
    show Pt.mk _ _ = Pt.mk _ _
    simp only [Spec.ZebSettings.comRelX, Spec.ZebSettings.comRelY, Spec.ZebSettings.comX, Spec.ZebSettings.comY,
      Spec.ZebSettings.baseX, Spec.ZebSettings.baseY, Spec.jerkTrajectory, Spec.jerkCX, Spec.jerkCY, Spec.jerkBX,
      Spec.jerkBY, show (zebSettingsOf 0 0 zTriangleHistory).nbSamples = 1 from rfl, mul_one, add_zero, e0, e1, e2, e3]
  have hx0 := hx fun _ => 0
  simp only [add_zero] at hx0
  refine ⟨w, qp, fun i => if i = 0 then -12 else 0, hw, hg, (hf _).2 ⟨fun h => (by cases h), fun h => (by cases h),
    fun _ => ?_, fun h => (by cases h), fun i _ _ => ?_⟩, ?_⟩
  · intro e he i hi
    have hi : i < 1 := hi
    obtain rfl : i = 0 := by omega
    rw [hx, hx0]
    revert e
    show ∀ e < 3, _
    decide +kernel
  · simp only [add_sub_cancel_left]
    split_ifs
    · norm_num [MAXBOUND, abs_of_neg]
    · norm_num [MAXBOUND]
  · rw [hx]
    decide +kernel

/-! ### C53 -/

/-- **C53 is violated.** The constructor of `ZebulonWalkgen` reads the tilt contact point, to which the default
constructor of `BaseModel` gives no value: if the memory of one of its coordinates must not be read then construction is
undefined. -/
theorem C53_violated (tr : Trig K) (mem : Option K × Option K) (hm : mem.1 = none ∨ mem.2 = none) :
    Zeb.make tr mem = .error .unspecified :=
  zMake_uninit tr mem hm

/-- Memory that meets the hypothesis of `C53_violated`. -/
example : ((none, none) : Option ℚ × Option ℚ).1 = none ∨ ((none, none) : Option ℚ × Option ℚ).2 = none := .inl rfl

/-- **C53 (partial).** Construction is defined for every value in the memory of the tilt contact point, and the
constructors of `TrajectoryWalkgen` and of `BaseModel` with arguments initialise all they use. Missing: memory that
must not be read (false, `C53_violated`). -/
theorem C53_partial (tr : Trig K) (cx cy : K) : (∃ w, Zeb.make tr (some cx, some cy) = .ok w) ∧
    (∃ w : TrajWalkgen K, TrajWalkgen.make = .ok w) ∧
    ∀ (N : ℕ) (T : K) auto b, Base.make N T auto = .ok b → ∃ x y, b.dbx = some x ∧ b.dby = some y := by
  obtain ⟨w, e, -⟩ := zMake_ok tr cx cy
  obtain ⟨w', e', -⟩ := make_inv (K := K)
  refine ⟨⟨w, e⟩, ⟨w', e'⟩, fun N T auto b hb => ?_⟩
  unfold Base.make at hb
  obtain ⟨_, -, hb⟩ := bind_eq_ok.1 hb
  obtain ⟨_, -, hb⟩ := bind_eq_ok.1 hb
  cases auto with
  | true =>
    obtain ⟨-, hb⟩ := Base.refresh_eq_ok rfl hb
    rw [hb]
    exact ⟨0, 0, rfl, rfl⟩
  | false => cases hb; exact ⟨0, 0, rfl, rfl⟩

end MPC
