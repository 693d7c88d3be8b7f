import Verif.Lemmas.ZebCycle

/-!
# Properties C75–C77: successive control cycles of `ZebulonWalkgen`
-/

set_option linter.unusedSectionVars false

namespace MPC

open Finset

variable {K : Type} [Field K] [LinearOrder K] [IsStrictOrderedRing K] [FloorRing K]
variable {o : Oracle K} {tr : Trig K} {cx cy : K} {cs : List (ZebCall K)} {w : Zeb K}

/-! ### C75 -/

/-- **C75 (partial).** After `solve(period)` the robot is at the first sample of the plan and the rest of the plan,
from there, goes through the other samples. Missing: sampling periods of at most `EPS` (false, `C75_violated`). -/
theorem C75_rest_partial (o' : Oracle K) (hw : ZebReaches o tr cx cy cs w) (hT : EPS < (zebSettingsOf cx cy cs).period)
    {b : Bool} {w' : Zeb K} (e : w.solve o' tr (zebSettingsOf cx cy cs).period = .ok (b, w')) :
    w'.state = (zebSettingsOf cx cy cs).stateAt w.state w'.X.get 0 ∧
    ∀ i, i + 1 < (zebSettingsOf cx cy cs).nbSamples →
      (zebSettingsOf cx cy cs).stateAt w'.state (Spec.laterJerks (zebSettingsOf cx cy cs).nbSamples w'.X.get) i
        = (zebSettingsOf cx cy cs).stateAt w.state w'.X.get (i + 1) := by
  have hp : 0 < (zebSettingsOf cx cy cs).period := (EPS_pos (K := K)).trans hT
  obtain ⟨qp, hg, h⟩ := C66_advance hw ((C54_solve_fails_iff o' hw hp).1 ⟨_, e⟩) hp
  obtain ⟨-, -, -, h0⟩ := h o' b w' e
  have h0 : w'.state = (zebSettingsOf cx cy cs).stateAt w.state w'.X.get 0 := h0 rfl hT
  exact ⟨h0, fun i hi => by rw [h0]; exact stateAt_later hT _ _ hi⟩

/-- **C75, constraints (partial).** If the answer of the solver was feasible then the rest of the plan meets the
constraints in use at its samples, for polygons with central symmetry. Missing: as in C46 and `C75_rest_partial`. -/
theorem C75_allowed_partial (hw : ZebReaches o tr cx cy cs w) (hr : (zebSettingsOf cx cy cs).RefsCurrent)
    (hT : EPS < (zebSettingsOf cx cy cs).period)
    (hcom : (zebSettingsOf cx cy cs).config.com = true →
      Spec.CentrallySymmetric (zebSettingsOf cx cy cs).comPolygon)
    (hcop : (zebSettingsOf cx cy cs).config.cop = true →
      Spec.CentrallySymmetric (zebSettingsOf cx cy cs).copPolygon ∧
      ((zebSettingsOf cx cy cs).baseMass = 0 ∨ EPS < (zebSettingsOf cx cy cs).baseMass)) :
    ∃ qp, ZebGives tr w (zebSettingsOf cx cy cs).period qp ∧ ∀ (o' : Oracle K) b w',
      Spec.Feasible qp (o' w.solver.calls qp 10000).2 → w.solve o' tr (zebSettingsOf cx cy cs).period = .ok (b, w') →
      ∀ i, i + 1 < (zebSettingsOf cx cy cs).nbSamples →
        (zebSettingsOf cx cy cs).Safe (tr.cos (zebSettingsOf cx cy cs).yaw.p) (tr.sin (zebSettingsOf cx cy cs).yaw.p)
          ((zebSettingsOf cx cy cs).stateAt w'.state
            (Spec.laterJerks (zebSettingsOf cx cy cs).nbSamples w'.X.get) i) := by
  have hp : 0 < (zebSettingsOf cx cy cs).period := (EPS_pos (K := K)).trans hT
  have h := zReachable_inv hw
  obtain ⟨qp, hg, hadv⟩ := C66_advance hw hr hp
  obtain ⟨qp1, hg1, hf⟩ := C57_constraints hw hr hp
  obtain rfl := hg.unique h hg1
  refine ⟨qp, hg, fun o' b w' hfe e i hi => ?_⟩
  obtain ⟨-, hX, -, -⟩ := hadv o' b w' e
  rw [(C75_rest_partial o' hw hT e).2 i hi, stateAt_agree w.state hX hi]
  exact allowed_safe ((hf _).1 hfe) hcom hcop hi

/-- A sampling period of `EPS` and a moving CoM. -/
def zTinyHistory : List (ZebCall K) :=
  [.setSamplingPeriod EPS, .setComX ⟨3, fun i => if i = 1 then 1 else 0⟩]

/-- **C75 is violated.** With a sampling period of `EPS`, whatever the solver answers, the CoM is not at the first
sample of the plan after `solve(period)`. -/
theorem C75_violated (tr : Trig K) : (Spec.ZebSettings.init 0 0).Legal (zTinyHistory (K := K)) ∧
    ∀ o : Oracle K, ∃ w b w', ZebReaches o tr 0 0 zTinyHistory w ∧
      w.solve o tr (zebSettingsOf 0 0 (zTinyHistory (K := K))).period = .ok (b, w') ∧
      w'.state.cx ≠ (zebSettingsOf 0 0 zTinyHistory).comX w.state w'.X.get 0 := by
  have hE : (EPS : K) = 1 / 10000 := rfl
  have hl : (Spec.ZebSettings.init (0 : K) 0).Legal zTinyHistory := by
    simp only [zTinyHistory, Spec.ZebSettings.Legal, Spec.ZebSettings.Pre, Spec.ZebSettings.TiltRegular, Spec.tiltGain,
      Spec.ZebSettings.init, and_true]
    refine ⟨EPS_pos, ?_⟩
    rw [hE]
    norm_num [GRAVITY_NORM]
  refine ⟨hl, fun o => ?_⟩
  obtain ⟨w0, hw0⟩ := C54_no_fault_partial o tr 0 0 [.setSamplingPeriod EPS] ⟨hl.1, trivial⟩
    (by simp [Spec.ZebSettings.RefsCurrentAtSolves])
  obtain ⟨w, hw⟩ := C54_no_fault_partial o tr 0 0 zTinyHistory hl
    (by simp [zTinyHistory, Spec.ZebSettings.RefsCurrentAtSolves])
  have hx : w.state.cx = ⟨0, 1, 0⟩ := by
    have h5 : ZebReaches o tr 0 0 ([.setSamplingPeriod EPS] ++ [.setComX ⟨3, fun i => if i = 1 then 1 else 0⟩]) w := hw
    rw [zReaches_append hw0] at h5
    unfold Zeb.run at h5
    obtain ⟨⟨b, w1⟩, e1, h5⟩ := bind_eq_ok.1 h5
    obtain ⟨x, ex, e1⟩ := bind_eq_ok.1 e1
    cases h5
    cases e1
    rw [stateArg_ok rfl] at ex
    cases ex
    simp [Zeb.state, Spec.stateOf]
  have hp : (zebSettingsOf (0 : K) 0 zTinyHistory).period = EPS := rfl
  have hr : (zebSettingsOf (0 : K) 0 zTinyHistory).RefsCurrent := ⟨rfl, rfl, rfl⟩
  obtain ⟨⟨b, w'⟩, e⟩ := (C54_solve_fails_iff o hw (EPS_pos (K := K))).2 hr
  refine ⟨w, b, w', hw, e, fun h => ?_⟩
  obtain ⟨_, -, hadv⟩ := C66_advance hw hr (EPS_pos (K := K))
  obtain ⟨-, -, hst, -⟩ := hadv o b w' e
  rw [hst] at h
  unfold Spec.ZebSettings.comX Spec.comFirst at h
  have hf : ⌊((EPS : K) + EPS) / EPS⌋ = 2 := by
    rw [Int.floor_eq_iff, hE]; constructor <;> norm_num
  rw [hp, hf] at h
  simp only [Spec.jerkTrajectory, Spec.ZebState.driven, hx, Spec.cubic, State3.mk.injEq, hE] at h
  obtain ⟨h1, -, h3⟩ := h
  norm_num at h1 h3
  have : Spec.jerkCX (zebSettingsOf (0 : K) 0 zTinyHistory).nbSamples w'.X.get 0 = 0 := by linarith
  rw [this] at h1
  norm_num at h1

/-! ### C76 -/

/-- **C76 (partial).** After `solve(period)` with a feasible answer the robot itself meets the constraints in use: CoM
and CoP relative to the base are in their polygons, the base is within its limits, and velocities are along the heading.
Missing: polygons without central symmetry (false, `C76_violated`), sampling periods of at most `EPS`
(`C75_violated`), base masses of at most `EPS` that are not zero, which the prediction of the CoP drops. -/
theorem C76_safe_partial (hw : ZebReaches o tr cx cy cs w) (hr : (zebSettingsOf cx cy cs).RefsCurrent)
    (hT : EPS < (zebSettingsOf cx cy cs).period)
    (hcom : (zebSettingsOf cx cy cs).config.com = true →
      Spec.CentrallySymmetric (zebSettingsOf cx cy cs).comPolygon)
    (hcop : (zebSettingsOf cx cy cs).config.cop = true →
      Spec.CentrallySymmetric (zebSettingsOf cx cy cs).copPolygon ∧
      ((zebSettingsOf cx cy cs).baseMass = 0 ∨ EPS < (zebSettingsOf cx cy cs).baseMass)) :
    ∃ qp, ZebGives tr w (zebSettingsOf cx cy cs).period qp ∧ ∀ (o' : Oracle K) b w',
      Spec.Feasible qp (o' w.solver.calls qp 10000).2 → w.solve o' tr (zebSettingsOf cx cy cs).period = .ok (b, w') →
      (zebSettingsOf cx cy cs).Safe (tr.cos (zebSettingsOf cx cy cs).yaw.p) (tr.sin (zebSettingsOf cx cy cs).yaw.p)
        w'.state := by
  have hp : 0 < (zebSettingsOf cx cy cs).period := (EPS_pos (K := K)).trans hT
  have h := zReachable_inv hw
  have hN : 0 < (zebSettingsOf cx cy cs).nbSamples := h.part.user.model.N_pos
  obtain ⟨qp, hg, hadv⟩ := C66_advance hw hr hp
  obtain ⟨qp1, hg1, hf⟩ := C57_constraints hw hr hp
  obtain rfl := hg.unique h hg1
  refine ⟨qp, hg, fun o' b w' hfe e => ?_⟩
  obtain ⟨-, hX, -, -⟩ := hadv o' b w' e
  rw [(C75_rest_partial o' hw hT e).1, stateAt_agree w.state hX hN]
  exact allowed_safe ((hf _).1 hfe) hcom hcop hN

/-- Where one sample of one second leads from rest at the origin. -/
theorem stateAt_one {s : Spec.ZebSettings ℚ} (hN : s.nbSamples = 1) (hT : s.period = 1) (X : ℕ → ℚ) :
    s.stateAt ⟨⟨0, 0, 0⟩, ⟨0, 0, 0⟩, ⟨0, 0, 0⟩, ⟨0, 0, 0⟩⟩ X 0 =
      ⟨⟨X 0 / 6, X 0 / 2, X 0⟩, ⟨X 1 / 6, X 1 / 2, X 1⟩, ⟨X 2 / 6, X 2 / 2, X 2⟩, ⟨X 3 / 6, X 3 / 2, X 3⟩⟩ := by
  unfold Spec.ZebSettings.stateAt Spec.ZebSettings.comX Spec.ZebSettings.comY Spec.ZebSettings.baseX
    Spec.ZebSettings.baseY
  rw [hN, hT, comFirst_eq (by norm_num [EPS])]
  simp [Spec.jerkTrajectory, Spec.cubic, Spec.jerkCX, Spec.jerkCY, Spec.jerkBX, Spec.jerkBY]

/-- The polygon of `C46_violated` and a CoM reference outside of it, behind the base. -/
def zOutsideHistory : List (ZebCall ℚ) :=
  [.setComPolygon zTriangle, .setConfig ⟨false, true, false, false⟩,
    .setComRef ⟨2, fun i => if i = 0 then -2 else 0⟩, .setWeightings ⟨0, 0, 0, 1, 0, 0, 0⟩]

theorem zOutside_reaches (o : Oracle ℚ) : ∃ w, ZebReaches o trigZero 0 0 zOutsideHistory w ∧
    w.state = ⟨⟨0, 0, 0⟩, ⟨0, 0, 0⟩, ⟨0, 0, 0⟩, ⟨0, 0, 0⟩⟩ ∧ ∀ i < 4, w.X.get i = 0 := by
  have h : okAnd (fun w : Zeb ℚ => zAtRest w && zNoJerk w)
      (do Zeb.run (fun _ _ _ => (true, fun _ => 0)) trigZero (← Zeb.make trigZero (some 0, some 0)) zOutsideHistory)
      = true := by
    decide +kernel
  obtain ⟨w, e, hw⟩ := okAnd_true h
  rw [Bool.and_eq_true] at hw
  refine ⟨w, ?_, zAtRest_state hw.1, zNoJerk_get hw.2⟩
  rw [zReaches_setters _ _ (by decide) o] at e
  exact e

/-- **C76 is violated.** There are a convex polygon around the origin and a history that enables the CoM constraint with
it such that with every solver that finds solutions the CoM of the robot is in the polygon before `solve(period)` and
outside of it afterwards. -/
theorem C76_violated : Spec.Convex zTriangle ∧ Spec.InPolygon zTriangle ⟨0, 0⟩ ∧
    (zebSettingsOf 0 0 zOutsideHistory).comPolygon = zTriangle ∧
    (zebSettingsOf 0 0 zOutsideHistory).config.com = true ∧
    ∀ o, Spec.FindsSolution o → ∃ w b w', ZebReaches o trigZero 0 0 zOutsideHistory w ∧
      (zebSettingsOf 0 0 zOutsideHistory).Safe 1 0 w.state ∧
      w.solve o trigZero (zebSettingsOf 0 0 zOutsideHistory).period = .ok (b, w') ∧
      ¬ Spec.InPolygon zTriangle ⟨w'.state.cx.p - w'.state.bx.p, w'.state.cy.p - w'.state.by_.p⟩ := by
  refine ⟨by decide +kernel, by decide +kernel, rfl, rfl, fun o ho => ?_⟩
  obtain ⟨w, hw, hz, hX⟩ := zOutside_reaches o
  have hr : (zebSettingsOf (0 : ℚ) 0 zOutsideHistory).RefsCurrent := ⟨rfl, rfl, rfl⟩
  have hT : (0 : ℚ) < (zebSettingsOf 0 0 zOutsideHistory).period := one_pos
  have h := zReachable_inv hw
  obtain ⟨qp, hg, hadv⟩ := C66_advance hw hr hT
  obtain ⟨qp1, hg1, c, hc, ψx, ψy, ωx, ωy, -, hcost⟩ := C57_cost hw hr hT
  obtain rfl := hg.unique h hg1
  obtain ⟨qp2, hg2, hf⟩ := C57_constraints hw hr hT
  obtain rfl := hg.unique h hg2
  obtain ⟨b, w', e, -⟩ := hg o
  have hst := (C75_rest_partial o hw (by show EPS < (1 : ℚ); norm_num [EPS]) e).1
  obtain ⟨-, hX', -, -⟩ := hadv o b w' e
  rw [hz, stateAt_one rfl rfl] at hst
  have htot : ∀ t t' (X : ℕ → ℚ), (zebSettingsOf 0 0 zOutsideHistory).totalCost
      ((Spec.ZebSettings.init 0 0).usedShift (0, 0) zOutsideHistory) t t' w.state X
      = 1 / 2 * ((X 0 / 6 - X 2 / 6 + 2) ^ 2 + (X 1 / 6 - X 3 / 6) ^ 2) := by
    intro t t' X
    have hs := stateAt_one (s := zebSettingsOf 0 0 zOutsideHistory) rfl rfl X
    rw [hz]
    have c1 : (zebSettingsOf (0 : ℚ) 0 zOutsideHistory).comRelX _ X 0 = X 0 / 6 - X 2 / 6 :=
      congrArg (fun z => z.cx.p - z.bx.p) hs
    have c2 : (zebSettingsOf (0 : ℚ) 0 zOutsideHistory).comRelY _ X 0 = X 1 / 6 - X 3 / 6 :=
      congrArg (fun z => z.cy.p - z.by_.p) hs
    have e1 : (zebSettingsOf (0 : ℚ) 0 zOutsideHistory).weighting = ⟨0, 0, 0, 1, 0, 0, 0⟩ := rfl
    have e2 : (zebSettingsOf (0 : ℚ) 0 zOutsideHistory).nbSamples = 1 := rfl
    have e3 : (zebSettingsOf (0 : ℚ) 0 zOutsideHistory).comRef = ⟨2, fun i => if i = 0 then -2 else 0⟩ := rfl
    have e4 : (Spec.ZebSettings.init (0 : ℚ) 0).usedShift (0, 0) zOutsideHistory = (0, 0) := rfl
    unfold Spec.ZebSettings.totalCost Spec.ZebSettings.comCost
    rw [e1, e2, e3, e4]
    simp [c1, c2]
  have eJ : (fun i => w.X.get i + ((if i = 0 then -12 else 0) - w.X.get i)) = fun i => if i = 0 then (-12 : ℚ) else 0 := by
    funext i; ring
  have hrel : ∀ X : ℕ → ℚ, (zebSettingsOf 0 0 zOutsideHistory).comRel w.state X 0
      = ⟨X 0 / 6 - X 2 / 6, X 1 / 6 - X 3 / 6⟩ := by
    intro X
    rw [hz]
    have hs := stateAt_one (s := zebSettingsOf 0 0 zOutsideHistory) rfl rfl X
    exact congrArg (fun z => Pt.mk (z.cx.p - z.bx.p) (z.cy.p - z.by_.p)) hs
  have x0 := hX 0 (by norm_num); have x1 := hX 1 (by norm_num)
  have x2 := hX 2 (by norm_num); have x3 := hX 3 (by norm_num)
  have hsol : Spec.IsSolution qp fun i => (if i = 0 then -12 else 0) - w.X.get i := by
    refine ⟨(hf _).2 ?_, fun y _ => ?_⟩
    · rw [eJ]
      refine ⟨fun h => (by cases h), fun h => (by cases h), fun _ => ?_, fun h => (by cases h), fun i hi _ => ?_⟩
      · intro e he i hi
        have hi : i < 1 := hi
        obtain rfl : i = 0 := by omega
        rw [hrel, hrel, x0, x1, x2, x3]
        revert e
        show ∀ e < 3, _
        decide +kernel
      · have hi : i < 4 := hi
        rw [hX i hi]
        dsimp only
        split_ifs <;> norm_num [MAXBOUND]
    · rw [hcost, hcost, mul_le_mul_iff_right₀ hc, eJ, htot, htot (X := fun i => w.X.get i + y i)]
      refine sub_le_sub_right ?_ _
      have : (0 : ℚ) ≤ 1 / 2 * (((w.X.get 0 + y 0) / 6 - (w.X.get 2 + y 2) / 6 + 2) ^ 2
        + ((w.X.get 1 + y 1) / 6 - (w.X.get 3 + y 3) / 6) ^ 2) := by positivity
      norm_num at this ⊢
      exact this
  have hopt := (ho w.solver.calls qp 10000 ⟨_, hsol⟩).2 _ hsol.1
  rw [hcost, hcost, mul_le_mul_iff_right₀ hc, eJ, htot, htot (X := fun i => if i = 0 then (-12 : ℚ) else 0)] at hopt
  have hopt := sub_le_sub_iff_right _ |>.1 hopt
  rw [← hX' 0 (by decide), ← hX' 1 (by decide), ← hX' 2 (by decide), ← hX' 3 (by decide)] at hopt
  have q1 : (w'.X.get 0 / 6 - w'.X.get 2 / 6 + 2) ^ 2 = 0 := by
    have a := sq_nonneg (w'.X.get 0 / 6 - w'.X.get 2 / 6 + 2)
    have b := sq_nonneg (w'.X.get 1 / 6 - w'.X.get 3 / 6)
    norm_num at hopt
    linarith
  have q1 := pow_eq_zero_iff (two_ne_zero) |>.1 q1
  refine ⟨w, b, w', hw, ?_, e, fun hin => ?_⟩
  · rw [hz]
    exact ⟨fun _ => by decide +kernel, fun h => (by cases h), fun h => (by cases h), fun h => (by cases h)⟩
  · have := hin 1 (by decide)
    rw [hst] at this
    simp only [Spec.InnerSide, zTriangle] at this
    norm_num at this
    linarith

/-! ### C77 -/

/-- **C77 (partial).** With the base constraint in use and no other, if the jerk limit can reverse the greatest
acceleration in one sampling period and the solver finds a feasible point when there is one, then during any sequence of
`solve(period)` and of changes of references and weightings no call faults, the base stays within its limits and the QP
stays feasible. Missing: weaker jerk limits (false, `C77_violated`), other constraints. -/
theorem C77_recursive_partial (ho : Spec.FindsFeasible o) (hw : ZebReaches o tr cx cy cs w)
    (hr : (zebSettingsOf cx cy cs).RefsCurrent) (hc : (zebSettingsOf cx cy cs).config = ⟨false, false, true, false⟩)
    (hJ : 2 * (zebSettingsOf cx cy cs).accLimit ≤ (zebSettingsOf cx cy cs).jerkLimit * (zebSettingsOf cx cy cs).period)
    (hx : (zebSettingsOf cx cy cs).BaseWithin w.state) (cs' : List (ZebCall K))
    (ht : ∀ c ∈ cs', Spec.ZebTracking (zebSettingsOf cx cy cs) c) :
    ∃ w', ZebReaches o tr cx cy (cs ++ cs') w' ∧ (zebSettingsOf cx cy cs).BaseWithin w'.state ∧
      ∃ qp, ZebGives tr w' (zebSettingsOf cx cy cs).period qp ∧ ∃ d, Spec.Feasible qp d := by
  have hfeas : ∀ {cs : List (ZebCall K)} {w : Zeb K}, ZebReaches o tr cx cy cs w →
      (zebSettingsOf cx cy cs).RefsCurrent → (zebSettingsOf cx cy cs).config = ⟨false, false, true, false⟩ →
      2 * (zebSettingsOf cx cy cs).accLimit ≤ (zebSettingsOf cx cy cs).jerkLimit * (zebSettingsOf cx cy cs).period →
      (zebSettingsOf cx cy cs).BaseWithin w.state →
      ∃ qp, ZebGives tr w (zebSettingsOf cx cy cs).period qp ∧ ∃ d, Spec.Feasible qp d := by
    intro cs w hw hr hc hJ hx
    have hT := (zReachable_inv hw).part.user.model.T_pos
    obtain ⟨qp, hg, hf⟩ := C57_constraints hw hr hT
    refine ⟨qp, hg, fun i => holdBase (zebSettingsOf cx cy cs) w.state w.X.get i - w.X.get i, ?_⟩
    rw [hf]
    have e0 : (fun i => w.X.get i + (holdBase (zebSettingsOf cx cy cs) w.state w.X.get i - w.X.get i))
        = holdBase (zebSettingsOf cx cy cs) w.state w.X.get := by funext i; ring
    rw [e0]
    exact holdBase_allowed hT hc hJ hx _ _ _
  induction cs' generalizing cs w with
  | nil => exact ⟨w, by simpa using hw, hx, hfeas hw hr hc hJ hx⟩
  | cons c cs' ih =>
    have h := zReachable_inv hw
    have hT := h.part.user.model.T_pos
    have hN := h.part.user.model.N_pos
    have htc := ht c (by simp)
    have hpre : ZCodePre (zebSettingsOf cx cy cs) c := by
      cases c with
      | solve fb => obtain rfl : fb = _ := htc; exact ⟨hT, hr⟩
      | setVelRef v => exact htc
      | setPosRef v => exact htc
      | setCopRef v => exact htc
      | setComRef v => exact htc
      | setWeightings wt => exact htc
      | _ => exact absurd htc (by simp [Spec.ZebTracking])
    obtain ⟨b, w1, e1, h1⟩ := zStep_ok h o c hpre
    have hw1 : ZebReaches o tr cx cy (cs ++ [c]) w1 := by
      rw [zReaches_append hw]; simp [Zeb.run, e1, ok_bind]
    have es : zebSettingsOf cx cy (cs ++ [c]) = (zebSettingsOf cx cy cs).apply c := by
      unfold zebSettingsOf; rw [after_append]; rfl
    have hsame : (zebSettingsOf cx cy (cs ++ [c])).RefsCurrent ∧
        (zebSettingsOf cx cy (cs ++ [c])).config = (zebSettingsOf cx cy cs).config ∧
        (zebSettingsOf cx cy (cs ++ [c])).accLimit = (zebSettingsOf cx cy cs).accLimit ∧
        (zebSettingsOf cx cy (cs ++ [c])).velLimit = (zebSettingsOf cx cy cs).velLimit ∧
        (zebSettingsOf cx cy (cs ++ [c])).jerkLimit = (zebSettingsOf cx cy cs).jerkLimit ∧
        (zebSettingsOf cx cy (cs ++ [c])).period = (zebSettingsOf cx cy cs).period ∧
        (zebSettingsOf cx cy (cs ++ [c])).nbSamples = (zebSettingsOf cx cy cs).nbSamples := by
      rw [es]
      cases c with
      | solve fb => exact ⟨hr, rfl, rfl, rfl, rfl, rfl, rfl⟩
      | setVelRef v => exact ⟨⟨htc, hr.2⟩, rfl, rfl, rfl, rfl, rfl, rfl⟩
      | setPosRef v => exact ⟨⟨hr.1, htc, hr.2.2⟩, rfl, rfl, rfl, rfl, rfl, rfl⟩
      | setCopRef v => exact ⟨⟨hr.1, hr.2.1, htc⟩, rfl, rfl, rfl, rfl, rfl, rfl⟩
      | setComRef v => exact ⟨hr, rfl, rfl, rfl, rfl, rfl, rfl⟩
      | setWeightings wt => exact ⟨hr, rfl, rfl, rfl, rfl, rfl, rfl⟩
      | _ => exact absurd htc (by simp [Spec.ZebTracking])
    obtain ⟨hr1, hc1, ea, ev, ej, ep, en⟩ := hsame
    have hx1 : (zebSettingsOf cx cy cs).BaseWithin w1.state := by
      by_cases hs : ∃ fb, c = .solve fb
      · obtain ⟨fb, rfl⟩ := hs
        obtain rfl : fb = _ := htc
        obtain ⟨qp, hg, d, hd⟩ := hfeas hw hr hc hJ hx
        obtain ⟨qp1, hg1, hl⟩ := C57_limits_after_solve hw hr (by rw [hc]) hT le_rfl
        obtain rfl := hg.unique h hg1
        obtain ⟨_, _, -, -, -, -, -, -, hl, -⟩ := hl o b w1 (ho _ _ _ (hg.consistent h) ⟨d, hd⟩) e1
        obtain ⟨l1, l2, l3, l4⟩ := hl rfl
        exact ⟨l1, l2, l3, l4⟩
      · rw [zTracking_state htc (fun fb e => hs ⟨fb, e⟩) e1]; exact hx
    have hth : ∀ c' ∈ cs', Spec.ZebTracking (zebSettingsOf cx cy (cs ++ [c])) c' := by
      intro c' hc'
      have := ht c' (by simp [hc'])
      cases c' <;> simp only [Spec.ZebTracking, ep, en] at this ⊢ <;> exact this
    obtain ⟨w', g1, g2, qp, g3, g4⟩ := ih hw1 hr1 (by rw [hc1]; exact hc) (by rw [ea, ej, ep]; exact hJ)
      (by unfold Spec.ZebSettings.BaseWithin at hx1 ⊢; rw [ev, ea]; exact hx1) hth
    refine ⟨w', by simpa using g1, ?_, qp, by rw [← ep]; exact g3, g4⟩
    unfold Spec.ZebSettings.BaseWithin at g2 ⊢; rw [ev, ea] at g2; exact g2

/-- With the base constraint alone, every state of the base within its limits has an allowed plan exactly when the jerk
limit can reverse the greatest acceleration in one sampling period. -/
theorem C77_feasible_iff (s : Spec.ZebSettings K) (hc : s.config = ⟨false, false, true, false⟩) (hN : 0 < s.nbSamples)
    (hT : 0 < s.period) (hV : 0 ≤ s.velLimit) (hA : 0 ≤ s.accLimit) (c n : K) (X0 : ℕ → K) :
    (∀ z, s.BaseWithin z → ∃ X, s.Allowed c n z X0 X) ↔ 2 * s.accLimit ≤ s.jerkLimit * s.period := by
  constructor
  · intro h
    obtain ⟨X, hX⟩ := h ⟨⟨0, 0, 0⟩, ⟨0, 0, 0⟩, ⟨0, s.velLimit, s.accLimit⟩, ⟨0, 0, 0⟩⟩
      ⟨(abs_of_nonneg hV).le, by simpa using hV, (abs_of_nonneg hA).le, by simpa using hA⟩
    obtain ⟨h1, -, -, -, h2, -⟩ := hX.2.1 (by rw [hc]) 0 hN
    simp only [Spec.ZebSettings.baseX, Spec.jerkTrajectory, Spec.cubic, abs_le] at h1 h2
    set j := Spec.jerkBX s.nbSamples X 0
    have h3 : (s.accLimit + j * s.period / 2) * s.period ≤ 0 := by
      have : (s.accLimit + j * s.period / 2) * s.period = s.accLimit * s.period + j * s.period ^ 2 / 2 := by ring
      linarith [h1.2]
    have h4 : s.accLimit + j * s.period / 2 ≤ 0 := by
      by_contra hc
      exact absurd h3 (not_le.2 (mul_pos (not_le.1 hc) hT))
    have h5 := mul_le_mul_of_nonneg_right h2.1 hT.le
    linarith
  · intro hJ z hz
    exact ⟨_, holdBase_allowed hT hc hJ hz c n X0⟩

/-- A base at rest that is to move at the velocity limit. -/
def zFastHistory : List (ZebCall ℚ) :=
  [.setVelLimit (1 / 2), .setVelRef ⟨2, fun i => if i = 0 then 1 / 2 else 0⟩, .setConfig ⟨false, false, true, false⟩,
    .setWeightings ⟨1, 0, 0, 0, 0, 0, 0⟩]

theorem zFast_reaches (o : Oracle ℚ) : ∃ w, ZebReaches o trigZero 0 0 zFastHistory w ∧
    w.state = ⟨⟨0, 0, 0⟩, ⟨0, 0, 0⟩, ⟨0, 0, 0⟩, ⟨0, 0, 0⟩⟩ ∧ ∀ i < 4, w.X.get i = 0 := by
  have h : okAnd (fun w : Zeb ℚ => zAtRest w && zNoJerk w)
      (do Zeb.run (fun _ _ _ => (true, fun _ => 0)) trigZero (← Zeb.make trigZero (some 0, some 0)) zFastHistory)
      = true := by
    decide +kernel
  obtain ⟨w, e, hw⟩ := okAnd_true h
  rw [Bool.and_eq_true] at hw
  refine ⟨w, ?_, zAtRest_state hw.1, zNoJerk_get hw.2⟩
  rw [zReaches_setters _ _ (by decide) o] at e
  exact e

/-- **C77 is violated.** With every solver that finds solutions, tracking the greatest allowed velocity from rest leads
to a base within its limits from which no jerks are feasible. -/
theorem C77_violated (o : Oracle ℚ) (ho : Spec.FindsSolution o) : ∃ w, ZebReaches o trigZero 0 0 (zFastHistory ++ [.solve 1]) w ∧
    (zebSettingsOf 0 0 zFastHistory).BaseWithin w.state ∧
    ∃ qp, ZebGives trigZero w 1 qp ∧ ∀ d, ¬ Spec.Feasible qp d := by
  obtain ⟨w, hw, hz, hX⟩ := zFast_reaches o
  have hr : (zebSettingsOf (0 : ℚ) 0 zFastHistory).RefsCurrent := ⟨rfl, rfl, rfl⟩
  have hT : (0 : ℚ) < (zebSettingsOf 0 0 zFastHistory).period := one_pos
  have h := zReachable_inv hw
  obtain ⟨qp, hg, hadv⟩ := C66_advance hw hr hT
  obtain ⟨qp1, hg1, c, hc, ψx, ψy, ωx, ωy, -, hcost⟩ := C57_cost hw hr hT
  obtain rfl := hg.unique h hg1
  obtain ⟨qp2, hg2, hf⟩ := C57_constraints hw hr hT
  obtain rfl := hg.unique h hg2
  obtain ⟨b, w', e, -⟩ := hg o
  have hst := (C75_rest_partial o hw (by show EPS < (1 : ℚ); norm_num [EPS]) e).1
  obtain ⟨-, hX', -, -⟩ := hadv o b w' e
  rw [hz, stateAt_one rfl rfl] at hst
  have hbx : ∀ X : ℕ → ℚ, (zebSettingsOf 0 0 zFastHistory).baseX w.state X 0 = ⟨X 2 / 6, X 2 / 2, X 2⟩ := fun X => by
    rw [hz]; exact congrArg (fun z => z.bx) (stateAt_one (s := zebSettingsOf 0 0 zFastHistory) rfl rfl X)
  have hby : ∀ X : ℕ → ℚ, (zebSettingsOf 0 0 zFastHistory).baseY w.state X 0 = ⟨X 3 / 6, X 3 / 2, X 3⟩ := fun X => by
    rw [hz]; exact congrArg (fun z => z.by_) (stateAt_one (s := zebSettingsOf 0 0 zFastHistory) rfl rfl X)
  have htot : ∀ k t t' (X : ℕ → ℚ), (zebSettingsOf 0 0 zFastHistory).totalCost k t t' w.state X
      = 1 / 2 * ((X 2 / 2 - 1 / 2) ^ 2 + (X 3 / 2) ^ 2) := by
    intro k t t' X
    have e1 : (zebSettingsOf (0 : ℚ) 0 zFastHistory).weighting = ⟨1, 0, 0, 0, 0, 0, 0⟩ := rfl
    have e2 : (zebSettingsOf (0 : ℚ) 0 zFastHistory).nbSamples = 1 := rfl
    have e3 : (zebSettingsOf (0 : ℚ) 0 zFastHistory).velRef = ⟨2, fun i => if i = 0 then 1 / 2 else 0⟩ := rfl
    unfold Spec.ZebSettings.totalCost Spec.ZebSettings.velCost
    rw [e1, e2, e3]
    simp [hbx, hby]
  have eJ : (fun i => w.X.get i + ((if i = 2 then 1 else 0) - w.X.get i)) = fun i => if i = 2 then (1 : ℚ) else 0 := by
    funext i; ring
  have hsol : Spec.IsSolution qp fun i => (if i = 2 then 1 else 0) - w.X.get i := by
    refine ⟨(hf _).2 ?_, fun y _ => ?_⟩
    · rw [eJ]
      refine ⟨fun h => (by cases h), fun _ => ?_, fun h => (by cases h), fun h => (by cases h), fun i hi _ => ?_⟩
      · intro i hi
        have hi : i < 1 := hi
        obtain rfl : i = 0 := by omega
        rw [hbx, hby]
        decide +kernel
      · have hi : i < 4 := hi
        rw [hX i hi]
        dsimp only
        split_ifs <;> norm_num [MAXBOUND]
    · rw [hcost, hcost, mul_le_mul_iff_right₀ hc, eJ, htot, htot (X := fun i => w.X.get i + y i)]
      refine sub_le_sub_right ?_ _
      have : (0 : ℚ) ≤ 1 / 2 * (((w.X.get 2 + y 2) / 2 - 1 / 2) ^ 2 + ((w.X.get 3 + y 3) / 2) ^ 2) := by positivity
      norm_num at this ⊢
      exact this
  have hopt := (ho w.solver.calls qp 10000 ⟨_, hsol⟩).2 _ hsol.1
  rw [hcost, hcost, mul_le_mul_iff_right₀ hc, eJ, htot, htot (X := fun i => if i = 2 then (1 : ℚ) else 0)] at hopt
  have hopt := sub_le_sub_iff_right _ |>.1 hopt
  rw [← hX' 2 (by decide), ← hX' 3 (by decide)] at hopt
  have a := sq_nonneg (w'.X.get 2 / 2 - 1 / 2)
  have b := sq_nonneg (w'.X.get 3 / 2)
  norm_num at hopt
  have q2 : (w'.X.get 2 / 2 - 1 / 2) ^ 2 = 0 := by linarith
  have q3 : (w'.X.get 3 / 2) ^ 2 = 0 := by linarith
  have q2 := pow_eq_zero_iff (two_ne_zero) |>.1 q2
  have q3 := pow_eq_zero_iff (two_ne_zero) |>.1 q3
  have q2 : w'.X.get 2 = 1 := by linarith
  have q3 : w'.X.get 3 = 0 := by linarith
  rw [q2, q3] at hst
  have hw' : ZebReaches o trigZero 0 0 (zFastHistory ++ [.solve 1]) w' := by
    rw [zReaches_append hw]
    have e : w.solve o trigZero 1 = _ := e
    simp [Zeb.run, Zeb.step, e, ok_bind]
  refine ⟨w', hw', ?_, ?_⟩
  · rw [hst]
    show |(1 / 2 : ℚ)| ≤ (zebSettingsOf 0 0 zFastHistory).velLimit ∧
      |(0 / 2 : ℚ)| ≤ (zebSettingsOf 0 0 zFastHistory).velLimit ∧
      |(1 : ℚ)| ≤ (zebSettingsOf 0 0 zFastHistory).accLimit ∧ |(0 : ℚ)| ≤ (zebSettingsOf 0 0 zFastHistory).accLimit
    decide +kernel
  · obtain ⟨qp', hg', hf'⟩ := C57_constraints hw' (show (zebSettingsOf (0 : ℚ) 0 (zFastHistory ++ [.solve 1])).RefsCurrent
      from ⟨rfl, rfl, rfl⟩) (one_pos (α := ℚ))
    refine ⟨qp', hg', fun d hd => ?_⟩
    obtain ⟨h1, -, -, -, h2, -⟩ := ((hf' d).1 hd).2.1 rfl 0 (by decide)
    rw [hst] at h1
    have e1 : (zebSettingsOf (0 : ℚ) 0 (zFastHistory ++ [.solve 1])).period = 1 := rfl
    have e2 : (zebSettingsOf (0 : ℚ) 0 (zFastHistory ++ [.solve 1])).velLimit = 1 / 2 := rfl
    have e3 : (zebSettingsOf (0 : ℚ) 0 (zFastHistory ++ [.solve 1])).jerkLimit = 1 := rfl
    rw [e2] at h1
    rw [e3] at h2
    unfold Spec.ZebSettings.baseX at h1
    rw [e1] at h1
    set j := Spec.jerkBX (zebSettingsOf (0 : ℚ) 0 (zFastHistory ++ [.solve 1])).nbSamples
      (fun i => w'.X.get i + d i) with hj
    simp only [Spec.jerkTrajectory, Spec.cubic, abs_le] at h1 h2
    linarith [h1.2, h2.1]

/-! ### The hypotheses are met -/

/-- `zExampleHistory` with a sampling period above `EPS`, symmetric polygons and a base with mass meets the hypotheses
of the theorems on C75 and C76, with all constraints in use. -/
example (o : Oracle ℚ) (tr : Trig ℚ) (cx cy : ℚ) : ∃ w, ZebReaches o tr cx cy zExampleHistory w ∧
    (zebSettingsOf cx cy zExampleHistory).RefsCurrent ∧ EPS < (zebSettingsOf cx cy zExampleHistory).period ∧
    (zebSettingsOf cx cy zExampleHistory).config = ⟨true, true, true, true⟩ ∧
    1 < (zebSettingsOf cx cy zExampleHistory).nbSamples ∧
    Spec.CentrallySymmetric (zebSettingsOf cx cy zExampleHistory).comPolygon ∧
    Spec.CentrallySymmetric (zebSettingsOf cx cy zExampleHistory).copPolygon ∧
    EPS < (zebSettingsOf cx cy zExampleHistory).baseMass := by
  obtain ⟨w, hw⟩ := C54_no_fault_partial o tr cx cy zExampleHistory (zExample_legal cx cy).1 (zExample_legal cx cy).2
  have hs : Spec.CentrallySymmetric (⟨4, fun i => [⟨1, 1⟩, ⟨-1, 1⟩, ⟨-1, -1⟩, ⟨1, -1⟩].getD i ⟨0, 0⟩⟩ : Vec (Pt ℚ)) := by
    intro X
    constructor <;>
    · intro h
      have h0 := h 0 (by norm_num); have h1 := h 1 (by norm_num); have h2 := h 2 (by norm_num)
      have h3 := h 3 (by norm_num)
      norm_num [Spec.InnerSide, Spec.Pt.reflect] at h0 h1 h2 h3
      intro i hi
      have hi : i < 4 := hi
      interval_cases i <;> norm_num [Spec.InnerSide, Spec.Pt.reflect] <;> linarith
  exact ⟨w, hw, ⟨rfl, rfl, rfl⟩, by show EPS < (1 / 10 : ℚ); norm_num [EPS], rfl, by show 1 < 2; norm_num, hs, hs,
    by show EPS < (16 : ℚ); norm_num [EPS]⟩

def zMovingHistory : List (ZebCall ℚ) :=
  [.setJerkLimit 2, .setConfig ⟨false, false, true, false⟩, .setBaseX (Vec.const 3 (1 / 2))]

/-- The hypotheses of `C77_recursive_partial` are met, from a moving base and for any solver. -/
example (o : Oracle ℚ) : ∃ (cs : List (ZebCall ℚ)) (w : Zeb ℚ), ZebReaches o trigZero 0 0 cs w ∧
    (zebSettingsOf 0 0 cs).RefsCurrent ∧ (zebSettingsOf 0 0 cs).config = ⟨false, false, true, false⟩ ∧
    2 * (zebSettingsOf 0 0 cs).accLimit ≤ (zebSettingsOf 0 0 cs).jerkLimit * (zebSettingsOf 0 0 cs).period ∧
    (zebSettingsOf 0 0 cs).BaseWithin w.state ∧ 0 < w.state.bx.v ∧
    ∀ c ∈ [.setPosRef (Vec.const 2 5), .solve 1, .solve 1, .setWeightings ⟨0, 1, 0, 0, 1, 0, 0⟩, .solve 1],
      Spec.ZebTracking (zebSettingsOf 0 0 cs) c := by
  have h : okAnd (fun w : Zeb ℚ => decide ((|w.base.x.v| ≤ 1 ∧ |w.base.y.v| ≤ 1 ∧ |w.base.x.a| ≤ 1 ∧ |w.base.y.a| ≤ 1) ∧
        0 < w.base.x.v))
      (do Zeb.run (fun _ _ _ => (true, fun _ => 0)) trigZero (← Zeb.make trigZero (some 0, some 0)) zMovingHistory)
      = true := by
    decide +kernel
  obtain ⟨w, e, hw⟩ := okAnd_true h
  rw [zReaches_setters _ _ (by decide) o] at e
  rw [decide_eq_true_eq] at hw
  refine ⟨zMovingHistory, w, e, ⟨rfl, rfl, rfl⟩, rfl, by decide +kernel, hw.1, hw.2, ?_⟩
  simp [zMovingHistory, Spec.ZebTracking, zebSettingsOf, Spec.ZebSettings.after, Spec.ZebSettings.apply, Spec.ZebSettings.init, Vec.const]

end MPC
