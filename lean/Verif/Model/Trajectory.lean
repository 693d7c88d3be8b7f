import Verif.Model.Dynamics
import Verif.Model.QP

/-!
# `TrajectoryWalkgen`: `/repo/src/trajectory_walkgen.cpp`, `/repo/src/model/no_dynamic_model.cpp`,
`/repo/src/function/trajectory_*.cpp`

Assertions are enabled (debug build). Assertions of the form `assert(v == v)` (no NaN) always hold in
a field and are omitted.
-/

namespace MPC

variable {K : Type} [Field K] [LinearOrder K]

/-- `NoDynamicModel`, `/repo/mpc-walkgen/model/no_dynamic_model.h:120-135` (`autoCompute_` is `true`
for the default constructor used by `TrajectoryWalkgen`). -/
structure NoDynamicModel (K : Type) where
  nbSamples : ℕ
  samplingPeriod : K
  state : State3 K
  velocityLimit : K
  accelerationLimit : K
  jerkLimit : K
  pos : LinearDynamic K
  vel : LinearDynamic K
  acc : LinearDynamic K
  jerk : LinearDynamic K

/-- `NoDynamicModel::computeDynamics`, `/repo/src/model/no_dynamic_model.cpp:55-90`. -/
def NoDynamicModel.computeDynamics (m : NoDynamicModel K) : Res (NoDynamicModel K) := do
  let pos ← computePosDynamic m.samplingPeriod m.samplingPeriod m.nbSamples
  let vel ← computeVelDynamic m.samplingPeriod m.samplingPeriod m.nbSamples
  let acc ← computeAccDynamic m.samplingPeriod m.samplingPeriod m.nbSamples
  pure { m with pos := pos, vel := vel, acc := acc, jerk := computeJerkDynamic m.nbSamples }

/-- An empty dynamic: default constructed members of `LinearDynamic`. -/
def LinearDynamic.empty : LinearDynamic K :=
  { U := Mat.zero 0 0, UT := Mat.zero 0 0, Uinv := some (Mat.zero 0 0), UTinv := some (Mat.zero 0 0)
    C := Vec.const 0 0, S := Mat.zero 0 0 }

/-- `NoDynamicModel::NoDynamicModel()`, `/repo/src/model/no_dynamic_model.cpp:36-50`. -/
def NoDynamicModel.make : Res (NoDynamicModel K) :=
  NoDynamicModel.computeDynamics
    { nbSamples := 1, samplingPeriod := 1, state := ⟨0, 0, 0⟩, velocityLimit := 1
      accelerationLimit := 1, jerkLimit := 1, pos := .empty, vel := .empty, acc := .empty
      jerk := .empty }

/-- `NoDynamicModel::setNbSamples`, `/repo/src/model/no_dynamic_model.cpp:92-103`. -/
def NoDynamicModel.setNbSamples (m : NoDynamicModel K) (n : ℕ) : Res (NoDynamicModel K) := do
  require (0 < n)
  NoDynamicModel.computeDynamics { m with nbSamples := n }

/-- `NoDynamicModel::setSamplingPeriod`, `/repo/src/model/no_dynamic_model.cpp:111-122`. -/
def NoDynamicModel.setSamplingPeriod (m : NoDynamicModel K) (T : K) : Res (NoDynamicModel K) := do
  require (0 < T)
  NoDynamicModel.computeDynamics { m with samplingPeriod := T }

/-- `TrajectoryWalkgenWeighting`, `/repo/mpc-walkgen/trajectory_walkgen_type.h:15-28`. -/
structure TrajWeighting (K : Type) where
  velocityTracking : K
  positionTracking : K
  jerkMinimization : K

/-- The tracking objectives (`VelocityTrackingObjective`, `PositionTrackingObjective` have identical
code): reference and Hessian. The buffers `gradient_`, `tmp_` are overwritten before each use. -/
structure TrackingObjective (K : Type) where
  ref : Vec K
  hessian : Mat K

/-- `computeConstantPart` of the tracking objectives,
`/repo/src/function/trajectory_velocity_tracking_objective.cpp:67-77`,
`/repo/src/function/trajectory_position_tracking_objective.cpp:66-76`: `UT * U`. -/
def TrackingObjective.computeConstantPart (t : TrackingObjective K) (dyn : LinearDynamic K) :
    Res (TrackingObjective K) := do
  let h ← dyn.UT.mul? dyn.U
  pure { t with hessian := h }

/-- `getGradient` of the tracking objectives,
`/repo/src/function/trajectory_velocity_tracking_objective.cpp:32-50`,
`/repo/src/function/trajectory_position_tracking_objective.cpp:32-48`. The result is an `N×1` matrix
(here a vector). -/
def TrackingObjective.getGradient (t : TrackingObjective K) (m : NoDynamicModel K)
    (dyn : LinearDynamic K) (x0 : Vec K) : Res (Vec K) := do
  require (t.ref.size = x0.size)
  require (t.ref.size = m.nbSamples)
  let g ← t.hessian.mulVec? x0
  let tmp ← dyn.S.mulVec? m.state.toVec
  let tmp ← tmp.sub? t.ref
  g.add? (← dyn.UT.mulVec? tmp)

/-- `TrajectoryJerkMinimizationObjective::getGradient`,
`/repo/src/function/trajectory_jerk_minimization_objective.cpp:29-36`: returns `x0`. -/
def jerkGetGradient (m : NoDynamicModel K) (x0 : Vec K) : Res (Vec K) := do
  require (m.nbSamples = x0.size)
  pure x0

/-- `MotionConstraint`: gradient and sizes of the two scratch vectors
(`/repo/mpc-walkgen/function/trajectory_motion_constraint.h`). -/
structure MotionConstraint (K : Type) where
  gradient : Mat K
  tmpSize : ℕ

/-- `MotionConstraint::getNbConstraints`,
`/repo/src/function/trajectory_motion_constraint.cpp:84-88`. -/
def MotionConstraint.nb (m : NoDynamicModel K) : ℕ := m.nbSamples * 2

/-- `MotionConstraint::computeConstantPart`,
`/repo/src/function/trajectory_motion_constraint.cpp:90-105`. -/
def MotionConstraint.compute (m : NoDynamicModel K) : Res (MotionConstraint K) := do
  let N := m.nbSamples
  let g := Mat.zero (MotionConstraint.nb m) N
  let g ← g.setBlock? 0 0 N N m.vel.U
  let g ← g.setBlock? N 0 N N m.acc.U
  pure ⟨g, N⟩

/-- `MotionConstraint::computeFunction`,
`/repo/src/function/trajectory_motion_constraint.cpp:58-76`. -/
def MotionConstraint.computeFunction (c : MotionConstraint K) (m : NoDynamicModel K) (x0 : Vec K)
    (velLimit accLimit : K) : Res (Vec K) := do
  let N := m.nbSamples
  let func ← (Mat.neg c.gradient).mulVec? x0
  let s ← (← func.segment? 0 N).add? (Vec.const c.tmpSize velLimit)
  let func ← func.setSegment? 0 N s
  let s ← (← func.segment? 0 N).sub? (← m.vel.S.mulVec? m.state.toVec)
  let func ← func.setSegment? 0 N s
  let s ← (← func.segment? N N).add? (Vec.const c.tmpSize accLimit)
  let func ← func.setSegment? N N s
  let s ← (← func.segment? N N).sub? (← m.acc.S.mulVec? m.state.toVec)
  func.setSegment? N N s

/-- `MotionConstraint::getFunctionInf`,
`/repo/src/function/trajectory_motion_constraint.cpp:32-43`. -/
def MotionConstraint.getFunctionInf (c : MotionConstraint K) (m : NoDynamicModel K) (x0 : Vec K) :
    Res (Vec K) := do
  require (m.nbSamples = x0.size)
  c.computeFunction m x0 (-m.velocityLimit) (-m.accelerationLimit)

/-- `MotionConstraint::getFunctionSup`,
`/repo/src/function/trajectory_motion_constraint.cpp:45-56`. -/
def MotionConstraint.getFunctionSup (c : MotionConstraint K) (m : NoDynamicModel K) (x0 : Vec K) :
    Res (Vec K) := do
  require (m.nbSamples = x0.size)
  c.computeFunction m x0 m.velocityLimit m.accelerationLimit

/-- `TrajectoryWalkgen`, `/repo/mpc-walkgen/trajectory_walkgen.h:71-88`. -/
structure TrajWalkgen (K : Type) where
  solver : SolverState K
  model : NoDynamicModel K
  jerkHessian : Mat K
  velObj : TrackingObjective K
  posObj : TrackingObjective K
  motion : MotionConstraint K
  weighting : TrajWeighting K
  withMotionConstraints : Bool
  dX : Vec K
  X : Vec K
  qp : QPMatrices K

/-- `if (w>0.0) Q += w*H`. -/
def accumMat (w : K) (H Q : Mat K) : Res (Mat K) :=
  if 0 < w then Q.add? (Mat.smul w H) else pure Q

/-- `if (w>0.0) p += w*g` where `g` is computed only if needed. -/
def accumVec (w : K) (g : Res (Vec K)) (p : Vec K) : Res (Vec K) :=
  if 0 < w then do p.add? (Vec.smul w (← g)) else pure p

/-- `TrajectoryWalkgen::computeConstantPart`, `/repo/src/trajectory_walkgen.cpp:227-276`. The new
solver keeps numbering the calls to the oracle, so that the oracle can answer differently. -/
def TrajWalkgen.computeConstantPart (w : TrajWalkgen K) : Res (TrajWalkgen K) := do
  let N := w.model.nbSamples
  let M := if w.withMotionConstraints then MotionConstraint.nb w.model else 0
  require (w.velObj.hessian.rows = N)
  require (w.velObj.hessian.cols = N)
  require (w.posObj.hessian.rows = N)
  require (w.posObj.hessian.cols = N)
  require (w.jerkHessian.rows = N)
  require (w.jerkHessian.cols = N)
  if w.withMotionConstraints then do
    require (w.motion.gradient.cols = N)
    require (w.motion.gradient.rows = M)
  let Q := Mat.zero N N
  let Q ← accumMat w.weighting.velocityTracking w.velObj.hessian Q
  let Q ← accumMat w.weighting.positionTracking w.posObj.hessian Q
  let Q ← accumMat w.weighting.jerkMinimization w.jerkHessian Q
  let A := Mat.zero M N
  let A ← if w.withMotionConstraints then A.setBlock? 0 0 M N w.motion.gradient else pure A
  pure { w with
    solver := { SolverState.make N M with calls := w.solver.calls }
    qp := { Q := Q, p := Vec.const N 0, A := A, bl := Vec.const M 0, bu := Vec.const M 0
            xl := Vec.const N 0, xu := Vec.const N 0 } }

/-- The four `computeConstantPart` calls of `/repo/src/trajectory_walkgen.cpp:43-46` and `58-61`. -/
def TrajWalkgen.refreshFunctions (w : TrajWalkgen K) : Res (TrajWalkgen K) := do
  let velObj ← w.velObj.computeConstantPart w.model.vel
  let posObj ← w.posObj.computeConstantPart w.model.pos
  let motion ← MotionConstraint.compute w.model
  pure { w with jerkHessian := Mat.one w.model.nbSamples, velObj := velObj, posObj := posObj
                motion := motion }

/-- `TrajectoryWalkgen::TrajectoryWalkgen`, `/repo/src/trajectory_walkgen.cpp:16-28`, with the
constructors of its members (references are zero vectors of the initial number of samples). -/
def TrajWalkgen.make : Res (TrajWalkgen K) := do
  let model ← NoDynamicModel.make
  let w : TrajWalkgen K :=
    { solver := SolverState.make 1 1
      model := model
      jerkHessian := Mat.zero 1 1
      velObj := ⟨Vec.const model.nbSamples 0, Mat.zero 1 1⟩
      posObj := ⟨Vec.const model.nbSamples 0, Mat.zero 1 1⟩
      motion := ⟨Mat.zero 1 1, 1⟩
      weighting := ⟨0, 0, 0⟩
      withMotionConstraints := false
      dX := Vec.const model.nbSamples 0
      X := Vec.const model.nbSamples 0
      qp := ⟨Mat.zero 0 0, Vec.const 0 0, Vec.const 0 0, Vec.const 0 0, Mat.zero 0 0, Vec.const 0 0,
        Vec.const 0 0⟩ }
  let w ← w.refreshFunctions
  w.computeConstantPart

/-- Calls of the public interface (`/repo/mpc-walkgen/trajectory_walkgen.h:45-66`). -/
inductive TrajCall (K : Type)
  | setNbSamples (n : ℕ)
  | setSamplingPeriod (T : K)
  | setVelRef (v : Vec K)
  | setPosRef (v : Vec K)
  | setVelLimit (l : K)
  | setAccLimit (l : K)
  | setJerkLimit (l : K)
  | setState (v : Vec K)
  | setWeightings (w : TrajWeighting K)
  | setConfig (withMotionConstraints : Bool)
  | solve (feedBackPeriod : K)

/-- First part of `TrajectoryWalkgen::solve`, `/repo/src/trajectory_walkgen.cpp:140-187`: fills the
vectors of the QP. -/
def TrajWalkgen.prepare (w : TrajWalkgen K) (fb : K) : Res (QPMatrices K) := do
  let N := w.model.nbSamples
  let M := if w.withMotionConstraints then MotionConstraint.nb w.model else 0
  require ((← w.velObj.getGradient w.model w.model.vel w.X).size = N)
  require ((← w.posObj.getGradient w.model w.model.pos w.X).size = N)
  require ((← jerkGetGradient w.model w.X).size = N)
  if w.withMotionConstraints then do
    require ((← w.motion.getFunctionInf w.model w.X).size = M)
    require ((← w.motion.getFunctionSup w.model w.X).size = M)
  require (0 < fb)
  let p := w.qp.p.fill 0
  let bu := w.qp.bu.fill MAXBOUND
  let bl := w.qp.bl.fill (-MAXBOUND)
  let xu := w.qp.xu.fill MAXBOUND
  let xl := w.qp.xl.fill (-MAXBOUND)
  let p ← accumVec w.weighting.velocityTracking
    (w.velObj.getGradient w.model w.model.vel w.X) p
  let p ← accumVec w.weighting.positionTracking
    (w.posObj.getGradient w.model w.model.pos w.X) p
  let p ← accumVec w.weighting.jerkMinimization (jerkGetGradient w.model w.X) p
  if w.withMotionConstraints then do
    let bl ← bl.setSegment? 0 M (← w.motion.getFunctionInf w.model w.X)
    let bu ← bu.setSegment? 0 M (← w.motion.getFunctionSup w.model w.X)
    let xu ← (xu.fill w.model.jerkLimit).sub? w.X
    let xl ← (xl.fill (-w.model.jerkLimit)).sub? w.X
    pure { w.qp with p := p, bl := bl, bu := bu, xu := xu, xl := xl }
  else
    pure { w.qp with p := p, bl := bl, bu := bu, xu := xu, xl := xl }

/-- `TrajectoryWalkgen::solve`, `/repo/src/trajectory_walkgen.cpp:137-212` (the debug print of
194-204 is omitted). The solver is called with warm start and without output stream. -/
def TrajWalkgen.solve (o : Oracle K) (w : TrajWalkgen K) (fb : K) : Res (Bool × TrajWalkgen K) := do
  let qp ← w.prepare fb
  let (found, dX, solver) ← solverSolve o w.solver qp 10000 w.dX true false
  let X ← w.X.add? dX
  let state ← updateState (← X.at? 0) fb w.model.state
  pure (found, { w with qp := qp, solver := solver, dX := dX, X := X
                        model := { w.model with state := state } })

/-- One call of the public interface, `/repo/src/trajectory_walkgen.cpp:33-212`. The second component
is the value returned by `solve` (`true` for the setters). -/
def TrajWalkgen.step (o : Oracle K) (w : TrajWalkgen K) : TrajCall K → Res (Bool × TrajWalkgen K)
  | .setNbSamples n => do
    require (0 < n)
    let model ← w.model.setNbSamples n
    let w ← TrajWalkgen.refreshFunctions
      { w with model := model, dX := Vec.const n 0, X := Vec.const n 0 }
    pure (true, ← w.computeConstantPart)
  | .setSamplingPeriod T => do
    require (0 < T)
    let model ← w.model.setSamplingPeriod T
    let w ← TrajWalkgen.refreshFunctions { w with model := model }
    pure (true, ← w.computeConstantPart)
  | .setVelRef v => do
    require (v.size = w.model.nbSamples)
    pure (true, { w with velObj := { w.velObj with ref := v } })
  | .setPosRef v => do
    require (v.size = w.model.nbSamples)
    pure (true, { w with posObj := { w.posObj with ref := v } })
  | .setVelLimit l => do
    require (0 ≤ l)
    pure (true, { w with model := { w.model with velocityLimit := l } })
  | .setAccLimit l => do
    require (0 ≤ l)
    pure (true, { w with model := { w.model with accelerationLimit := l } })
  | .setJerkLimit l => do
    require (0 ≤ l)
    pure (true, { w with model := { w.model with jerkLimit := l } })
  | .setState v => do
    require (v.size = 3)
    pure (true, { w with model := { w.model with state := ⟨v.get 0, v.get 1, v.get 2⟩ } })
  | .setWeightings wt => do
    require (0 ≤ wt.velocityTracking)
    require (0 ≤ wt.velocityTracking)
    require (0 ≤ wt.jerkMinimization)
    pure (true, ← TrajWalkgen.computeConstantPart { w with weighting := wt })
  | .setConfig b => do
    pure (true, ← TrajWalkgen.computeConstantPart { w with withMotionConstraints := b })
  | .solve fb => w.solve o fb

/-- A sequence of calls; stops at the first fault. -/
def TrajWalkgen.run (o : Oracle K) : TrajWalkgen K → List (TrajCall K) → Res (TrajWalkgen K)
  | w, [] => .ok w
  | w, c :: cs => do
    let (_, w') ← w.step o c
    TrajWalkgen.run o w' cs

/-- `getState`, `/repo/src/trajectory_walkgen.cpp:215-219`. -/
def TrajWalkgen.getState (w : TrajWalkgen K) : State3 K := w.model.state

/-- `getJerk`, `/repo/src/trajectory_walkgen.cpp:221-225`. -/
def TrajWalkgen.getJerk (w : TrajWalkgen K) : Res K := w.X.at? 0

end MPC
