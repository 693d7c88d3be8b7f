import Verif.Model.Lip
import Verif.Model.Polygon
import Verif.Model.QP

/-!
# `ZebulonWalkgen`: `/repo/src/zebulon_walkgen.cpp`, `/repo/src/model/zebulon_base_model.cpp`,
`/repo/src/function/zebulon_*.cpp`

Assertions are enabled. `assert(v == v)` (no NaN) always holds in a field and is omitted. Of a
`ConvexPolygon` only the vertices are used by these files, so a polygon is its list of vertices. Buffers
that are entirely overwritten before each use (`gradient_`, `function_`, `tmp_`, `copRef_`, `B_`) are
local; buffers whose size matters are kept as sizes. `std::sin` and `std::cos` are arbitrary functions
(`Trig`). The trace printed when no solution is found is omitted.
-/

namespace MPC

variable {K : Type} [Field K] [LinearOrder K]

/-! ### Small Eigen helpers -/

/-- `v.segment(s, l) += w`. -/
def Vec.incSegment? (v : Vec K) (s l : ℕ) (w : Vec K) : Res (Vec K) := do
  requireIndex (s + l ≤ v.size)
  requireSize (w.size = l)
  pure ⟨v.size, fun i => if s ≤ i ∧ i < s + l then v.get i + w.get (i - s) else v.get i⟩

/-- `v.segment(s, l) -= w`. -/
def Vec.decSegment? (v : Vec K) (s l : ℕ) (w : Vec K) : Res (Vec K) := do
  requireIndex (s + l ≤ v.size)
  requireSize (w.size = l)
  pure ⟨v.size, fun i => if s ≤ i ∧ i < s + l then v.get i - w.get (i - s) else v.get i⟩

/-- `A.block(r, c, h, w) += B`. -/
def Mat.incBlock? (A : Mat K) (r c h w : ℕ) (B : Mat K) : Res (Mat K) := do
  requireIndex (r + h ≤ A.rows ∧ c + w ≤ A.cols)
  requireSize (B.rows = h ∧ B.cols = w)
  pure ⟨A.rows, A.cols, fun i j =>
    if (r ≤ i ∧ i < r + h) ∧ (c ≤ j ∧ j < c + w) then A.get i j + B.get (i - r) (j - c)
    else A.get i j⟩

/-- The value read from an inverse that may be unspecified. -/
def readInv (A : Option (Mat K)) : Res (Mat K) :=
  match A with
  | some B => pure B
  | none => .error .unspecified

/-- Reading a scalar member; `none` is a member that was never written. -/
def readInit (a : Option K) : Res K :=
  match a with
  | some x => pure x
  | none => .error .unspecified

/-- `std::sin` and `std::cos`. -/
structure Trig (K : Type) where
  sin : K → K
  cos : K → K

/-! ### `BaseModel` -/

/-- `BaseModel`, `/repo/mpc-walkgen/model/zebulon_base_model.h:264-300`. -/
structure Base (K : Type) where
  auto : Bool
  N : ℕ
  T : K
  x : State3 K
  y : State3 K
  roll : State3 K
  pitch : State3 K
  yaw : State3 K
  comHeight : K
  gx : K
  gy : K
  gz : K
  mass : K
  totalMass : K
  velLimit : K
  accLimit : K
  jerkLimit : K
  dbx : Option K
  dby : Option K
  pos : LinearDynamic K
  vel : LinearDynamic K
  acc : LinearDynamic K
  jerk : LinearDynamic K
  copX : LinearDynamic K
  copY : LinearDynamic K
  tilt : LinearDynamic K
  tiltVel : LinearDynamic K
  copPoly : Vec (Pt K)
  comPoly : Vec (Pt K)

/-- `computeCopXDynamic`, `/repo/src/model/zebulon_base_model.cpp:100-108`. -/
def Base.computeCopX (b : Base K) : Res (Base K) := do
  let d ← computeCopDynamic b.T b.T b.N b.comHeight b.gx b.gz b.mass b.totalMass
  pure { b with copX := d }

/-- `computeCopYDynamic`, `/repo/src/model/zebulon_base_model.cpp:110-118`. -/
def Base.computeCopY (b : Base K) : Res (Base K) := do
  let d ← computeCopDynamic b.T b.T b.N b.comHeight b.gy b.gz b.mass b.totalMass
  pure { b with copY := d }

/-- `computeTiltDynamic`, `/repo/src/model/zebulon_base_model.cpp:91-98`. -/
def Base.computeTilt (b : Base K) : Res (Base K) := do
  let p ← computeOrder2PosDynamic b.T b.T b.N
  let v ← computeOrder2VelDynamic b.T b.T b.N
  pure { b with tilt := p, tiltVel := v }

/-- `computeDynamics`, `/repo/src/model/zebulon_base_model.cpp:78-88`. -/
def Base.computeDynamics (b : Base K) : Res (Base K) := do
  let pos ← computePosDynamic b.T b.T b.N
  let vel ← computeVelDynamic b.T b.T b.N
  let acc ← computeAccDynamic b.T b.T b.N
  require (0 < b.N)
  let b := { b with pos := pos, vel := vel, acc := acc, jerk := computeJerkDynamic b.N }
  let b ← b.computeCopX
  let b ← b.computeCopY
  b.computeTilt

/-- `if (autoCompute_) computeDynamics()`. -/
def Base.refresh (b : Base K) : Res (Base K) :=
  if b.auto then b.computeDynamics else pure b

/-- `if (autoCompute_) { computeCopXDynamic(); computeCopYDynamic(); }`. -/
def Base.refreshCop (b : Base K) : Res (Base K) :=
  if b.auto then do
    let b ← b.computeCopX
    b.computeCopY
  else pure b

/-- The members before the constructors call `computeDynamics`. `dbx`, `dby` are the contents of
`tiltContactPointX_` and `tiltContactPointY_`. -/
def Base.raw (N : ℕ) (T : K) (auto : Bool) (dbx dby : Option K) : Base K :=
  { auto := auto, N := N, T := T, x := ⟨0, 0, 0⟩, y := ⟨0, 0, 0⟩, roll := ⟨0, 0, 0⟩, pitch := ⟨0, 0, 0⟩
    yaw := ⟨0, 0, 0⟩, comHeight := 0, gx := 0, gy := 0, gz := GRAVITY_NORM, mass := 0, totalMass := 1
    velLimit := 1, accLimit := 1, jerkLimit := 1, dbx := dbx, dby := dby, pos := .empty, vel := .empty
    acc := .empty, jerk := .empty, copX := .empty, copY := .empty, tilt := .empty, tiltVel := .empty
    copPoly := ⟨0, fun _ => ⟨0, 0⟩⟩, comPoly := ⟨0, fun _ => ⟨0, 0⟩⟩ }

/-- `BaseModel::BaseModel(int, Scalar, bool)`, `/repo/src/model/zebulon_base_model.cpp:16-47`. -/
def Base.make (N : ℕ) (T : K) (auto : Bool) : Res (Base K) := do
  require (0 < T)
  require (0 < N)
  Base.refresh (Base.raw N T auto (some 0) (some 0))

/-- `BaseModel::BaseModel()`, `/repo/src/model/zebulon_base_model.cpp:49-73`: it does not initialise the
tilt contact point. `mem` is the content of the memory: `none` marks bytes that must not be read,
`some x` bytes that happen to hold `x`. -/
def Base.makeDefault (mem : Option K × Option K) : Res (Base K) :=
  Base.refresh (Base.raw 1 1 true mem.1 mem.2)

/-- `setNbSamples`, `/repo/src/model/zebulon_base_model.cpp:148-159`. -/
def Base.setNbSamples (b : Base K) (n : ℕ) : Res (Base K) := do
  require (0 < n)
  Base.refresh { b with N := n }

/-- `setSamplingPeriod`, `/repo/src/model/zebulon_base_model.cpp:173-184`. -/
def Base.setSamplingPeriod (b : Base K) (T : K) : Res (Base K) := do
  require (0 < T)
  Base.refresh { b with T := T }

/-- `setComHeight`, `/repo/src/model/zebulon_base_model.cpp:186-198`. -/
def Base.setComHeight (b : Base K) (h : K) : Res (Base K) :=
  Base.refreshCop { b with comHeight := h }

/-- `setGravity`, `/repo/src/model/zebulon_base_model.cpp:200-213`: the assertion reads the old gravity. -/
def Base.setGravity (b : Base K) (gx gy gz : K) : Res (Base K) := do
  require (EPS < |b.gz|)
  Base.refreshCop { b with gx := gx, gy := gy, gz := gz }

/-- `setMass`, `/repo/src/model/zebulon_base_model.cpp:215-228`. -/
def Base.setMass (b : Base K) (m : K) : Res (Base K) := do
  require (0 < m)
  Base.refreshCop { b with mass := m }

/-- `setTotalMass`, `/repo/src/model/zebulon_base_model.cpp:230-243`. -/
def Base.setTotalMass (b : Base K) (m : K) : Res (Base K) := do
  require (b.mass ≤ m)
  require (0 < m)
  Base.refreshCop { b with totalMass := m }

/-- `updateStateX`, `/repo/src/model/zebulon_base_model.cpp:161-165`. -/
def Base.updateStateX (b : Base K) (jerk fb : K) : Res (Base K) := do
  let x ← updateState jerk fb b.x
  pure { b with x := x }

/-- `updateStateY`, `/repo/src/model/zebulon_base_model.cpp:167-171`. -/
def Base.updateStateY (b : Base K) (jerk fb : K) : Res (Base K) := do
  let y ← updateState jerk fb b.y
  pure { b with y := y }

/-- The argument of the state setters, `/repo/mpc-walkgen/model/zebulon_base_model.h:85-148`. -/
def stateArg (v : Vec K) : Res (State3 K) := do
  require (v.size = 3)
  pure ⟨v.get 0, v.get 1, v.get 2⟩

/-- The getters without index of `LIPModel`, `/repo/mpc-walkgen/model/lip_model.h:49-67`:
`vec[nbFeedbackInOneSample_ - 1]`. -/
def Lip.last (l : Lip K) (v : Vec (LinearDynamic K)) : Res (LinearDynamic K) := do
  requireIndex (0 < l.nbFb)
  v.at? (l.nbFb - 1)

/-- `assert(baseModel_.getNbSamples() == lipModel_.getNbSamples())` and
`assert(baseModel_.getSamplingPeriod() == lipModel_.getSamplingPeriod())`, which start most functions. -/
def requireSame (l : Lip K) (b : Base K) : Res Unit := do
  require (b.N = l.N)
  require (b.T = l.T)

/-! ### Objectives on the base only -/

/-- `BaseVelocityTrackingObjective` and `BasePositionTrackingObjective` (identical code up to the
dynamics): reference and Hessian. -/
structure ZTrack (K : Type) where
  ref : Vec K
  hessian : Mat K

/-- `computeConstantPart`, `/repo/src/function/zebulon_base_velocity_tracking_objective.cpp:74-87`,
`/repo/src/function/zebulon_base_position_tracking_objective.cpp:73-87`. `resize` leaves unspecified
entries, all of which are then assigned: it is modelled by a zero matrix. -/
def ZTrack.compute (b : Base K) (dyn : LinearDynamic K) : Res (Mat K) := do
  let N := b.N
  let h := Mat.zero (2 * N) (2 * N)
  let h ← h.setBlock? 0 0 N N (← dyn.UT.mul? dyn.U)
  let h ← h.setBlock? N N N N (← dyn.UT.mul? dyn.U)
  let h ← h.setBlock? 0 N N N (Mat.zero N N)
  h.setBlock? N 0 N N (Mat.zero N N)

/-- `getGradient`, `/repo/src/function/zebulon_base_velocity_tracking_objective.cpp:33-57`,
`/repo/src/function/zebulon_base_position_tracking_objective.cpp:33-55`. -/
def ZTrack.getGradient (t : ZTrack K) (b : Base K) (dyn : LinearDynamic K) (x0 : Vec K) :
    Res (Vec K) := do
  require (t.ref.size = x0.size)
  require (t.ref.size = b.N * 2)
  let N := b.N
  let g ← t.hessian.mulVec? x0
  let tmp ← (← dyn.S.mulVec? b.x.toVec).sub? (← t.ref.segment? 0 N)
  let g ← g.incSegment? 0 N (← dyn.UT.mulVec? tmp)
  let tmp ← (← dyn.S.mulVec? b.y.toVec).sub? (← t.ref.segment? N N)
  g.incSegment? N N (← dyn.UT.mulVec? tmp)

/-! ### Objectives on CoM and base -/

/-- The eight block assignments shared by the Hessians of
`/repo/src/function/zebulon_com_centering_objective.cpp:149-160`,
`/repo/src/function/zebulon_cop_centering_objective.cpp:195-227`,
`/repo/src/function/zebulon_tilt_minimization_objective.cpp:165-176`,
`/repo/src/function/zebulon_tilt_velocity_minimization_objective.cpp:170-181`, in the order of the
code. -/
def hessian8 (N : ℕ) (h00 h11 h22 h33 h20 h31 h02 h13 : Res (Mat K)) : Res (Mat K) := do
  let h := Mat.zero (4 * N) (4 * N)
  let h ← h.setBlock? 0 0 N N (← h00)
  let h ← h.setBlock? N N N N (← h11)
  let h ← h.setBlock? (2 * N) (2 * N) N N (← h22)
  let h ← h.setBlock? (3 * N) (3 * N) N N (← h33)
  let h ← h.setBlock? (2 * N) 0 N N (← h20)
  let h ← h.setBlock? (3 * N) N N N (← h31)
  let h ← h.setBlock? 0 (2 * N) N N (← h02)
  h.setBlock? N (3 * N) N N (← h13)

/-- The four `gradient_.block(k*N, 0, N, 1) += …` that end the gradients of these objectives. -/
def gradient4 (N : ℕ) (g : Vec K) (g0 g1 g2 g3 : Res (Vec K)) : Res (Vec K) := do
  let g ← g.incSegment? 0 N (← g0)
  let g ← g.incSegment? N N (← g1)
  let g ← g.incSegment? (2 * N) N (← g2)
  g.incSegment? (3 * N) N (← g3)

/-- `JerkMinimizationObjective::computeConstantPart`,
`/repo/src/function/zebulon_jerk_minimization_objective.cpp:53-61`. -/
def zJerkCompute (l : Lip K) (b : Base K) : Res (Mat K) := do
  requireSame l b
  pure (Mat.one (b.N * 4))

/-- `JerkMinimizationObjective::getGradient`,
`/repo/src/function/zebulon_jerk_minimization_objective.cpp:34-42`. -/
def zJerkGradient (l : Lip K) (b : Base K) (x0 : Vec K) : Res (Vec K) := do
  require (b.N * 4 = x0.size)
  require (b.N = l.N)
  pure x0

/-- `TiltMinimizationObjective` and `TiltVelMinimizationObjective`,
`/repo/mpc-walkgen/function/zebulon_tilt_minimization_objective.h:45-60`. -/
structure Tilt (K : Type) where
  uInv : Mat K
  psiXK : Vec K
  psiYK : Vec K
  psiXS : Mat K
  psiYS : Mat K
  cU : Mat K
  cUT : Mat K
  cS : Mat K
  bU : Mat K
  bUT : Mat K
  bS : Mat K
  hessian : Mat K

/-- `-uInv_*tmp` with `tmp` filled by `M*g*db`,
`/repo/src/function/zebulon_tilt_minimization_objective.cpp:82-89` and `147-153`. -/
def tiltContact (b : Base K) (uInv : Mat K) (db : K) : Res (Vec K) :=
  uInv.neg.mulVec? (Vec.const b.N (b.mass * GRAVITY_NORM * db))

/-- `A1 = g*(m*h+M*L)`, line 121. -/
def tiltA1 (l : Lip K) (b : Base K) : K := GRAVITY_NORM * (l.mass * l.comHeight + b.mass * b.comHeight)

/-- `A6 = m*h*h+M*L*L`, line 127. -/
def tiltA6 (l : Lip K) (b : Base K) : K :=
  l.mass * l.comHeight * l.comHeight + b.mass * b.comHeight * b.comHeight

/-- `eps` of line 144. -/
def tiltEps : K := 1 / 1000000000000000

/-- The end of `computeConstantPart`, from the inverse `uInv_` and the matrix `dynPsi.S`,
`/repo/src/function/zebulon_tilt_minimization_objective.cpp:146-176`,
`/repo/src/function/zebulon_tilt_velocity_minimization_objective.cpp:148-181`. -/
def Tilt.assemble (l : Lip K) (b : Base K) (uInv psiS : Mat K) : Res (Tilt K) := do
  let N := b.N
  let A2 := l.mass * GRAVITY_NORM
  let A4 := l.mass * l.comHeight
  let A5 := b.mass * b.comHeight
  let dbx ← readInit b.dbx
  let dby ← readInit b.dby
  let comPos ← l.last l.pos
  let comAcc ← l.last l.acc
  let psiXK ← tiltContact b uInv dbx
  let psiYK ← tiltContact b uInv dby
  let cU ← uInv.mul? (← (comAcc.U.smul (-A5)).add? (comPos.U.smul A2))
  let cS ← uInv.mul? (← (comAcc.S.smul (-A5)).add? (comPos.S.smul A2))
  let bU ← uInv.mul? (← (b.acc.U.smul (-A4)).sub? (b.pos.U.smul A2))
  let bS ← uInv.mul? (← (b.acc.S.smul (-A4)).sub? (b.pos.S.smul A2))
  let cUT := cU.transpose
  let bUT := bU.transpose
  let h ← hessian8 N (cUT.mul? cU) (cUT.mul? cU) (bUT.mul? bU) (bUT.mul? bU) (bUT.mul? cU)
    (bUT.mul? cU) (cUT.mul? bU) (cUT.mul? bU)
  pure { uInv := uInv, psiXK := psiXK, psiYK := psiYK, psiXS := psiS, psiYS := psiS, cU := cU
         cUT := cUT, cS := cS, bU := bU, bUT := bUT, bS := bS, hessian := h }

/-- `TiltMinimizationObjective::computeConstantPart`,
`/repo/src/function/zebulon_tilt_minimization_objective.cpp:106-177`. -/
def Tilt.compute (l : Lip K) (b : Base K) : Res (Tilt K) := do
  requireSame l b
  let pInv ← readInv b.tilt.Uinv
  let angS ← pInv.neg.mul? b.tilt.S
  let U ← ((Mat.one b.N).smul (tiltA1 l b)).sub? (pInv.smul (tiltA6 l b))
  let uInv ← readInv (inverseLU U tiltEps)
  let psiS ← (uInv.smul (tiltA6 l b)).mul? angS
  Tilt.assemble l b uInv psiS

/-- `TiltVelMinimizationObjective::computeConstantPart`,
`/repo/src/function/zebulon_tilt_velocity_minimization_objective.cpp:106-182`. -/
def Tilt.computeVel (l : Lip K) (b : Base K) : Res (Tilt K) := do
  requireSame l b
  let pInv ← readInv b.tilt.Uinv
  let vInv ← readInv b.tiltVel.Uinv
  let angS ← pInv.neg.mul? b.tilt.S
  let U ← (← (b.tilt.U.smul (tiltA1 l b)).mul? vInv).sub?
    (← (← (b.tilt.U.smul (tiltA6 l b)).mul? vInv).mul? pInv)
  let uInv ← readInv (inverseLU U tiltEps)
  let psiS ← (← (← (uInv.smul (tiltA6 l b)).mul? angS).sub?
    (← (← b.tiltVel.U.mul? pInv).mul? b.tilt.S)).add? b.tiltVel.S
  Tilt.assemble l b uInv psiS

/-- `updateTiltContactPoint`, `/repo/src/function/zebulon_tilt_minimization_objective.cpp:70-91`,
`/repo/src/function/zebulon_tilt_velocity_minimization_objective.cpp:70-91`. -/
def Tilt.updateContact (t : Tilt K) (l : Lip K) (b : Base K) : Res (Tilt K) := do
  requireSame l b
  let dbx ← readInit b.dbx
  let dby ← readInit b.dby
  let psiXK ← tiltContact b t.uInv dbx
  let psiYK ← tiltContact b t.uInv dby
  pure { t with psiXK := psiXK, psiYK := psiYK }

/-- `dynC_.S*com + dynB_.S*base + dynPsi_.S*tilt.segment(0, 2) + dynPsi_.K`,
`/repo/src/function/zebulon_tilt_minimization_objective.cpp:47-50`. -/
def Tilt.offset (t : Tilt K) (com base tilt : State3 K) (psiS : Mat K) (psiK : Vec K) :
    Res (Vec K) := do
  let a ← t.cS.mulVec? com.toVec
  let a ← a.add? (← t.bS.mulVec? base.toVec)
  let a ← a.add? (← psiS.mulVec? (← tilt.toVec.segment? 0 2))
  a.add? psiK

/-- `getGradient`, `/repo/src/function/zebulon_tilt_minimization_objective.cpp:36-59`,
`/repo/src/function/zebulon_tilt_velocity_minimization_objective.cpp:36-59`. -/
def Tilt.getGradient (t : Tilt K) (l : Lip K) (b : Base K) (x0 : Vec K) : Res (Vec K) := do
  require (b.N * 4 = x0.size)
  require (b.N = l.N)
  requireSame l b
  let g ← t.hessian.mulVec? x0
  let kx ← t.offset l.x b.x b.roll t.psiXS t.psiXK
  let ky ← t.offset l.y b.y b.pitch t.psiYS t.psiYK
  gradient4 b.N g (t.cUT.mulVec? kx) (t.cUT.mulVec? ky) (t.bUT.mulVec? kx) (t.bUT.mulVec? ky)

/-- `CopCenteringObjective`, `/repo/mpc-walkgen/function/zebulon_cop_centering_objective.h:51-63`:
reference, size of `constantGravity_`, Hessian. -/
structure CopCentering (K : Type) where
  ref : Vec K
  cgSize : ℕ
  hessian : Mat K

/-- `CopCenteringObjective::computeConstantPart`,
`/repo/src/function/zebulon_cop_centering_objective.cpp:183-231`. -/
def CopCentering.compute (c : CopCentering K) (l : Lip K) (b : Base K) : Res (CopCentering K) := do
  requireSame l b
  let N := l.N
  let cx ← l.last l.copX
  let cy ← l.last l.copY
  let p := b.pos
  let h ← if EPS < b.mass then do
      hessian8 N (cx.UT.mul? cx.U) (cy.UT.mul? cy.U)
        (do (← b.copX.UT.sub? p.UT).mul? (← b.copX.U.sub? p.U))
        (do (← b.copY.UT.sub? p.UT).mul? (← b.copY.U.sub? p.U))
        (do (← b.copX.UT.sub? p.UT).mul? cx.U)
        (do (← b.copY.UT.sub? p.UT).mul? cy.U)
        (do cx.UT.mul? (← b.copX.U.sub? p.U))
        (do cy.UT.mul? (← b.copY.U.sub? p.U))
    else
      hessian8 N (cx.UT.mul? cx.U) (cy.UT.mul? cy.U) (p.UT.mul? p.U) (p.UT.mul? p.U)
        (p.UT.neg.mul? cx.U) (p.UT.neg.mul? cy.U) (cx.UT.neg.mul? p.U) (cy.UT.neg.mul? p.U)
  pure { c with hessian := h, cgSize := 2 * N }

/-- The offset `copRef_` of one coordinate,
`/repo/src/function/zebulon_cop_centering_objective.cpp:59-62` (base with a mass) and `91-93`. -/
def copOffset (heavy : Bool) (ref : Vec K) (cd bd p : LinearDynamic K) (com base : State3 K) :
    Res (Vec K) := do
  let a ← ref.neg.add? (← (← cd.S.mulVec? com.toVec).add? cd.C)
  if heavy then
    a.add? (← (← (← bd.S.sub? p.S).mulVec? base.toVec).add? bd.C)
  else
    a.sub? (← p.S.mulVec? base.toVec)

/-- The offset of opposite sign, `/repo/src/function/zebulon_cop_centering_objective.cpp:102-104`. -/
def copOffsetNeg (ref : Vec K) (cd p : LinearDynamic K) (com base : State3 K) : Res (Vec K) := do
  let a ← ref.sub? (← (← cd.S.mulVec? com.toVec).add? cd.C)
  a.add? (← p.S.mulVec? base.toVec)

/-- `CopCenteringObjective::getGradient`,
`/repo/src/function/zebulon_cop_centering_objective.cpp:36-115`. -/
def CopCentering.getGradient (c : CopCentering K) (l : Lip K) (b : Base K) (x0 : Vec K) :
    Res (Vec K) := do
  require (c.ref.size * 2 = x0.size)
  require (c.ref.size = b.N * 2)
  requireSame l b
  let N := l.N
  requireSame l b
  let g ← c.hessian.mulVec? x0
  let cx ← l.last l.copX
  let cy ← l.last l.copY
  let p := b.pos
  let rx ← c.ref.segment? 0 N
  let ry ← c.ref.segment? N N
  if EPS < b.mass then
    gradient4 N g
      (do cx.UT.mulVec? (← copOffset true rx cx b.copX p l.x b.x))
      (do cy.UT.mulVec? (← copOffset true ry cy b.copY p l.y b.y))
      (do (← b.copX.UT.sub? p.UT).mulVec? (← copOffset true rx cx b.copX p l.x b.x))
      (do (← b.copY.UT.sub? p.UT).mulVec? (← copOffset true ry cy b.copY p l.y b.y))
  else
    gradient4 N g
      (do cx.UT.mulVec? (← copOffset false rx cx b.copX p l.x b.x))
      (do cy.UT.mulVec? (← copOffset false ry cy b.copY p l.y b.y))
      (do p.UT.mulVec? (← copOffsetNeg rx cx p l.x b.x))
      (do p.UT.mulVec? (← copOffsetNeg ry cy p l.y b.y))

/-- `CopCenteringObjective::setCopRefInLocalFrame`,
`/repo/src/function/zebulon_cop_centering_objective.cpp:126-135`. -/
def CopCentering.setRef (c : CopCentering K) (l : Lip K) (b : Base K) (v : Vec K) :
    Res (CopCentering K) := do
  require (v.size = l.N * 2)
  requireSame l b
  pure { c with ref := v }

/-- `CopCenteringObjective::setCopRefInWorldFrame`,
`/repo/src/function/zebulon_cop_centering_objective.cpp:137-181`. -/
def CopCentering.setRefWorld (c : CopCentering K) (l : Lip K) (b : Base K)
    (comPos comAcc basePos baseAcc : Vec K) : Res (CopCentering K) := do
  let N := l.N
  require (comPos.size = 2 * N)
  require (comAcc.size = 2 * N)
  require (basePos.size = 2 * N)
  require (baseAcc.size = 2 * N)
  require (b.N = N)
  require (b.T = l.T)
  let cg : Vec K := Vec.const c.cgSize 0
  let cg ← cg.setSegment? 0 N (Vec.const N l.gx)
  let cg ← cg.setSegment? N N (Vec.const N l.gy)
  require (1 / 1000000 < |(b.mass + l.mass) * l.gz|)
  let a ← (basePos.smul (b.mass * l.gz)).sub? (baseAcc.smul (b.mass * b.comHeight))
  let a ← a.add? (comPos.smul (l.mass * l.gz))
  let a ← a.sub? (comAcc.smul (l.mass * l.comHeight))
  let a ← a.add? (cg.smul (b.mass * b.comHeight + l.mass * l.comHeight))
  let r ← (Vec.smul (((b.mass + l.mass) * l.gz)⁻¹) a).sub? basePos
  pure { c with ref := r }

/-- `ComCenteringObjective`, `/repo/mpc-walkgen/function/zebulon_com_centering_objective.h:50-62`. -/
structure ComCentering (K : Type) where
  ref : Vec K
  shift : Vec K
  gravityShift : Vec K
  hessian : Mat K

/-- `ComCenteringObjective::setNbSamples`,
`/repo/src/function/zebulon_com_centering_objective.cpp:39-46`. -/
def ComCentering.setNbSamples (c : ComCentering K) (n : ℕ) : Res (ComCentering K) := do
  require (0 < n)
  pure { c with ref := Vec.const (2 * n) 0, shift := Vec.const (2 * n) 0
                gravityShift := Vec.const (2 * n) 0 }

/-- `ComCenteringObjective::computeConstantPart`,
`/repo/src/function/zebulon_com_centering_objective.cpp:137-163`. -/
def ComCentering.compute (l : Lip K) (b : Base K) : Res (Mat K) := do
  requireSame l b
  let c ← l.last l.pos
  let p := b.pos
  hessian8 l.N (c.UT.mul? c.U) (c.UT.mul? c.U) (p.UT.mul? p.U) (p.UT.mul? p.U)
    (p.UT.neg.mul? c.U) (p.UT.neg.mul? c.U) (c.UT.neg.mul? p.U) (c.UT.neg.mul? p.U)

/-- `tmp_` of lines 66-68 of `/repo/src/function/zebulon_com_centering_objective.cpp`. -/
def comOffset (shift : Vec K) (c p : LinearDynamic K) (com base : State3 K) : Res (Vec K) := do
  (← shift.neg.add? (← c.S.mulVec? com.toVec)).sub? (← p.S.mulVec? base.toVec)

/-- `tmp_` of lines 77-79 of `/repo/src/function/zebulon_com_centering_objective.cpp`. -/
def comOffsetNeg (shift : Vec K) (c p : LinearDynamic K) (com base : State3 K) : Res (Vec K) := do
  (← shift.sub? (← c.S.mulVec? com.toVec)).add? (← p.S.mulVec? base.toVec)

/-- `ComCenteringObjective::getGradient`,
`/repo/src/function/zebulon_com_centering_objective.cpp:48-89`. -/
def ComCentering.getGradient (c : ComCentering K) (l : Lip K) (b : Base K) (x0 : Vec K) :
    Res (Vec K) := do
  require (c.shift.size = c.ref.size)
  require (c.shift.size = c.gravityShift.size)
  require (c.ref.size * 2 = x0.size)
  require (c.ref.size = b.N * 2)
  requireSame l b
  let d ← l.last l.pos
  let p := b.pos
  let N := l.N
  requireSame l b
  let g ← c.hessian.mulVec? x0
  let sx ← c.shift.segment? 0 N
  let sy ← c.shift.segment? N N
  gradient4 N g
    (do d.UT.mulVec? (← comOffset sx d p l.x b.x))
    (do d.UT.mulVec? (← comOffset sy d p l.y b.y))
    (do p.UT.mulVec? (← comOffsetNeg sx d p l.x b.x))
    (do p.UT.mulVec? (← comOffsetNeg sy d p l.y b.y))

/-- `ComCenteringObjective::updateGravityShift`,
`/repo/src/function/zebulon_com_centering_objective.cpp:100-123`. A division by zero is unspecified. -/
def ComCentering.updateGravityShift (c : ComCentering K) (l : Lip K) (b : Base K) :
    Res (ComCentering K) := do
  requireSame l b
  if b.mass + l.mass = 0 ∨ l.gz = 0 then .error .unspecified
  else do
    let factor := (l.mass * l.comHeight + b.mass * b.comHeight) / (b.mass + l.mass)
    let N := b.N
    let gs : Vec K := Vec.const (2 * N) 0
    let gs ← gs.setSegment? 0 N (Vec.const N (factor * l.gx / l.gz))
    let gs ← gs.setSegment? N N (Vec.const N (factor * l.gy / l.gz))
    let shift ← c.ref.add? gs
    pure { c with gravityShift := gs, shift := shift }

/-- `ComCenteringObjective::setComRefInLocalFrame`,
`/repo/src/function/zebulon_com_centering_objective.cpp:125-135`. -/
def ComCentering.setRef (c : ComCentering K) (l : Lip K) (b : Base K) (v : Vec K) :
    Res (ComCentering K) := do
  require (v.size = l.N * 2)
  requireSame l b
  let shift ← v.add? c.gravityShift
  pure { c with ref := v, shift := shift }

/-! ### Constraints -/

/-- `CopConstraint` and `ComConstraint`, `/repo/mpc-walkgen/function/zebulon_cop_constraint.h:48-62`:
`A_`, `b_`, gradient and size of `tmp_`. -/
structure PolyConstraint (K : Type) where
  A : Mat K
  b : Vec K
  gradient : Mat K
  tmpSize : ℕ

/-- The two entries of row `i*N+j` and the entry of `b_` for the edge from `p1` to `p2`,
`/repo/src/function/zebulon_cop_constraint.cpp:155-157`. -/
def polyA (N : ℕ) (p : Vec (Pt K)) (r c : ℕ) : K :=
  let p1 := p.get (r / N)
  let p2 := p.get ((r / N + 1) % p.size)
  if c = r % N then p2.y - p1.y
  else if c = r % N + N then -p2.x + p1.x
  else 0

/-- Entry of `b_`. -/
def polyB (N : ℕ) (p : Vec (Pt K)) (r : ℕ) : K :=
  let p1 := p.get (r / N)
  let p2 := p.get ((r / N + 1) % p.size)
  (-p1.y) * (p2.x - p1.x) + p1.x * (p2.y - p1.y)

/-- `computeconstraintMatrices`, `/repo/src/function/zebulon_cop_constraint.cpp:138-161`,
`/repo/src/function/zebulon_com_constraint.cpp:106-128`. The two nested loops write the entries
`(i*N+j, j)` and `(i*N+j, j+N)` of `A_` and the entry `i*N+j` of `b_`: row `r` is the one of
`i = r / N`, `j = r % N`. -/
def PolyConstraint.matrices (N : ℕ) (p : Vec (Pt K)) : Mat K × Vec K :=
  (⟨p.size * N, 2 * N, polyA N p⟩, ⟨p.size * N, polyB N p⟩)

/-- The four block assignments of the local `tmp`,
`/repo/src/function/zebulon_cop_constraint.cpp:111-130`,
`/repo/src/function/zebulon_com_constraint.cpp:93-98`. -/
def relative4 (N : ℕ) (cx cy bx by_ : Mat K) : Res (Mat K) := do
  let t := Mat.zero (2 * N) (4 * N)
  let t ← t.setBlock? 0 0 N N cx
  let t ← t.setBlock? N N N N cy
  let t ← t.setBlock? 0 (2 * N) N N bx
  t.setBlock? N (3 * N) N N by_

/-- `CopConstraint::computeConstantPart`, `/repo/src/function/zebulon_cop_constraint.cpp:96-136`. -/
def CopConstraint.compute (l : Lip K) (b : Base K) : Res (PolyConstraint K) := do
  requireSame l b
  let N := l.N
  let (A, bv) := PolyConstraint.matrices N b.copPoly
  let cx ← l.last l.copX
  let cy ← l.last l.copY
  let tmp ← if EPS < b.mass then do
      relative4 N cx.U cy.U (← b.copX.U.sub? b.pos.U) (← b.copY.U.sub? b.pos.U)
    else relative4 N cx.U cy.U b.pos.U.neg b.pos.U.neg
  let g ← A.mul? tmp
  pure ⟨A, bv, g, 2 * N⟩

/-- `ComConstraint::computeConstantPart`, `/repo/src/function/zebulon_com_constraint.cpp:79-104`. -/
def ComConstraint.compute (l : Lip K) (b : Base K) : Res (PolyConstraint K) := do
  requireSame l b
  let N := l.N
  let (A, bv) := PolyConstraint.matrices N b.comPoly
  let c ← l.last l.pos
  let tmp ← relative4 N c.U c.U b.pos.U.neg b.pos.U.neg
  let g ← A.mul? tmp
  pure ⟨A, bv, g, 2 * N⟩

/-- `CopConstraint::getNbConstraints`, `/repo/src/function/zebulon_cop_constraint.cpp:88-94`, and
`ComConstraint::getNbConstraints`, `/repo/src/function/zebulon_com_constraint.cpp:71-77`. -/
def PolyConstraint.nb (l : Lip K) (b : Base K) (p : Vec (Pt K)) : Res ℕ := do
  require (b.N = l.N)
  pure (b.N * p.size)

/-- The end of the two `getFunction`: `-b_ - gradient*x0 - A_*tmp_`,
`/repo/src/function/zebulon_cop_constraint.cpp:72-74`. -/
def PolyConstraint.finish (c : PolyConstraint K) (x0 tmp : Vec K) : Res (Vec K) := do
  (← c.b.neg.sub? (← c.gradient.mulVec? x0)).sub? (← c.A.mulVec? tmp)

/-- `CopConstraint::getFunction`, `/repo/src/function/zebulon_cop_constraint.cpp:39-77`. -/
def CopConstraint.getFunction (c : PolyConstraint K) (l : Lip K) (b : Base K) (x0 : Vec K) :
    Res (Vec K) := do
  require (b.N * 4 = x0.size)
  requireSame l b
  let N := l.N
  let cx ← l.last l.copX
  let cy ← l.last l.copY
  let p := b.pos
  let tmp : Vec K := Vec.const c.tmpSize 0
  let tmp ← tmp.setSegment? 0 N (← (← cx.S.mulVec? l.x.toVec).add? cx.C)
  let tmp ← if EPS < b.mass then do
      tmp.incSegment? 0 N (← (← (← b.copX.S.sub? p.S).mulVec? b.x.toVec).add? b.copX.C)
    else do tmp.decSegment? 0 N (← p.S.mulVec? b.x.toVec)
  let tmp ← tmp.setSegment? N N (← (← cy.S.mulVec? l.y.toVec).add? cy.C)
  let tmp ← if EPS < b.mass then do
      tmp.incSegment? N N (← (← (← b.copY.S.sub? p.S).mulVec? b.y.toVec).add? b.copY.C)
    else do tmp.decSegment? N N (← p.S.mulVec? b.y.toVec)
  c.finish x0 tmp

/-- `ComConstraint::getFunction`, `/repo/src/function/zebulon_com_constraint.cpp:38-60`. -/
def ComConstraint.getFunction (c : PolyConstraint K) (l : Lip K) (b : Base K) (x0 : Vec K) :
    Res (Vec K) := do
  require (b.N * 4 = x0.size)
  requireSame l b
  let p := b.pos
  let d ← l.last l.pos
  let N := l.N
  let tmp : Vec K := Vec.const c.tmpSize 0
  let tmp ← tmp.setSegment? 0 N (← d.S.mulVec? l.x.toVec)
  let tmp ← tmp.decSegment? 0 N (← p.S.mulVec? b.x.toVec)
  let tmp ← tmp.setSegment? N N (← d.S.mulVec? l.y.toVec)
  let tmp ← tmp.decSegment? N N (← p.S.mulVec? b.y.toVec)
  c.finish x0 tmp

/-- `BaseMotionConstraint::computeConstantPart`,
`/repo/src/function/zebulon_base_motion_constraint.cpp:98-115` (the type is shared with
`TrajectoryWalkgen`: gradient and size of `tmp_`, `tmp2_`). -/
def BaseMotion.compute (b : Base K) : Res (MotionConstraint K) := do
  let N := b.N
  let g := Mat.zero (N * 4) (2 * N)
  let g ← g.setBlock? 0 0 N N b.vel.U
  let g ← g.setBlock? N N N N b.vel.U
  let g ← g.setBlock? (2 * N) 0 N N b.acc.U
  let g ← g.setBlock? (3 * N) N N N b.acc.U
  pure ⟨g, N⟩

/-- `BaseMotionConstraint::computeFunction`,
`/repo/src/function/zebulon_base_motion_constraint.cpp:59-84`. -/
def BaseMotion.computeFunction (c : MotionConstraint K) (b : Base K) (x0 : Vec K)
    (velLimit accLimit : K) : Res (Vec K) := do
  let N := b.N
  let f ← c.gradient.neg.mulVec? x0
  let f ← f.incSegment? 0 N (Vec.const c.tmpSize velLimit)
  let f ← f.decSegment? 0 N (← b.vel.S.mulVec? b.x.toVec)
  let f ← f.incSegment? N N (Vec.const c.tmpSize velLimit)
  let f ← f.decSegment? N N (← b.vel.S.mulVec? b.y.toVec)
  let f ← f.incSegment? (2 * N) N (Vec.const c.tmpSize accLimit)
  let f ← f.decSegment? (2 * N) N (← b.acc.S.mulVec? b.x.toVec)
  let f ← f.incSegment? (3 * N) N (Vec.const c.tmpSize accLimit)
  f.decSegment? (3 * N) N (← b.acc.S.mulVec? b.y.toVec)

/-- `BaseMotionConstraint::getFunctionInf`,
`/repo/src/function/zebulon_base_motion_constraint.cpp:33-44`. -/
def BaseMotion.getFunctionInf (c : MotionConstraint K) (b : Base K) (x0 : Vec K) : Res (Vec K) := do
  require (b.N * 2 = x0.size)
  BaseMotion.computeFunction c b x0 (-b.velLimit) (-b.accLimit)

/-- `BaseMotionConstraint::getFunctionSup`,
`/repo/src/function/zebulon_base_motion_constraint.cpp:46-57`. -/
def BaseMotion.getFunctionSup (c : MotionConstraint K) (b : Base K) (x0 : Vec K) : Res (Vec K) := do
  require (b.N * 2 = x0.size)
  BaseMotion.computeFunction c b x0 b.velLimit b.accLimit

/-- `TiltMotionConstraint::computeConstantPart`,
`/repo/src/function/zebulon_tilt_motion_constraint.cpp:75-93`. -/
def TiltMotion.compute (tr : Trig K) (l : Lip K) (b : Base K) : Res (Mat K) := do
  requireSame l b
  let d ← l.last l.vel
  let N := b.N
  let θ := b.yaw.p
  let g := Mat.zero (N * 2) (4 * N)
  let g ← g.setBlock? 0 0 N N (d.U.smul (tr.sin θ))
  let g ← g.setBlock? 0 N N N (d.U.neg.smul (tr.cos θ))
  let g ← g.setBlock? N (2 * N) N N (b.vel.U.smul (tr.sin θ))
  g.setBlock? N (3 * N) N N (b.vel.U.neg.smul (tr.cos θ))

/-- `TiltMotionConstraint::getFunction`,
`/repo/src/function/zebulon_tilt_motion_constraint.cpp:34-57`. -/
def TiltMotion.getFunction (tr : Trig K) (g : Mat K) (l : Lip K) (b : Base K) (x0 : Vec K) :
    Res (Vec K) := do
  require (b.N * 4 = x0.size)
  requireSame l b
  let N := b.N
  let θ := b.yaw.p
  let d ← l.last l.vel
  let f ← g.neg.mulVec? x0
  let f ← f.decSegment? 0 N (Vec.smul (tr.sin θ) (← d.S.mulVec? l.x.toVec))
  let f ← f.incSegment? 0 N (Vec.smul (tr.cos θ) (← d.S.mulVec? l.y.toVec))
  let f ← f.decSegment? N N (Vec.smul (tr.sin θ) (← b.vel.S.mulVec? b.x.toVec))
  f.incSegment? N N (Vec.smul (tr.cos θ) (← b.vel.S.mulVec? b.y.toVec))

/-! ### `ZebulonWalkgen` -/

/-- `ZebulonWalkgenWeighting`, `/repo/mpc-walkgen/zebulon_walkgen_type.h:18-39`. -/
structure ZWeighting (K : Type) where
  velocityTracking : K
  positionTracking : K
  copCentering : K
  comCentering : K
  jerkMinimization : K
  tiltMinimization : K
  tiltVelMinimization : K

/-- `ZebulonWalkgenConfig`, `/repo/mpc-walkgen/zebulon_walkgen_type.h:41-56`. -/
structure ZConfig where
  cop : Bool
  com : Bool
  base : Bool
  tilt : Bool

/-- `ZebulonWalkgen`, `/repo/mpc-walkgen/zebulon_walkgen.h:107-135`. -/
structure Zeb (K : Type) where
  lip : Lip K
  base : Base K
  velObj : ZTrack K
  posObj : ZTrack K
  jerkH : Mat K
  tiltObj : Tilt K
  tiltVelObj : Tilt K
  copObj : CopCentering K
  comObj : ComCentering K
  copCtr : PolyConstraint K
  comCtr : PolyConstraint K
  baseCtr : MotionConstraint K
  tiltCtr : Mat K
  solver : SolverState K
  weighting : ZWeighting K
  config : ZConfig
  dX : Vec K
  X : Vec K
  qp : QPMatrices K
  invObj : K
  invCtr : K

/-- `if (w>0.0) p.segment(s, n) += w*g`. -/
def accumSegment (w : K) (g : Res (Vec K)) (s n : ℕ) (p : Vec K) : Res (Vec K) :=
  if 0 < w then do p.incSegment? s n (Vec.smul w (← g)) else pure p

/-- `if (w>0.0) Q.block(s, s, n, n) += w*H`. -/
def accumBlock (w : K) (H : Mat K) (s n : ℕ) (Q : Mat K) : Res (Mat K) :=
  if 0 < w then Q.incBlock? s s n n (Mat.smul w H) else pure Q

/-- The numbers of rows `M1`, `M2`, `M3`, `M4` of `/repo/src/zebulon_walkgen.cpp:424-427` and
`594-597` (CoP, base motion, CoM, tilt motion). -/
def Zeb.rows (w : Zeb K) : Res (ℕ × ℕ × ℕ × ℕ) := do
  let M1 ← if w.config.cop then PolyConstraint.nb w.lip w.base w.base.copPoly else pure 0
  let M2 := if w.config.base then w.base.N * 4 else 0
  let M3 ← if w.config.com then PolyConstraint.nb w.lip w.base w.base.comPoly else pure 0
  let M4 := if w.config.tilt then w.base.N * 2 else 0
  pure (M1, M2, M3, M4)

/-- The assertions of `/repo/src/zebulon_walkgen.cpp:600-640`. -/
def Zeb.checkSizes (w : Zeb K) (N M1 M2 M3 M4 : ℕ) : Res Unit := do
  require (w.velObj.hessian.rows = 2 * N)
  require (w.velObj.hessian.cols = 2 * N)
  require (w.posObj.hessian.rows = 2 * N)
  require (w.posObj.hessian.cols = 2 * N)
  requireSame w.lip w.base
  require (w.copObj.hessian.rows = 4 * N)
  require (w.copObj.hessian.cols = 4 * N)
  require (w.comObj.hessian.rows = 4 * N)
  require (w.comObj.hessian.cols = 4 * N)
  require (w.jerkH.rows = 4 * N)
  require (w.jerkH.cols = 4 * N)
  require (w.tiltObj.hessian.rows = 4 * N)
  require (w.tiltObj.hessian.cols = 4 * N)
  require (w.tiltVelObj.hessian.rows = 4 * N)
  require (w.tiltVelObj.hessian.cols = 4 * N)
  if w.config.cop then do
    require (w.copCtr.gradient.cols = 4 * N)
    require (w.copCtr.gradient.rows = M1)
  if w.config.com then do
    require (w.comCtr.gradient.cols = 4 * N)
    require (w.comCtr.gradient.rows = M3)
  if w.config.base then do
    require (w.baseCtr.gradient.cols = 2 * N)
    require (w.baseCtr.gradient.rows = M2)
  if w.config.tilt then do
    require (w.tiltCtr.cols = 4 * N)
    require (w.tiltCtr.rows = M4)

/-- The Hessian before normalisation, `/repo/src/zebulon_walkgen.cpp:644` and `652-681`. -/
def Zeb.buildQ (w : Zeb K) (N : ℕ) : Res (Mat K) := do
  let Q := Mat.zero (4 * N) (4 * N)
  let Q ← accumBlock w.weighting.velocityTracking w.velObj.hessian (2 * N) (2 * N) Q
  let Q ← accumBlock w.weighting.positionTracking w.posObj.hessian (2 * N) (2 * N) Q
  let Q ← accumMat w.weighting.copCentering w.copObj.hessian Q
  let Q ← accumMat w.weighting.comCentering w.comObj.hessian Q
  let Q ← accumMat w.weighting.jerkMinimization w.jerkH Q
  let Q ← accumMat w.weighting.tiltMinimization w.tiltObj.hessian Q
  accumMat w.weighting.tiltVelMinimization w.tiltVelObj.hessian Q

/-- The constraint matrix before normalisation, `/repo/src/zebulon_walkgen.cpp:646` and `683-698`. -/
def Zeb.buildA (w : Zeb K) (N M1 M2 M3 M4 : ℕ) : Res (Mat K) := do
  let A := Mat.zero (M1 + M2 + M3 + M4) (4 * N)
  let A ← if w.config.cop then A.setBlock? 0 0 M1 (4 * N) w.copCtr.gradient else pure A
  let A ← if w.config.base then A.setBlock? M1 (2 * N) M2 (2 * N) w.baseCtr.gradient else pure A
  let A ← if w.config.com then A.setBlock? (M1 + M2) 0 M3 (4 * N) w.comCtr.gradient else pure A
  if w.config.tilt then A.setBlock? (M1 + M2 + M3) 0 M4 (4 * N) w.tiltCtr else pure A

/-- `ZebulonWalkgen::computeConstantPart`, `/repo/src/zebulon_walkgen.cpp:590-703`, and
`computeNormalizationFactor`, `/repo/src/zebulon_walkgen.cpp:705-739` (the same loops as
`QPMatrices::getNormalizationFactor`, with `eps` the constant `EPSILON`). The new solver keeps numbering
the calls to the oracle. -/
def Zeb.computeConstantPart (w : Zeb K) : Res (Zeb K) := do
  let N := w.lip.N
  let (M1, M2, M3, M4) ← w.rows
  w.checkSizes N M1 M2 M3 M4
  let Q ← w.buildQ N
  let A ← w.buildA N M1 M2 M3 M4
  let invObj ← getNormalizationFactor Q EPS
  let invCtr ← getNormalizationFactor A EPS
  let M := M1 + M2 + M3 + M4
  pure { w with
    solver := { SolverState.make (4 * N) M with calls := w.solver.calls }
    qp := { Q := Q.smul invObj, p := Vec.const (4 * N) 0, A := A.smul invCtr, bl := Vec.const M 0
            bu := Vec.const M 0, xl := Vec.const (4 * N) 0, xu := Vec.const (4 * N) 0 }
    invObj := invObj
    invCtr := invCtr }

/-! The `computeConstantPart` calls made by the setters. -/

def Zeb.refreshVel (w : Zeb K) : Res (Zeb K) := do
  let h ← ZTrack.compute w.base w.base.vel
  pure { w with velObj := { w.velObj with hessian := h } }

def Zeb.refreshPos (w : Zeb K) : Res (Zeb K) := do
  let h ← ZTrack.compute w.base w.base.pos
  pure { w with posObj := { w.posObj with hessian := h } }

def Zeb.refreshJerk (w : Zeb K) : Res (Zeb K) := do
  pure { w with jerkH := ← zJerkCompute w.lip w.base }

def Zeb.refreshTilt (w : Zeb K) : Res (Zeb K) := do
  pure { w with tiltObj := ← Tilt.compute w.lip w.base }

def Zeb.refreshTiltVel (w : Zeb K) : Res (Zeb K) := do
  pure { w with tiltVelObj := ← Tilt.computeVel w.lip w.base }

def Zeb.refreshCop (w : Zeb K) : Res (Zeb K) := do
  pure { w with copObj := ← w.copObj.compute w.lip w.base }

def Zeb.refreshCom (w : Zeb K) : Res (Zeb K) := do
  let h ← ComCentering.compute w.lip w.base
  pure { w with comObj := { w.comObj with hessian := h } }

def Zeb.refreshCopCtr (w : Zeb K) : Res (Zeb K) := do
  pure { w with copCtr := ← CopConstraint.compute w.lip w.base }

def Zeb.refreshComCtr (w : Zeb K) : Res (Zeb K) := do
  pure { w with comCtr := ← ComConstraint.compute w.lip w.base }

def Zeb.refreshBaseCtr (w : Zeb K) : Res (Zeb K) := do
  pure { w with baseCtr := ← BaseMotion.compute w.base }

def Zeb.refreshTiltCtr (tr : Trig K) (w : Zeb K) : Res (Zeb K) := do
  pure { w with tiltCtr := ← TiltMotion.compute tr w.lip w.base }

def Zeb.refreshShift (w : Zeb K) : Res (Zeb K) := do
  pure { w with comObj := ← w.comObj.updateGravityShift w.lip w.base }

/-- The members before their constructors compute anything. -/
def Zeb.raw (l : Lip K) (b : Base K) : Zeb K :=
  { lip := l, base := b, velObj := ⟨Vec.const (2 * b.N) 0, Mat.zero 1 1⟩
    posObj := ⟨Vec.const (2 * b.N) 0, Mat.zero 1 1⟩, jerkH := Mat.zero 1 1
    tiltObj := ⟨Mat.zero 0 0, Vec.const 0 0, Vec.const 0 0, Mat.zero 0 0, Mat.zero 0 0, Mat.zero 0 0,
      Mat.zero 0 0, Mat.zero 0 0, Mat.zero 0 0, Mat.zero 0 0, Mat.zero 0 0, Mat.zero 1 1⟩
    tiltVelObj := ⟨Mat.zero 0 0, Vec.const 0 0, Vec.const 0 0, Mat.zero 0 0, Mat.zero 0 0, Mat.zero 0 0,
      Mat.zero 0 0, Mat.zero 0 0, Mat.zero 0 0, Mat.zero 0 0, Mat.zero 0 0, Mat.zero 1 1⟩
    copObj := ⟨Vec.const (2 * b.N) 0, 0, Mat.zero 1 1⟩
    comObj := ⟨Vec.const (2 * b.N) 0, Vec.const (2 * b.N) 0, Vec.const (2 * b.N) 0, Mat.zero 1 1⟩
    copCtr := ⟨Mat.zero 1 1, Vec.const 1 0, Mat.zero 1 1, 1⟩
    comCtr := ⟨Mat.zero 1 1, Vec.const 1 0, Mat.zero 1 1, 1⟩
    baseCtr := ⟨Mat.zero 1 1, 1⟩, tiltCtr := Mat.zero 1 1
    solver := SolverState.make 1 1
    weighting := ⟨0, 0, 0, 0, 0, 0, 0⟩
    config := ⟨false, false, false, false⟩
    dX := Vec.const (4 * l.N) 0
    X := Vec.const (4 * l.N) 0
    qp := ⟨Mat.zero 0 0, Vec.const 0 0, Vec.const 0 0, Vec.const 0 0, Mat.zero 0 0, Vec.const 0 0,
      Vec.const 0 0⟩
    invObj := 1, invCtr := 1 }

/-- `ZebulonWalkgen::ZebulonWalkgen`, `/repo/src/zebulon_walkgen.cpp:17-38`, with the constructors of its
members, which call their `computeConstantPart`, in the order of their declarations. `mem` is the
content of the memory of the tilt contact point. -/
def Zeb.make [FloorRing K] (tr : Trig K) (mem : Option K × Option K) : Res (Zeb K) := do
  let l ← Lip.make 1 1 true
  let b ← Base.makeDefault mem
  let w := Zeb.raw l b
  let w ← w.refreshVel
  let w ← w.refreshPos
  let w ← w.refreshJerk
  let w ← w.refreshTilt
  let w ← w.refreshTiltVel
  let w ← w.refreshCop
  let w ← w.refreshCom
  let w ← w.refreshCopCtr
  let w ← w.refreshComCtr
  let w ← w.refreshBaseCtr
  let w ← w.refreshTiltCtr tr
  w.computeConstantPart

/-- `setNbSamples`, `/repo/src/zebulon_walkgen.cpp:43-68`. -/
def Zeb.setNbSamples [FloorRing K] (tr : Trig K) (w : Zeb K) (n : ℕ) : Res (Zeb K) := do
  require (0 < n)
  let l ← w.lip.setNbSamples n
  let b ← w.base.setNbSamples n
  let c ← w.comObj.setNbSamples n
  let w := { w with lip := l, base := b, comObj := c, dX := Vec.const (4 * n) 0, X := Vec.const (4 * n) 0 }
  let w ← w.refreshJerk
  let w ← w.refreshTilt
  let w ← w.refreshTiltVel
  let w ← w.refreshCopCtr
  let w ← w.refreshComCtr
  let w ← w.refreshCop
  let w ← w.refreshCom
  let w ← w.refreshVel
  let w ← w.refreshPos
  let w ← w.refreshBaseCtr
  let w ← w.refreshTiltCtr tr
  w.computeConstantPart

/-- `setSamplingPeriod`, `/repo/src/zebulon_walkgen.cpp:70-90`. -/
def Zeb.setSamplingPeriod [FloorRing K] (tr : Trig K) (w : Zeb K) (T : K) : Res (Zeb K) := do
  require (0 < T)
  let l ← w.lip.setSamplingPeriod T
  let b ← w.base.setSamplingPeriod T
  let w := { w with lip := l, base := b }
  let w ← w.refreshCopCtr
  let w ← w.refreshComCtr
  let w ← w.refreshCop
  let w ← w.refreshCom
  let w ← w.refreshVel
  let w ← w.refreshPos
  let w ← w.refreshBaseCtr
  let w ← w.refreshTiltCtr tr
  let w ← w.refreshTilt
  let w ← w.refreshTiltVel
  w.computeConstantPart

/-- `setGravity`, `/repo/src/zebulon_walkgen.cpp:92-105`. -/
def Zeb.setGravity (w : Zeb K) (gx gy gz : K) : Res (Zeb K) := do
  require (EPS < |gz|)
  let l ← w.lip.setGravity gx gy gz
  let b ← w.base.setGravity gx gy gz
  let w := { w with lip := l, base := b }
  let w ← w.refreshCopCtr
  let w ← w.refreshCop
  let w ← w.refreshShift
  w.computeConstantPart

/-- `setBaseCopConvexPolygon`, `/repo/src/zebulon_walkgen.cpp:107-117`. -/
def Zeb.setCopPolygon (w : Zeb K) (p : Vec (Pt K)) : Res (Zeb K) := do
  require (3 ≤ p.size)
  let w := { w with base := { w.base with copPoly := p } }
  let w ← w.refreshCopCtr
  w.computeConstantPart

/-- `setBaseComConvexPolygon`, `/repo/src/zebulon_walkgen.cpp:119-129`. -/
def Zeb.setComPolygon (w : Zeb K) (p : Vec (Pt K)) : Res (Zeb K) := do
  require (3 ≤ p.size)
  let w := { w with base := { w.base with comPoly := p } }
  let w ← w.refreshComCtr
  w.computeConstantPart

/-- `setComBodyHeight`, `/repo/src/zebulon_walkgen.cpp:155-169`. -/
def Zeb.setBodyHeight (w : Zeb K) (h : K) : Res (Zeb K) := do
  let l ← w.lip.setComHeight h
  let w := { w with lip := l }
  let w ← w.refreshCopCtr
  let w ← w.refreshCop
  let w ← w.refreshShift
  let w ← w.refreshTilt
  let w ← w.refreshTiltVel
  w.computeConstantPart

/-- `setComBaseHeight`, `/repo/src/zebulon_walkgen.cpp:171-183`: the tilt objectives are not
refreshed. -/
def Zeb.setBaseHeight (w : Zeb K) (h : K) : Res (Zeb K) := do
  let b ← w.base.setComHeight h
  let w := { w with base := b }
  let w ← w.refreshCopCtr
  let w ← w.refreshCop
  let w ← w.refreshShift
  w.computeConstantPart

/-- `setBodyMass`, `/repo/src/zebulon_walkgen.cpp:185-204`. -/
def Zeb.setBodyMass (w : Zeb K) (m : K) : Res (Zeb K) := do
  let total := m + w.base.mass
  let l ← w.lip.setTotalMass total
  let b ← w.base.setTotalMass total
  let l ← l.setMass m
  let w := { w with lip := l, base := b }
  let w ← w.refreshCopCtr
  let w ← w.refreshCop
  let w ← w.refreshShift
  let w ← w.refreshTilt
  let w ← w.refreshTiltVel
  w.computeConstantPart

/-- `setBaseMass`, `/repo/src/zebulon_walkgen.cpp:206-224`. -/
def Zeb.setBaseMass (w : Zeb K) (m : K) : Res (Zeb K) := do
  let total := w.lip.mass + m
  let l ← w.lip.setTotalMass total
  let b ← w.base.setTotalMass total
  let b ← b.setMass m
  let w := { w with lip := l, base := b }
  let w ← w.refreshCopCtr
  let w ← w.refreshCop
  let w ← w.refreshShift
  let w ← w.refreshTilt
  let w ← w.refreshTiltVel
  w.computeConstantPart

/-- `updateTiltContactPoint` of the two tilt objectives, `/repo/src/zebulon_walkgen.cpp:380-381`, `389-390`. -/
def Zeb.updateContact (w : Zeb K) : Res (Zeb K) := do
  let t ← w.tiltObj.updateContact w.lip w.base
  let v ← w.tiltVelObj.updateContact w.lip w.base
  pure { w with tiltObj := t, tiltVelObj := v }

/-- `setComAndCopRefInWorldFrame`, `/repo/src/zebulon_walkgen.cpp:258-281`. -/
def Zeb.setComAndCopRef (w : Zeb K) (comPos comAcc basePos baseAcc : Vec K) : Res (Zeb K) := do
  require (comPos.size = 2 * w.lip.N)
  require (basePos.size = 2 * w.lip.N)
  require (comAcc.size = 2 * w.lip.N)
  require (baseAcc.size = 2 * w.lip.N)
  let com ← w.comObj.setRef w.lip w.base (← comPos.sub? basePos)
  let cop ← w.copObj.setRefWorld w.lip w.base comPos comAcc basePos baseAcc
  pure { w with comObj := com, copObj := cop }

/-- The assertions at the start of `solve`, `/repo/src/zebulon_walkgen.cpp:431-458`. -/
def Zeb.checkSolve (tr : Trig K) (w : Zeb K) (N M1 M2 M3 M4 : ℕ) (B : Vec K) (fb : K) : Res Unit := do
  require ((← w.velObj.getGradient w.base w.base.vel B).size = 2 * N)
  require ((← w.posObj.getGradient w.base w.base.pos B).size = 2 * N)
  require ((← w.copObj.getGradient w.lip w.base w.X).size = 4 * N)
  require ((← w.comObj.getGradient w.lip w.base w.X).size = 4 * N)
  require ((← zJerkGradient w.lip w.base w.X).size = 4 * N)
  require ((← w.tiltObj.getGradient w.lip w.base w.X).size = 4 * N)
  require ((← w.tiltVelObj.getGradient w.lip w.base w.X).size = 4 * N)
  if w.config.cop then do
    require ((← CopConstraint.getFunction w.copCtr w.lip w.base w.X).size = M1)
  if w.config.com then do
    require ((← ComConstraint.getFunction w.comCtr w.lip w.base w.X).size = M3)
  if w.config.base then do
    require ((← BaseMotion.getFunctionInf w.baseCtr w.base B).size = M2)
    require ((← BaseMotion.getFunctionSup w.baseCtr w.base B).size = M2)
  if w.config.tilt then do
    require ((← TiltMotion.getFunction tr w.tiltCtr w.lip w.base w.X).size = M4)
  require (0 < fb)

/-- The vector `p` before normalisation, `/repo/src/zebulon_walkgen.cpp:460` and `466-495`. -/
def Zeb.buildP (w : Zeb K) (N : ℕ) (B : Vec K) : Res (Vec K) := do
  let p := w.qp.p.fill 0
  let p ← accumSegment w.weighting.velocityTracking (w.velObj.getGradient w.base w.base.vel B)
    (2 * N) (2 * N) p
  let p ← accumSegment w.weighting.positionTracking (w.posObj.getGradient w.base w.base.pos B)
    (2 * N) (2 * N) p
  let p ← accumVec w.weighting.copCentering (w.copObj.getGradient w.lip w.base w.X) p
  let p ← accumVec w.weighting.comCentering (w.comObj.getGradient w.lip w.base w.X) p
  let p ← accumVec w.weighting.jerkMinimization (zJerkGradient w.lip w.base w.X) p
  let p ← accumVec w.weighting.tiltMinimization (w.tiltObj.getGradient w.lip w.base w.X) p
  accumVec w.weighting.tiltVelMinimization (w.tiltVelObj.getGradient w.lip w.base w.X) p

/-- The bounds `(bl, bu, xl, xu)` before normalisation, `/repo/src/zebulon_walkgen.cpp:461-464` and
`497-520`. -/
def Zeb.buildBounds (tr : Trig K) (w : Zeb K) (N M1 M2 M3 M4 : ℕ) (B : Vec K) :
    Res (Vec K × Vec K × Vec K × Vec K) := do
  let bu := w.qp.bu.fill MAXBOUND
  let bl := w.qp.bl.fill (-MAXBOUND)
  let xu := w.qp.xu.fill MAXBOUND
  let xl := w.qp.xl.fill (-MAXBOUND)
  let bl ← if w.config.cop then do
      bl.setSegment? 0 M1 (← CopConstraint.getFunction w.copCtr w.lip w.base w.X)
    else pure bl
  let (bl, bu, xl, xu) ← if w.config.base then do
      let bl ← bl.setSegment? M1 M2 (← BaseMotion.getFunctionInf w.baseCtr w.base B)
      let bu ← bu.setSegment? M1 M2 (← BaseMotion.getFunctionSup w.baseCtr w.base B)
      let xu ← xu.setSegment? (2 * N) (2 * N) (Vec.const (2 * N) w.base.jerkLimit)
      let xu ← xu.decSegment? (2 * N) (2 * N) B
      let xl ← xl.setSegment? (2 * N) (2 * N) (Vec.const (2 * N) (-w.base.jerkLimit))
      let xl ← xl.decSegment? (2 * N) (2 * N) B
      pure (bl, bu, xl, xu)
    else pure (bl, bu, xl, xu)
  let bl ← if w.config.com then do
      bl.setSegment? (M1 + M2) M3 (← ComConstraint.getFunction w.comCtr w.lip w.base w.X)
    else pure bl
  if w.config.tilt then do
    let f ← TiltMotion.getFunction tr w.tiltCtr w.lip w.base w.X
    let bl ← bl.setSegment? (M1 + M2 + M3) M4 f
    let bu ← bu.setSegment? (M1 + M2 + M3) M4 f
    pure (bl, bu, xl, xu)
  else pure (bl, bu, xl, xu)

/-- First part of `solve`, `/repo/src/zebulon_walkgen.cpp:423-524`: fills the vectors of the QP. -/
def Zeb.prepare (tr : Trig K) (w : Zeb K) (fb : K) : Res (QPMatrices K) := do
  let N := w.lip.N
  let (M1, M2, M3, M4) ← w.rows
  let B ← w.X.segment? (2 * N) (2 * N)
  w.checkSolve tr N M1 M2 M3 M4 B fb
  let p ← w.buildP N B
  let (bl, bu, xl, xu) ← w.buildBounds tr N M1 M2 M3 M4 B
  pure { w.qp with p := p.smul w.invObj, bu := bu.smul w.invCtr, bl := bl.smul w.invCtr
                   xl := xl, xu := xu }

/-- `solve`, `/repo/src/zebulon_walkgen.cpp:420-563`. The solver is called with warm start and without
output stream. -/
def Zeb.solve (o : Oracle K) (tr : Trig K) (w : Zeb K) (fb : K) : Res (Bool × Zeb K) := do
  let N := w.lip.N
  let qp ← w.prepare tr fb
  let (found, dX, solver) ← solverSolve o w.solver qp 10000 w.dX true false
  let X ← w.X.add? dX
  let l ← w.lip.updateStateX (← X.at? 0) fb
  let l ← l.updateStateY (← X.at? N) fb
  let b ← w.base.updateStateX (← X.at? (2 * N)) fb
  let b ← b.updateStateY (← X.at? (3 * N)) fb
  pure (found, { w with qp := qp, solver := solver, dX := dX, X := X, lip := l, base := b })

/-- Calls of the public interface, `/repo/mpc-walkgen/zebulon_walkgen.h:50-95`. `setBaseCopHull` and
`setBaseComHull` build a polygon and call the polygon setters. -/
inductive ZebCall (K : Type)
  | setNbSamples (n : ℕ)
  | setSamplingPeriod (T : K)
  | setGravity (gx gy gz : K)
  | setCopPolygon (p : Vec (Pt K))
  | setComPolygon (p : Vec (Pt K))
  | setBodyHeight (h : K)
  | setBaseHeight (h : K)
  | setBodyMass (m : K)
  | setBaseMass (m : K)
  | setVelRef (v : Vec K)
  | setPosRef (v : Vec K)
  | setCopRef (v : Vec K)
  | setComRef (v : Vec K)
  | setComAndCopRef (comPos comAcc basePos baseAcc : Vec K)
  | setVelLimit (l : K)
  | setAccLimit (l : K)
  | setJerkLimit (l : K)
  | setBaseX (v : Vec K)
  | setBaseY (v : Vec K)
  | setRoll (v : Vec K)
  | setPitch (v : Vec K)
  | setYaw (v : Vec K)
  | setComX (v : Vec K)
  | setComY (v : Vec K)
  | setContactX (p : K)
  | setContactY (p : K)
  | setWeightings (w : ZWeighting K)
  | setConfig (c : ZConfig)
  | solve (fb : K)

/-- One call, `/repo/src/zebulon_walkgen.cpp:43-563`. The first component is the value returned by
`solve` (`true` for the setters). -/
def Zeb.step [FloorRing K] (o : Oracle K) (tr : Trig K) (w : Zeb K) : ZebCall K → Res (Bool × Zeb K)
  | .setNbSamples n => do pure (true, ← w.setNbSamples tr n)
  | .setSamplingPeriod T => do pure (true, ← w.setSamplingPeriod tr T)
  | .setGravity gx gy gz => do pure (true, ← w.setGravity gx gy gz)
  | .setCopPolygon p => do pure (true, ← w.setCopPolygon p)
  | .setComPolygon p => do pure (true, ← w.setComPolygon p)
  | .setBodyHeight h => do pure (true, ← w.setBodyHeight h)
  | .setBaseHeight h => do pure (true, ← w.setBaseHeight h)
  | .setBodyMass m => do pure (true, ← w.setBodyMass m)
  | .setBaseMass m => do pure (true, ← w.setBaseMass m)
  | .setVelRef v => do
    require (v.size = w.base.N * 2)
    pure (true, { w with velObj := { w.velObj with ref := v } })
  | .setPosRef v => do
    require (v.size = w.base.N * 2)
    pure (true, { w with posObj := { w.posObj with ref := v } })
  | .setCopRef v => do
    require (v.size = w.lip.N * 2)
    let c ← w.copObj.setRef w.lip w.base v
    pure (true, { w with copObj := c })
  | .setComRef v => do
    require (v.size = w.lip.N * 2)
    let c ← w.comObj.setRef w.lip w.base v
    pure (true, { w with comObj := c })
  | .setComAndCopRef a b c d => do pure (true, ← w.setComAndCopRef a b c d)
  | .setVelLimit l => do
    require (0 ≤ l)
    pure (true, { w with base := { w.base with velLimit := l } })
  | .setAccLimit l => do
    require (0 ≤ l)
    pure (true, { w with base := { w.base with accLimit := l } })
  | .setJerkLimit l => do
    require (0 ≤ l)
    pure (true, { w with base := { w.base with jerkLimit := l } })
  | .setBaseX v => do pure (true, { w with base := { w.base with x := ← stateArg v } })
  | .setBaseY v => do pure (true, { w with base := { w.base with y := ← stateArg v } })
  | .setRoll v => do pure (true, { w with base := { w.base with roll := ← stateArg v } })
  | .setPitch v => do pure (true, { w with base := { w.base with pitch := ← stateArg v } })
  | .setYaw v => do
    let w := { w with base := { w.base with yaw := ← stateArg v } }
    let w ← w.refreshTiltCtr tr
    pure (true, ← w.computeConstantPart)
  | .setComX v => do pure (true, { w with lip := { w.lip with x := ← stateArg v } })
  | .setComY v => do pure (true, { w with lip := { w.lip with y := ← stateArg v } })
  | .setContactX p => do
    pure (true, ← Zeb.updateContact { w with base := { w.base with dbx := some p } })
  | .setContactY p => do
    pure (true, ← Zeb.updateContact { w with base := { w.base with dby := some p } })
  | .setWeightings wt => do
    require (0 ≤ wt.copCentering)
    require (0 ≤ wt.comCentering)
    require (0 ≤ wt.velocityTracking)
    require (0 ≤ wt.velocityTracking)
    require (0 ≤ wt.jerkMinimization)
    require (0 ≤ wt.tiltMinimization)
    pure (true, ← Zeb.computeConstantPart { w with weighting := wt })
  | .setConfig c => do pure (true, ← Zeb.computeConstantPart { w with config := c })
  | .solve fb => w.solve o tr fb

/-- A sequence of calls; stops at the first fault. -/
def Zeb.run [FloorRing K] (o : Oracle K) (tr : Trig K) : Zeb K → List (ZebCall K) → Res (Zeb K)
  | w, [] => .ok w
  | w, c :: cs => do
    let (_, w') ← w.step o tr c
    Zeb.run o tr w' cs

end MPC
