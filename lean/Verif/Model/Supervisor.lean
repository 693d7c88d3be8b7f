import Verif.Loop
import Verif.Model.Interpolator
import Verif.Model.Polygon
import Mathlib.Algebra.Order.Floor.Ring

/-!
# `HumanoidFeetSupervisor`: `/repo/src/humanoid_feet_supervisor.cpp`

Simplifications:
* `timeline_` is a list. The capacity of the `boost::circular_buffer` always equals its size here:
  every place that changes the size changes the capacity by the same amount first
  (lines 488-489, 511-512, 542, 617-619), so that no element is ever overwritten by `push_back`.
* `phaseTimer_`, `horizonTimer_` and `phase_` are written before being read in each function that
  uses them: they are local variables.
* yaw angles and their bounds are stored by the code but never used: they are left out.
* `computeConstantPart` (lines 608-612) is empty in the code and is left out.
* the rotation matrices are always the identity (lines 925-938): see `rotation`.
-/

namespace MPC

/-- `Phase::PhaseType`, `/repo/mpc-walkgen/humanoid_feet_supervisor.h:35-36`. -/
inductive PhaseType
  | DS
  | leftSS
  | rightSS
  deriving DecidableEq, Repr

/-- `Phase`, `/repo/mpc-walkgen/humanoid_feet_supervisor.h:32-45`. -/
structure Phase (K : Type) where
  type : PhaseType
  duration : K
  deriving DecidableEq

variable {K : Type} [Field K] [LinearOrder K]

/-- `A(i, j) = x`. -/
def Mat.set? (A : Mat K) (i j : ℕ) (x : K) : Res (Mat K) := do
  requireIndex (i < A.rows ∧ j < A.cols)
  pure ⟨A.rows, A.cols, fun k l => if k = i ∧ l = j then x else A.get k l⟩

/-- `HumanoidFootModel`, `/repo/mpc-walkgen/model/humanoid_foot_model.h:189-205`: the states along
the three axes, the maximum height and the two polygons. -/
structure Foot (K : Type) where
  x : FootAxis K
  y : FootAxis K
  z : FootAxis K
  maxHeight : K
  kin : Polygon K
  cop : Polygon K

/-- Default constructed `ConvexPolygon`, `/repo/src/convexpolygon.cpp:17-25`: no vertex. -/
def Polygon.none : Polygon K := Polygon.start ⟨0, fun _ => ⟨0, 0⟩⟩

/-- Default foot, `/repo/src/model/humanoid_foot_model.cpp:15-23,127-140`. -/
def Foot.init : Foot K :=
  ⟨FootAxis.init, FootAxis.init, FootAxis.init, 0, Polygon.none, Polygon.none⟩

/-- `HumanoidFeetSupervisor`, `/repo/mpc-walkgen/humanoid_feet_supervisor.h:211-244`. The integer
matrices of `selectionMatrices_` are only used after a cast to `Scalar`
(`toLinearDynamics`, `/repo/src/humanoid_feet_supervisor.cpp:41-54`): `V`, `VT`, `V0` are the cast
matrices, i.e. the members `U`, `UT`, `S` of `feetPosDynamic_`. -/
structure Sup (K : Type) where
  N : ℕ
  T : K
  fb : K
  left : Foot K
  right : Foot K
  M : ℕ
  stepPeriod : K
  dsPeriod : K
  ttnp : K
  move : Bool
  stepVec : Vec K
  V : Mat K
  VT : Mat K
  V0 : Mat K
  phaseIdx : Vec ℕ
  weight : Mat K
  timeline : List (Phase K)

/-- `setPhase`, lines 663-684: the duration given to a phase of each type. -/
def Sup.period (s : Sup K) : PhaseType → K
  | .DS => s.dsPeriod
  | .leftSS => s.stepPeriod
  | .rightSS => s.stepPeriod

/-- Constructor and `init`, lines 59-78 and 614-620; the assertions are those of the foot models,
`/repo/src/model/humanoid_foot_model.cpp:35-36`. -/
def Sup.init (N : ℕ) (T : K) : Res (Sup K) := do
  require (0 < T)
  require (0 < N)
  pure { N := N, T := T, fb := T, left := Foot.init, right := Foot.init, M := 0,
         stepPeriod := 2 * T, dsPeriod := 2 * T, ttnp := 2 * T, move := false,
         stepVec := ⟨0, fun _ => 0⟩, V := ⟨0, 0, fun _ _ => 0⟩, VT := ⟨0, 0, fun _ _ => 0⟩,
         V0 := ⟨0, 0, fun _ _ => 0⟩, phaseIdx := ⟨0, fun _ => 0⟩, weight := ⟨0, 0, fun _ _ => 0⟩,
         timeline := [⟨.DS, 2 * T⟩] }

/-- `isInDS`, lines 461-470; `front()` of an empty buffer is undefined. -/
def Sup.isInDS (s : Sup K) : Res Bool := do
  let f ← listAt s.timeline 0
  pure (f.type = .DS)

/-- `setNbSamples`, lines 104-114. -/
def Sup.setNbSamples (s : Sup K) (N : ℕ) : Res (Sup K) := do
  require (0 < N)
  pure { s with N := N }

/-- `setSamplingPeriod`, lines 116-128; the second assertion is that of the foot models,
`/repo/src/model/humanoid_foot_model.cpp:66`. -/
def Sup.setSamplingPeriod (s : Sup K) (T : K) : Res (Sup K) := do
  require (0 ≤ T)
  require (0 < T)
  pure { s with T := T, fb := T }

/-- `timeline_.front().duration_ += d`. -/
def addFront (l : List (Phase K)) (d : K) : Res (List (Phase K)) :=
  match l with
  | [] => .error .outOfRange
  | p :: r => .ok (⟨p.type, p.duration + d⟩ :: r)

/-- `setStepPeriod`, lines 130-146. -/
def Sup.setStepPeriod (s : Sup K) (p : K) : Res (Sup K) := do
  require (0 < p)
  let ds ← s.isInDS
  if ds then pure { s with stepPeriod := p }
  else do
    require (0 < s.ttnp + p - s.stepPeriod)
    let tl ← addFront s.timeline (p - s.stepPeriod)
    pure { s with stepPeriod := p, ttnp := s.ttnp + (p - s.stepPeriod), timeline := tl }

/-- `setInitialDoubleSupportLength`, lines 148-167. -/
def Sup.setInitialDoubleSupportLength (s : Sup K) (p : K) : Res (Sup K) := do
  let ds ← s.isInDS
  if ds then do
    if p < s.dsPeriod - EPS then require (s.dsPeriod - p < s.ttnp + EPS) else pure ()
    let tl ← addFront s.timeline (p - s.dsPeriod)
    pure { s with dsPeriod := p, ttnp := s.ttnp + (p - s.dsPeriod), timeline := tl }
  else pure { s with dsPeriod := p }

/-- `setMove`, lines 345-349. -/
def Sup.setMove (s : Sup K) (m : Bool) : Sup K := { s with move := m }

/-- `getMaximumNbOfCopConstraints`, lines 351-359. -/
def Sup.maxNbCop (s : Sup K) : ℕ :=
  max (s.left.cop.vertices.size + s.right.cop.vertices.size) 0

/-- `getMaximumNbOfKinematicConstraints`, lines 361-366. -/
def Sup.maxNbKin (s : Sup K) : ℕ :=
  max s.left.kin.vertices.size s.right.kin.vertices.size

/-- `getKinematicConvexPolygon`, lines 390-415. -/
def Sup.kinPolygon (s : Sup K) (stepIndex : ℕ) : Res (Polygon K) := do
  require (stepIndex < s.M)
  let ds ← s.isInDS
  let i := if ds ∧ s.move = true then stepIndex + 1 else stepIndex
  let ph ← listAt s.timeline i
  match ph.type with
  | .leftSS => pure s.left.kin
  | .rightSS => pure s.right.kin
  | .DS => .error .aborted

/-- `getSupportFootStateX`, lines 417-431. -/
def Sup.supportX (s : Sup K) : Res (State3 K) := do
  let f ← listAt s.timeline 0
  if f.type = .rightSS then pure s.right.x.state
  else do
    let ds ← s.isInDS
    if ds ∧ s.move = false then
      pure ⟨(s.right.x.state.p + s.left.x.state.p) / 2, (s.right.x.state.v + s.left.x.state.v) / 2,
        (s.right.x.state.a + s.left.x.state.a) / 2⟩
    else pure s.left.x.state

/-- `getSupportFootStateY`, lines 433-446. -/
def Sup.supportY (s : Sup K) : Res (State3 K) := do
  let f ← listAt s.timeline 0
  if f.type = .rightSS then pure s.right.y.state
  else do
    let ds ← s.isInDS
    if ds ∧ s.move = false then
      pure ⟨(s.right.y.state.p + s.left.y.state.p) / 2, (s.right.y.state.v + s.left.y.state.v) / 2,
        (s.right.y.state.a + s.left.y.state.a) / 2⟩
    else pure s.left.y.state

/-- `while (t > T + EPSILON) t -= T`, lines 451-456 and 835-840. -/
noncomputable def timeToSample (T t : K) : Res K :=
  whileLoop (fun t => T + EPS < t) (fun t => .ok (t - T)) t

/-- `static_cast<int>`: truncation towards zero. Simplification: no integer overflow. -/
def truncInt [FloorRing K] (x : K) : ℤ := if 0 ≤ x then ⌊x⌋ else ⌈x⌉

/-- `getNbOfCallsBeforeNextSample`, lines 448-459. -/
noncomputable def Sup.nbCalls [FloorRing K] (s : Sup K) : Res ℤ := do
  let t ← timeToSample s.T s.ttnp
  if s.fb = 0 then .error .unspecified else pure (truncInt ((t + EPS) / s.fb))

/-- `processFSM`, lines 622-661: the type of the phase that follows a phase. -/
def Sup.nextType (s : Sup K) : PhaseType → PhaseType
  | .DS => if s.move then .leftSS else .DS
  | .leftSS => if s.move then .rightSS else .DS
  | .rightSS => if s.move then .leftSS else .DS

/-- `processFSM` and `setPhase`, lines 622-684. -/
def Sup.nextPhase (s : Sup K) (last : Phase K) : Phase K :=
  ⟨s.nextType last.type, s.period (s.nextType last.type)⟩

/-- `shortenStepVec`, lines 686-701. A negative `newNbOfSteps` makes `segment` fail. -/
def Sup.shorten (s : Sup K) (var : Vec K) : Res (Vec K) := do
  require (var.size % 2 = 0)
  requireIndex (s.N + 1 ≤ var.size / 2)
  let n := var.size / 2 - s.N - 1
  let v ← var.segment? 0 (2 * s.N + 2 * n)
  let v ← v.setSegment? (2 * s.N) n (← var.segment? (2 * s.N + 1) n)
  v.setSegment? (2 * s.N + n) n (← var.segment? (s.N + var.size / 2 + 1) n)

/-- Leftmost, rightmost, lowest and highest coordinates of the vertices `0 .. k`,
lines 731-756. -/
def bbox (p : Vec (Pt K)) : ℕ → Res (K × K × K × K)
  | 0 => do
    let a ← p.at? 0
    pure (a.x, a.x, a.y, a.y)
  | k + 1 => do
    let (l, r, b, t) ← bbox p k
    let a ← p.at? (k + 1)
    pure (if a.x < l then a.x else l, if r < a.x then a.x else r,
      if a.y < b then a.y else b, if t < a.y then a.y else t)

/-- `enlargeStepVec`, lines 703-775. A non positive `newNbOfSteps` makes `segment` fail. The
entries added by `conservativeResize` are unspecified; they are `var.get i` for `i ≥ var.size`
here, about which nothing is ever assumed. -/
def Sup.enlarge (s : Sup K) (var : Vec K) : Res (Vec K) := do
  require (var.size % 2 = 0)
  requireIndex (s.N ≤ var.size / 2)
  let n := var.size / 2 - s.N + 1
  let newSize := 2 * s.N + 2 * n
  let v := var.conservativeResize newSize
  let v ← v.setSegment? (2 * s.N + n) (n - 1) (← var.segment? (var.size / 2 + s.N) (n - 1))
  let cp ← s.kinPolygon (n - 1)
  require (0 < cp.vertices.size)
  let (l, r, b, t) ← bbox cp.vertices (cp.vertices.size - 1)
  let ds ← s.isInDS
  if ds ∧ s.M = 1 then do
    let v ← v.set? (2 * s.N + n - 1) (s.left.x.state.p + (r + l) / 2)
    v.set? (newSize - 1) (s.left.y.state.p + (b + t) / 2)
  else do
    let v ← v.set? (2 * s.N + n - 1) ((← v.at? (2 * s.N + n - 2)) + (r + l) / 2)
    v.set? (newSize - 1) ((← v.at? (newSize - 2)) + (b + t) / 2)

/-- `while (variable.rows() < 2N + 2M) enlargeStepVec(variable)`, lines 525-528. -/
noncomputable def Sup.enlargeLoop (s : Sup K) (var : Vec K) : Res (Vec K) :=
  whileLoop (fun v => v.size < 2 * s.N + 2 * s.M) s.enlarge var

/-- Lines 530-534: when stopping, keep only the first footstep. -/
def Sup.trim (s : Sup K) (var : Vec K) : Res (Vec K) :=
  if s.move = false ∧ 2 * s.N + 2 < var.size then do
    let v ← var.set? (2 * s.N + 1) (← var.at? (var.size / 2 + s.N))
    pure (v.conservativeResize (2 * s.N + 2))
  else pure var

/-- Variables of the main loop of `updateTimeline`. -/
structure TLState (K : Type) where
  sup : Sup K
  idx : ℕ
  phaseTimer : K
  horizon : K
  var : Vec K

/-- Lines 503-522: when the current phase is over, the next phase is previewed. -/
def TLState.nextPhase (l : TLState K) : Res (TLState K) :=
  if l.phaseTimer < EPS then do
    let last ← listAt l.sup.timeline l.idx
    let ph := l.sup.nextPhase last
    let tl := if l.idx + 1 = l.sup.timeline.length then l.sup.timeline ++ [ph]
      else l.sup.timeline.set (l.idx + 1) ph
    pure { l with
      sup := { l.sup with timeline := tl, M := if last.type = .DS then l.sup.M else l.sup.M + 1 },
      phaseTimer := ph.duration, idx := l.idx + 1 }
  else pure l

/-- One iteration of the main loop, lines 501-539. -/
noncomputable def TLState.body (l : TLState K) : Res (TLState K) := do
  let l ← l.nextPhase
  let var ← l.sup.enlargeLoop l.var
  let var ← l.sup.trim var
  pure { l with var := var, phaseTimer := l.phaseTimer - l.sup.T, horizon := l.horizon - l.sup.T }

/-- Lines 481-492: the current phase is over. -/
def Sup.popPhase (s : Sup K) (var : Vec K) : Res (Sup K × Vec K) :=
  if s.ttnp < EPS then do
    let ds ← s.isInDS
    let var ← if ds then pure var else s.shorten var
    let f ← listAt s.timeline.tail 0
    pure ({ s with timeline := s.timeline.tail, ttnp := f.duration }, var)
  else pure (s, var)

/-- `computeSampleWeightMatrix`, lines 832-849. -/
noncomputable def Sup.sampleWeight (s : Sup K) : Res (Mat K) := do
  let t ← timeToSample s.T s.ttnp
  if s.T = 0 then .error .unspecified else do
    let w ← (Mat.one s.N).set? 0 0 (t / s.T)
    requireIndex (0 < s.N)
    w.set? (s.N - 1) (s.N - 1) (105 / 100 - (← w.at? 0 0))

/-- Variables of `computeSelectionMatrix`. -/
structure SelState (K : Type) where
  V0 : Mat K
  V : Mat K
  phaseIdx : Vec ℕ
  row : ℕ
  col : ℕ
  phase : ℕ
  phaseTimer : K
  horizon : K

/-- Body of the first loop of `computeSelectionMatrix`, lines 862-867. -/
def Sup.selFirst (s : Sup K) (l : SelState K) : Res (SelState K) := do
  let V0 ← l.V0.set? l.row 0 1
  pure { l with V0 := V0, phaseTimer := l.phaseTimer - s.T, row := l.row + 1 }

/-- Body of the inner loop of `computeSelectionMatrix`, lines 878-896. -/
def Sup.selInner (s : Sup K) (l : SelState K) : Res (SelState K) := do
  let ds ← s.isInDS
  let l ← if ds ∧ (l.phase = 1 ∨ s.move = false) then do
      pure { l with V0 := ← l.V0.set? l.row 0 1 }
    else do
      pure { l with V := ← l.V.set? l.row l.col 1 }
  let idx ← l.phaseIdx.set? l.row l.phase
  pure { l with phaseIdx := idx, row := l.row + 1, phaseTimer := l.phaseTimer - s.T,
                horizon := l.horizon - s.T }

/-- Body of the outer loop of `computeSelectionMatrix`, lines 874-904. -/
noncomputable def Sup.selOuter (s : Sup K) (l : SelState K) : Res (SelState K) := do
  let ph ← listAt s.timeline l.phase
  let l ← whileLoop (fun l => EPS < l.phaseTimer ∧ l.row < s.N) s.selInner
    { l with phaseTimer := ph.duration }
  let ds ← s.isInDS
  pure { l with
    col := if s.move = true ∧ (ds = false ∨ 1 < l.phase) then l.col + 1 else l.col,
    phase := l.phase + 1 }

/-- `computeSelectionMatrix` and `computeFeetPosDynamic`, lines 851-923. The assertions of
`computeFeetPosDynamic` compare a cast matrix with itself and always hold. -/
noncomputable def Sup.selection (s : Sup K) : Res (Sup K) := do
  require (0 < s.N)
  let l : SelState K := ⟨Mat.zero s.N 1, Mat.zero s.N s.M, Vec.const s.N 0, 0, 0, 1, s.ttnp, 0⟩
  let l ← whileLoop (fun l => s.T + EPS < l.phaseTimer ∧ l.row < s.N) s.selFirst l
  let l ← whileLoop (fun l => -EPS < l.horizon) s.selOuter
    { l with horizon := s.N * s.T - s.ttnp }
  pure { s with V0 := l.V0, V := l.V, VT := l.V.transpose, phaseIdx := l.phaseIdx }

/-- `updateTimeline`, lines 472-550. Returns the new decision vector as well. -/
noncomputable def Sup.updateTimeline (s : Sup K) (var : Vec K) (fb : K) :
    Res (Sup K × Vec K) := do
  require (0 < s.timeline.length)
  require (2 * s.N ≤ var.size)
  let s := { s with fb := fb }
  let (s, var) ← s.popPhase var
  let l ← whileLoop (fun l : TLState K => -EPS < l.horizon) TLState.body
    ⟨{ s with M := 0 }, 0, s.ttnp, s.N * s.T, var⟩
  let s := { l.sup with timeline := l.sup.timeline.take (l.idx + 1) }
  let sv ← l.var.segment? (2 * s.N) (l.var.size - 2 * s.N)
  let s := { s with stepVec := sv }
  let w ← s.sampleWeight
  let s := { s with weight := w }
  let s ← s.selection
  pure (s, l.var)

/-- `rotationMatrix_`, lines 925-938, and its transpose. -/
def Sup.rotation (s : Sup K) : Mat K := Mat.one (2 * s.N)

/-- Update of the flying foot in `updateFeetStates`, lines 581-601. -/
def Foot.fly (f : Foot K) (tx ty flyingTime ttnp fb : K) : Res (Foot K) := do
  let x ← interpolateTrajectory f.x ⟨tx, 0, 0⟩ ttnp fb
  let y ← interpolateTrajectory f.y ⟨ty, 0, 0⟩ ttnp fb
  let z ← if ttnp < flyingTime / 2 + EPS then interpolateTrajectory f.z ⟨0, 0, 0⟩ ttnp fb
    else interpolateTrajectory f.z ⟨f.maxHeight, 0, 0⟩ (ttnp - flyingTime / 2) fb
  pure { f with x := x, y := y, z := z }

/-- `updateFeetStates`, lines 552-606. -/
def Sup.updateFeetStates (s : Sup K) (stepVec : Vec K) (fb : K) : Res (Sup K) := do
  let s := { s with stepVec := stepVec }
  let f ← listAt s.timeline 0
  let flyingTime := f.duration - s.T
  let ds ← s.isInDS
  let s ← if ds = false ∧ s.ttnp < flyingTime + EPS then do
      match f.type with
      | .leftSS => do
        let foot ← s.right.fly (← stepVec.at? 0) (← stepVec.at? s.M) flyingTime s.ttnp fb
        pure { s with right := foot }
      | .rightSS => do
        let foot ← s.left.fly (← stepVec.at? 0) (← stepVec.at? s.M) flyingTime s.ttnp fb
        pure { s with left := foot }
      | .DS => .error .aborted
    else pure s
  pure { s with ttnp := s.ttnp - fb }

/-- The points of the double support polygon, in the frame of the support foot,
`computeDSCopConvexPolygon`, lines 777-829 (all but the construction of the polygon). -/
def Sup.dsCopPoints (s : Sup K) : Res (Vec (Pt K)) := do
  let ds ← s.isInDS
  let l0 : Pt K := ⟨s.left.x.state.p, s.left.y.state.p⟩
  let r0 : Pt K := ⟨s.right.x.state.p, s.right.y.state.p⟩
  let (l, r, t) ← if ds = false ∧ s.move = false then do
      let f ← listAt s.timeline 0
      let p : Pt K := ⟨← s.stepVec.at? 0, ← s.stepVec.at? s.M⟩
      if f.type = .leftSS then pure (l0, p, p) else pure (p, r0, p)
    else if ds = true ∧ s.move = false then
      pure (l0, r0, (⟨(r0.x + l0.x) / 2, (r0.y + l0.y) / 2⟩ : Pt K))
    else pure (l0, r0, l0)
  let n1 := s.left.cop.vertices.size
  let n2 := s.right.cop.vertices.size
  pure ⟨n1 + n2, fun i =>
    if i < n1 then
      ⟨(s.left.cop.vertices.get i).x + l.x - t.x, (s.left.cop.vertices.get i).y + l.y - t.y⟩
    else ⟨(s.right.cop.vertices.get (i - n1)).x + r.x - t.x,
      (s.right.cop.vertices.get (i - n1)).y + r.y - t.y⟩⟩

/-- `getCopConvexPolygon`, lines 368-388. The constructor of `ConvexPolygon` is a parameter: it
needs square roots and arc cosines (`Polygon.ofPoints` in `Verif.Model.Hull`). -/
def Sup.copPolygon (s : Sup K) (hull : Vec (Pt K) → Res (Polygon K)) (sample : ℕ) :
    Res (Polygon K) := do
  let i ← s.phaseIdx.at? sample
  let ph ← listAt s.timeline i
  match ph.type with
  | .DS => do hull (← s.dsCopPoints)
  | .leftSS => pure s.left.cop
  | .rightSS => pure s.right.cop

end MPC
