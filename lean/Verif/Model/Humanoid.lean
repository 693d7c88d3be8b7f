import Verif.Model.Lip
import Verif.Model.QP

/-!
# `HumanoidWalkgen`: `/repo/src/humanoid_walkgen.cpp`, `/repo/src/function/humanoid_*.cpp`

* Assertions are enabled (debug build); `assert(v == v)` always holds in a field.
* The objectives and constraints hold references to the LIP model and to the supervisor and no state
  of their own, except the velocity reference and the size of the two bound vectors of the CoP
  constraint. Their buffers are overwritten before each use.
* The setters of the yaw bounds store numbers that no function reads: they are left out.
* The constructor of `ConvexPolygon` (for the double support polygon) is the parameter `hull`.
-/

namespace MPC

open Finset

variable {K : Type} [Field K] [LinearOrder K]

/-- A matrix with one column as a vector. -/
def Mat.toVec? (A : Mat K) : Res (Vec K) := do
  requireSize (A.cols = 1)
  pure ⟨A.rows, fun i => A.get i 0⟩

/-- `A.block(r, c, h, w) += B`. -/
def Mat.addBlock? (A : Mat K) (r c h w : ℕ) (B : Mat K) : Res (Mat K) := do
  requireIndex (r + h ≤ A.rows ∧ c + w ≤ A.cols)
  requireSize (B.rows = h ∧ B.cols = w)
  pure ⟨A.rows, A.cols, fun i j =>
    if (r ≤ i ∧ i < r + h) ∧ (c ≤ j ∧ j < c + w) then A.get i j + B.get (i - r) (j - c)
    else A.get i j⟩

/-- Use of an inverse: the inverse of a singular matrix is unspecified. -/
def getInv (o : Option (Mat K)) : Res (Mat K) :=
  match o with
  | some A => .ok A
  | none => .error .unspecified

/-! ### Objectives -/

/-- The `2N × (2N+2M)` matrix `tmp` of the Hessians,
`/repo/src/function/humanoid_lip_com_jerk_minimization_objective.cpp:86-90`,
`/repo/src/function/humanoid_lip_com_velocity_tracking_objective.cpp:100-104`. -/
def Sup.copMap (s : Sup K) (N : ℕ) : Res (Mat K) := do
  let t := Mat.zero (2 * N) (2 * N + 2 * s.M)
  let t ← t.setBlock? 0 0 (2 * N) (2 * N) s.rotation.transpose
  let t ← t.setBlock? 0 (2 * N) N s.M s.V
  t.setBlock? N (2 * N + s.M) N s.M s.V

/-- The `(2N+2M) × 2N` matrix `tmp` of the gradients,
`/repo/src/function/humanoid_lip_com_jerk_minimization_objective.cpp:51-54`,
`/repo/src/function/humanoid_lip_com_velocity_tracking_objective.cpp:72-76`. -/
def Sup.copMapT (s : Sup K) (N : ℕ) : Res (Mat K) := do
  let t := Mat.zero (2 * N + 2 * s.M) (2 * N)
  let t ← t.setBlock? 0 0 (2 * N) (2 * N) s.rotation
  let t ← t.setBlock? (2 * N) 0 s.M N s.VT
  t.setBlock? (2 * N + s.M) N s.M N s.VT

/-- `tmp2` of the Hessians: a block diagonal `2N × 2N` matrix. -/
def blockDiag (N : ℕ) (A B : Mat K) : Res (Mat K) := do
  let t := Mat.zero (2 * N) (2 * N)
  let t ← t.setBlock? 0 0 N N A
  t.setBlock? N N N N B

/-- `tmp2` of the gradients: two vectors of size `N`. -/
def stack (N : ℕ) (a b : Vec K) : Res (Vec K) := do
  let t := Vec.const (2 * N) 0
  let t ← t.setSegment? 0 N a
  t.setSegment? N N b

/-- `hessian_ = tmp.transpose()*tmp2*tmp`. -/
def sandwich (t m : Mat K) : Res (Mat K) := do
  (← t.transpose.mul? m).mul? t

/-- `getNbOfCallsBeforeNextSample() - 1`. -/
noncomputable def Sup.nb [FloorRing K] (s : Sup K) : Res ℤ := do
  pure ((← s.nbCalls) - 1)

/-- `dynCop.UTinv*weight*dynCop.Uinv`. -/
def jerkBlock (d : LinearDynamic K) (W : Mat K) : Res (Mat K) := do
  (← (← getInv d.UTinv).mul? W).mul? (← getInv d.Uinv)

/-- `HumanoidLipComJerkMinimizationObjective::getHessian`,
`/repo/src/function/humanoid_lip_com_jerk_minimization_objective.cpp:72-101`. -/
noncomputable def jerkHessian [FloorRing K] (l : Lip K) (s : Sup K) : Res (Mat K) := do
  require (s.N = l.N)
  let nb ← s.nb
  let dx ← l.dyn l.copX nb
  let dy ← l.dyn l.copY nb
  let t ← s.copMap l.N
  sandwich t (← blockDiag l.N (← jerkBlock dx s.weight) (← jerkBlock dy s.weight))

/-- Lines 57-65 of the jerk objective, along one axis. -/
def jerkSegment (d : LinearDynamic K) (W V0 : Mat K) (s0 : K) (st : State3 K) : Res (Vec K) := do
  let Q ← jerkBlock d W
  let a ← (← Q.mul? V0).toVec?
  let b ← (← d.S.mulVec? st.toVec).add? d.C
  (Vec.smul s0 a).sub? (← Q.mulVec? b)

/-- `HumanoidLipComJerkMinimizationObjective::getGradient`,
`/repo/src/function/humanoid_lip_com_jerk_minimization_objective.cpp:31-70`. -/
noncomputable def jerkGradient [FloorRing K] (l : Lip K) (s : Sup K) (x0 : Vec K) : Res (Vec K) := do
  require (x0.size = 2 * l.N + 2 * s.M)
  let nb ← s.nb
  let dx ← l.dyn l.copX nb
  let dy ← l.dyn l.copY nb
  let t ← s.copMapT l.N
  let a ← jerkSegment dx s.weight s.V0 (← s.supportX).p l.x
  let b ← jerkSegment dy s.weight s.V0 (← s.supportY).p l.y
  let g ← t.mulVec? (← stack l.N a b)
  g.add? (← (← jerkHessian l s).mulVec? x0)

/-- `dynCop.UTinv*dynComVel.UT*weight*dynComVel.U*dynCop.Uinv`. -/
def velBlock (d dv : LinearDynamic K) (W : Mat K) : Res (Mat K) := do
  (← (← (← (← getInv d.UTinv).mul? dv.UT).mul? W).mul? dv.U).mul? (← getInv d.Uinv)

/-- `HumanoidLipComVelocityTrackingObjective::getHessian`,
`/repo/src/function/humanoid_lip_com_velocity_tracking_objective.cpp:84-116`. -/
noncomputable def velHessian [FloorRing K] (l : Lip K) (s : Sup K) : Res (Mat K) := do
  require (s.N = l.N)
  let nb ← s.nb
  let dx ← l.dyn l.copX nb
  let dy ← l.dyn l.copY nb
  let dv ← l.dyn l.vel nb
  let t ← s.copMap l.N
  sandwich t (← blockDiag l.N (← velBlock dx dv s.weight) (← velBlock dy dv s.weight))

/-- Lines 55-70 of the velocity objective, along one axis. -/
def velSegment (d dv : LinearDynamic K) (W V0 : Mat K) (s0 : K) (st : State3 K) (ref : Vec K) :
    Res (Vec K) := do
  let B ← dv.U.mul? (← getInv d.Uinv)
  let c ← (← d.S.mulVec? st.toVec).add? d.C
  let e ← (← dv.S.mulVec? st.toVec).sub? (← B.mulVec? c)
  let e ← e.add? (Vec.smul s0 (← (← B.mul? V0).toVec?))
  let e ← e.sub? ref
  let e ← W.mulVec? e
  (← (← getInv d.UTinv).mul? dv.UT).mulVec? e

/-- `HumanoidLipComVelocityTrackingObjective::getGradient`,
`/repo/src/function/humanoid_lip_com_velocity_tracking_objective.cpp:32-82`. -/
noncomputable def velGradient [FloorRing K] (l : Lip K) (s : Sup K) (velRef x0 : Vec K) :
    Res (Vec K) := do
  require (velRef.size = 2 * l.N)
  require (x0.size = 2 * s.N + 2 * s.M)
  let nb ← s.nb
  let dx ← l.dyn l.copX nb
  let dy ← l.dyn l.copY nb
  let dv ← l.dyn l.vel nb
  let a ← velSegment dx dv s.weight s.V0 (← s.supportX).p l.x (← velRef.segment? 0 l.N)
  let b ← velSegment dy dv s.weight s.V0 (← s.supportY).p l.y (← velRef.segment? l.N l.N)
  let t ← s.copMapT l.N
  let g ← t.mulVec? (← stack l.N a b)
  g.add? (← (← velHessian l s).mulVec? x0)

/-- `HumanoidCopCenteringObjective::getHessian`,
`/repo/src/function/humanoid_cop_centering_objective.cpp:41-51`. -/
def centeringHessian (l : Lip K) (s : Sup K) : Res (Mat K) := do
  let h := Mat.one (2 * l.N + 2 * s.M)
  h.setBlock? (2 * l.N) (2 * l.N) (2 * s.M) (2 * s.M) (Mat.zero (2 * s.M) (2 * s.M))

/-- `HumanoidCopCenteringObjective::getGradient`,
`/repo/src/function/humanoid_cop_centering_objective.cpp:29-39`. -/
def centeringGradient (l : Lip K) (s : Sup K) (x0 : Vec K) : Res (Vec K) := do
  require (s.N = l.N)
  require (x0.size = 2 * l.N + 2 * s.M)
  (← centeringHessian l s).mulVec? x0

/-! ### Constraints -/

/-- `A_`, `b_` and the running number of rows of the constraints. -/
structure Rows (K : Type) where
  A : Mat K
  b : Vec K
  since : ℕ

/-- Number of rows given by the polygons: `computeNbGeneralConstraints`,
`/repo/src/function/humanoid_cop_constraint.cpp:98-108`,
`/repo/src/function/humanoid_foot_constraint.cpp:104-113`. -/
def nbRows (ps : Vec (Polygon K)) : ℕ := ∑ i ∈ range ps.size, (ps.get i).nbGeneral

/-- The loop over the polygons, after `k` iterations. -/
def rowsLoop (step : ℕ → Polygon K → Rows K → Res (Rows K)) (ps : Vec (Polygon K)) (r : Rows K) :
    ℕ → Res (Rows K)
  | 0 => pure r
  | k + 1 => do
    let r ← rowsLoop step ps r k
    step k (← ps.at? k) r

/-- `computeGeneralConstraintsMatrices`: initial matrices and loop. -/
def generalRows (step : ℕ → Polygon K → Rows K → Res (Rows K)) (ps : Vec (Polygon K))
    (sizeVec : ℕ) : Res (Rows K) :=
  rowsLoop step ps ⟨Mat.zero (nbRows ps) sizeVec, Vec.const (nbRows ps) MAXBOUND, 0⟩ ps.size

/-- Body of the loop over the samples,
`/repo/src/function/humanoid_cop_constraint.cpp:127-148`. The inner loop writes the rows
`since .. since + n - 1`: it is written as entry functions. -/
def copStep (N i : ℕ) (g : Polygon K) (r : Rows K) : Res (Rows K) := do
  let n := g.nbGeneral
  requireIndex (n ≤ g.coefX.size ∧ n ≤ g.coefY.size)
  requireIndex (n = 0 ∨ (r.since + n ≤ r.A.rows ∧ r.since + n ≤ r.b.size ∧ i + N < r.A.cols))
  pure ⟨⟨r.A.rows, r.A.cols, fun k c =>
      if r.since ≤ k ∧ k < r.since + n then
        if c = i + N then g.coefY.get (k - r.since)
        else if c = i then g.coefX.get (k - r.since)
        else r.A.get k c
      else r.A.get k c⟩,
    ⟨r.b.size, fun k =>
      if r.since ≤ k ∧ k < r.since + n then g.const.get (k - r.since) else r.b.get k⟩,
    r.since + n⟩

/-- The polygons of the samples. -/
def Sup.copPolygons (s : Sup K) (hull : Vec (Pt K) → Res (Polygon K)) (N : ℕ) :
    Res (Vec (Polygon K)) :=
  buildVec Polygon.none (s.copPolygon hull) N

/-- `computeBoundsVectors`, `/repo/src/function/humanoid_cop_constraint.cpp:151-172`:
(`infBound_`, `supBound_`), vectors of size `boundSize` whose `2N` first entries are assigned. -/
def copBounds (N boundSize : ℕ) (ps : Vec (Polygon K)) (x0 : Vec K) : Res (Vec K × Vec K) := do
  require (x0.size = 2 * N)
  requireIndex (2 * N ≤ boundSize)
  let inf : Vec K := ⟨boundSize, fun c => if c < N then (ps.get c).xInf
    else if c < 2 * N then (ps.get (c - N)).yInf else -MAXBOUND⟩
  let sup : Vec K := ⟨boundSize, fun c => if c < N then (ps.get c).xSup
    else if c < 2 * N then (ps.get (c - N)).ySup else MAXBOUND⟩
  pure (← inf.sub? x0, ← sup.sub? x0)

/-- Body of the loop over the steps,
`/repo/src/function/humanoid_foot_constraint.cpp:133-173`. -/
def footStep (N M : ℕ) (sx sy : K) (i : ℕ) (g : Polygon K) (r : Rows K) : Res (Rows K) := do
  let n := g.nbGeneral
  requireIndex (n ≤ g.coefX.size ∧ n ≤ g.coefY.size)
  requireIndex (n = 0 ∨ (r.since + n ≤ r.A.rows ∧ r.since + n ≤ r.b.size ∧
    2 * N + M + i < r.A.cols))
  pure ⟨⟨r.A.rows, r.A.cols, fun k c =>
      if r.since ≤ k ∧ k < r.since + n then
        if c = 2 * N + i then g.coefX.get (k - r.since)
        else if c = 2 * N + M + i then g.coefY.get (k - r.since)
        else if 0 < i ∧ c = 2 * N + i - 1 then r.A.get k c - g.coefX.get (k - r.since)
        else if 0 < i ∧ c = 2 * N + i - 1 + M then r.A.get k c - g.coefY.get (k - r.since)
        else r.A.get k c
      else r.A.get k c⟩,
    ⟨r.b.size, fun k =>
      if r.since ≤ k ∧ k < r.since + n then
        if i = 0 then g.const.get (k - r.since)
          - (g.coefX.get (k - r.since) * sx + g.coefY.get (k - r.since) * sy)
        else g.const.get (k - r.since)
      else r.b.get k⟩,
    r.since + n⟩

/-- The polygons of the steps. -/
def Sup.kinPolygons (s : Sup K) : Res (Vec (Polygon K)) :=
  buildVec Polygon.none s.kinPolygon s.M

/-- `computeBoundsVectors`, `/repo/src/function/humanoid_foot_constraint.cpp:176-217`. -/
def footBounds (M : ℕ) (ps : Vec (Polygon K)) (sx sy : K) (x0 : Vec K) : Res (Vec K × Vec K) := do
  require (x0.size = 2 * M)
  let inf : Vec K := ⟨2 * M, fun c => if c < M then
      (ps.get c).xInf + (if c = 0 then sx else x0.get (c - 1))
    else (ps.get (c - M)).yInf + (if c = M then sy else x0.get (c - 1))⟩
  let sup : Vec K := ⟨2 * M, fun c => if c < M then
      (ps.get c).xSup + (if c = 0 then sx else x0.get (c - 1))
    else (ps.get (c - M)).ySup + (if c = M then sy else x0.get (c - 1))⟩
  pure (← inf.sub? x0, ← sup.sub? x0)

/-- A constraint evaluated at `x0`: gradient, function and bounds. -/
structure ConstraintAt (K : Type) where
  A : Mat K
  f : Vec K
  inf : Vec K
  sup : Vec K

/-- `HumanoidCopConstraint::getGradient`, `getFunction`, `getInfBounds`, `getSupBounds`,
`/repo/src/function/humanoid_cop_constraint.cpp:46-96`. -/
def copConstraint (hull : Vec (Pt K) → Res (Polygon K)) (l : Lip K) (s : Sup K) (boundSize : ℕ)
    (x0 : Vec K) : Res (ConstraintAt K) := do
  require (s.N = l.N)
  require (x0.size = 2 * l.N + 2 * s.M)
  let ps ← s.copPolygons hull l.N
  let r ← generalRows (copStep l.N) ps x0.size
  let f ← (← r.A.mulVec? x0).add? r.b
  let (inf, sup) ← copBounds l.N boundSize ps (← x0.segment? 0 (2 * l.N))
  pure ⟨r.A, f, inf, sup⟩

/-- `HumanoidFootConstraint::getGradient`, `getFunction`, `getInfBounds`, `getSupBounds`,
`/repo/src/function/humanoid_foot_constraint.cpp:49-102`. -/
def footConstraint (l : Lip K) (s : Sup K) (x0 : Vec K) : Res (ConstraintAt K) := do
  require (s.N = l.N)
  require (x0.size = 2 * l.N + 2 * s.M)
  let ps ← s.kinPolygons
  let sx := (← s.supportX).p
  let sy := (← s.supportY).p
  let r ← generalRows (footStep s.N s.M sx sy) ps x0.size
  let f ← (← r.A.mulVec? x0).add? r.b
  let (inf, sup) ← footBounds s.M ps sx sy (← x0.segment? (2 * l.N) (2 * s.M))
  pure ⟨r.A, f, inf, sup⟩

/-! ### The generator -/

/-- `HumanoidWalkgenWeighting`, `/repo/mpc-walkgen/humanoid_walkgen_type.h:19-32`. -/
structure HWeighting (K : Type) where
  velocityTracking : K
  copCentering : K
  jerkMinimization : K

/-- `HumanoidWalkgen`, `/repo/mpc-walkgen/humanoid_walkgen.h:157-194`. `boundSize` is the size of
the bound vectors of the CoP constraint; `calls` numbers the calls to qpOASES. `move_` and
`maximumNbOfSteps_` are only copies of members of the supervisor used in `computeConstantPart`. -/
structure HWalkgen (K : Type) where
  sup : Sup K
  lip : Lip K
  velRef : Vec K
  boundSize : ℕ
  solvers : List (SolverState K)
  dX : Vec K
  X : Vec K
  transformedX : Vec K
  qps : List (QPMatrices K)
  weighting : HWeighting K
  withCop : Bool
  withFeet : Bool
  maxCtr : ℕ
  first : Bool
  calls : ℕ

/-- The zero matrices set at `/repo/src/humanoid_walkgen.cpp:484-496`. -/
def zeroQP (nbVar nbCtr : ℕ) : QPMatrices K :=
  { Q := Mat.zero nbVar nbVar, p := Vec.const nbVar 0, A := Mat.zero nbCtr nbVar
    bl := Vec.const nbCtr (-MAXBOUND), bu := Vec.const nbCtr MAXBOUND
    xl := Vec.const nbVar (-MAXBOUND), xu := Vec.const nbVar MAXBOUND }

/-- The pairs `(i, j)` in the order of the loops, `/repo/src/humanoid_walkgen.cpp:477-479`:
entry `k` is `(k / (maxCtr + 1), k % (maxCtr + 1))`. -/
def HWalkgen.table {α : Type} (steps maxCtr : ℕ) (f : ℕ → ℕ → α) : List α :=
  (List.range ((steps + 1) * (maxCtr + 1))).map fun k => f (k / (maxCtr + 1)) (k % (maxCtr + 1))

/-- `HumanoidWalkgen::computeConstantPart`, `/repo/src/humanoid_walkgen.cpp:456-499`: the new solvers
are appended to the old ones (`push_back`). -/
def HWalkgen.computeConstantPart (w : HWalkgen K) : HWalkgen K :=
  let m := if w.withCop then w.sup.maxNbCop * w.sup.N else w.maxCtr
  let m := if w.withFeet then m + w.sup.maxNbKin * w.sup.N else m
  { w with
    maxCtr := m
    solvers := w.solvers ++ HWalkgen.table w.sup.N m fun i j => SolverState.make (2 * w.lip.N + 2 * i) j
    qps := HWalkgen.table w.sup.N m fun i j => zeroQP (2 * w.lip.N + 2 * i) j }

/-- `HumanoidWalkgen::HumanoidWalkgen`, `/repo/src/humanoid_walkgen.cpp:18-39`, with the assertions
of the constructors of its members. -/
def HWalkgen.make [FloorRing K] : Res (HWalkgen K) := do
  let sup ← Sup.init 1 1
  let lip ← Lip.make 1 1 true
  require (sup.N = lip.N)
  require (|sup.T - lip.T| < EPS)
  pure (HWalkgen.computeConstantPart
    { sup := sup, lip := lip, velRef := Vec.const (2 * lip.N) 0, boundSize := 2 * lip.N, solvers := []
      dX := Vec.const (2 * lip.N + 2 * sup.M) 0, X := Vec.const (2 * lip.N + 2 * sup.M) 0
      transformedX := Vec.const 0 0, qps := [], weighting := ⟨0, 0, 0⟩, withCop := false
      withFeet := false, maxCtr := 0, first := true, calls := 0 })

/-- `CoP` of the CoM state with zero horizontal gravity, `/repo/src/humanoid_walkgen.cpp:340-343`. -/
def copGuess (st : State3 K) (h : K) : K := st.p - h * st.a / GRAVITY_NORM

/-- Lines 338-356 of `solve`: the first plan is the current CoP, relative to the left foot. -/
def HWalkgen.firstGuess (w : HWalkgen K) : Res (HWalkgen K) :=
  if w.first then do
    let N := w.lip.N
    let rot := w.sup.rotation
    let gx := Vec.const N (copGuess w.lip.x w.lip.z.p - w.sup.left.x.state.p)
    let gy := Vec.const N (copGuess w.lip.y w.lip.z.p - w.sup.left.y.state.p)
    let a ← (← (← rot.block? 0 0 N N).mulVec? gx).add? (← (← rot.block? 0 N N N).mulVec? gy)
    let X ← w.X.setSegment? 0 N a
    let b ← (← (← rot.block? N 0 N N).mulVec? gx).add? (← (← rot.block? N N N N).mulVec? gy)
    let X ← X.setSegment? N N b
    pure { w with X := X, first := false }
  else pure w

/-- Lines 319-356 of `solve`. -/
noncomputable def HWalkgen.begin [FloorRing K] (w : HWalkgen K) (fb : K) : Res (HWalkgen K) := do
  let (sup, X) ← w.sup.updateTimeline w.X fb
  let lip ← if EPS < |fb - w.lip.fb| then w.lip.setFeedbackPeriod fb else pure w.lip
  require (0 < fb)
  require (sup.N = lip.N)
  HWalkgen.firstGuess { w with sup := sup, X := X, lip := lip }

/-- Lines 332-334 of `solve`: number of rows of the two constraints. -/
def HWalkgen.nbCtr (hull : Vec (Pt K) → Res (Polygon K)) (w : HWalkgen K) : Res (ℕ × ℕ) := do
  let a ← if w.withCop then do pure (nbRows (← w.sup.copPolygons hull w.lip.N)) else pure 0
  let b ← if w.withFeet then do pure (nbRows (← w.sup.kinPolygons)) else pure 0
  pure (a, b)

/-- Lines 362-368 of `solve`. -/
def QPMatrices.reset (q : QPMatrices K) : QPMatrices K :=
  { Q := ⟨q.Q.rows, q.Q.cols, fun _ _ => 0⟩, p := q.p.fill 0
    A := ⟨q.A.rows, q.A.cols, fun _ _ => 0⟩, bl := q.bl.fill (-MAXBOUND), bu := q.bu.fill MAXBOUND
    xl := q.xl.fill (-MAXBOUND), xu := q.xu.fill MAXBOUND }

/-- `if (weight > 0) { Q += weight*hessian; p += weight*gradient; }`. -/
def QPMatrices.addObjective (q : QPMatrices K) (w : K) (h : Res (Mat K)) (g : Res (Vec K)) :
    Res (QPMatrices K) :=
  if 0 < w then do
    let Q ← q.Q.add? (Mat.smul w (← h))
    let p ← q.p.add? (Vec.smul w (← g))
    pure { q with Q := Q, p := p }
  else pure q

/-- Lines 401-409 and 414-422 of `solve`: rows `r0 .. r0+n-1`, variables `c0 .. c0+len-1`. -/
def QPMatrices.addConstraint (q : QPMatrices K) (r0 n c0 len sizeVec : ℕ) (c : ConstraintAt K) :
    Res (QPMatrices K) := do
  let A ← q.A.addBlock? r0 0 n sizeVec c.A
  let bu ← q.bu.setSegment? r0 n (← (← q.bu.segment? r0 n).cwiseMin? c.f.neg)
  let xl ← q.xl.setSegment? c0 len (← (← q.xl.segment? c0 len).cwiseMax? c.inf)
  let xu ← q.xu.setSegment? c0 len (← (← q.xu.segment? c0 len).cwiseMin? c.sup)
  pure { q with A := A, bu := bu, xl := xl, xu := xu }

/-- Index of the problem, line 335 of `solve`. -/
def HWalkgen.index (w : HWalkgen K) (nbCtr : ℕ) : ℕ := w.sup.M * (w.maxCtr + 1) + nbCtr

/-- Lines 360-423 of `solve`: the QP before normalisation. -/
noncomputable def HWalkgen.fillQP [FloorRing K] (hull : Vec (Pt K) → Res (Polygon K)) (w : HWalkgen K)
    (nbCop nbFoot : ℕ) (q : QPMatrices K) : Res (QPMatrices K) := do
  let N := w.lip.N
  let sizeVec := 2 * N + 2 * w.sup.M
  let q ← q.reset.addObjective w.weighting.velocityTracking (velHessian w.lip w.sup)
    (velGradient w.lip w.sup w.velRef w.X)
  let q ← q.addObjective w.weighting.jerkMinimization (jerkHessian w.lip w.sup)
    (jerkGradient w.lip w.sup w.X)
  let q ← q.addObjective w.weighting.copCentering (centeringHessian w.lip w.sup)
    (centeringGradient w.lip w.sup w.X)
  let q ← if w.withCop then do
      let c ← copConstraint hull w.lip w.sup w.boundSize w.X
      q.addConstraint 0 nbCop 0 (2 * N) sizeVec c
    else pure q
  if w.withFeet then do
    let c ← footConstraint w.lip w.sup w.X
    q.addConstraint nbCop nbFoot (2 * N) (2 * w.sup.M) sizeVec c
  else pure q

/-- `v.segment(o, n) += u`. -/
def Vec.addSegment? (v : Vec K) (o n : ℕ) (u : Vec K) : Res (Vec K) := do
  v.setSegment? o n (← (← v.segment? o n).add? u)

/-- `v.segment(o, n) -= u`. -/
def Vec.subSegment? (v : Vec K) (o n : ℕ) (u : Vec K) : Res (Vec K) := do
  v.setSegment? o n (← (← v.segment? o n).sub? u)

/-- `/repo/src/humanoid_walkgen.cpp:517-520`: the local CoP in the world frame. -/
def HWalkgen.rotated (w : HWalkgen K) (N : ℕ) : Res (Vec K) := do
  let rotT := w.sup.rotation.transpose
  let X0 ← w.X.segment? 0 N
  let X1 ← w.X.segment? N N
  let R01 ← rotT.block? 0 N N N
  let t ← w.X.setSegment? 0 N (← (← (← rotT.block? 0 0 N N).mulVec? X0).add? (← R01.mulVec? X1))
  t.setSegment? N N (← (← R01.mulVec? X0).add? (← (← rotT.block? N N N N).mulVec? X1))

/-- `convertCopInLFtoComJerk`, `/repo/src/humanoid_walkgen.cpp:501-535`. -/
noncomputable def HWalkgen.convert [FloorRing K] (w : HWalkgen K) : Res (Vec K) := do
  let N := w.lip.N
  let M := w.sup.M
  let nb ← w.sup.nb
  let dx ← w.lip.dyn w.lip.copX nb
  let dy ← w.lip.dyn w.lip.copY nb
  let t ← w.rotated N
  let t ← t.addSegment? 0 N (← w.sup.V.mulVec? (← w.X.segment? (2 * N) M))
  let t ← t.addSegment? N N (← w.sup.V.mulVec? (← w.X.segment? (2 * N + M) M))
  let v0 ← w.sup.V0.toVec?
  let t ← t.addSegment? 0 N (Vec.smul (← w.sup.supportX).p v0)
  let t ← t.addSegment? N N (Vec.smul (← w.sup.supportY).p v0)
  let t ← t.subSegment? 0 N (← (← dx.S.mulVec? w.lip.x.toVec).add? dx.C)
  let t ← t.subSegment? N N (← (← dy.S.mulVec? w.lip.y.toVec).add? dy.C)
  let a ← (← getInv dx.Uinv).mulVec? (← t.segment? 0 N)
  let b ← (← getInv dy.Uinv).mulVec? (← t.segment? N N)
  let t ← t.setSegment? 0 N a
  t.setSegment? N N b

/-- Lines 435-448 of `solve`: uses the solution of the solver. -/
noncomputable def HWalkgen.finish [FloorRing K] (w : HWalkgen K) (fb : K) : Res (HWalkgen K) := do
  let X ← w.X.add? w.dX
  let w := { w with X := X }
  let t ← w.convert
  let lip ← w.lip.updateStateX (← t.at? 0) fb
  let lip ← lip.updateStateY (← t.at? w.lip.N) fb
  let sup ← w.sup.updateFeetStates (← t.segment? (2 * w.sup.N) (2 * w.sup.M)) fb
  pure { w with transformedX := t, lip := lip, sup := sup }

/-- Lines 319-426 of `solve`: the state when the solver is called, the index of the problem and the
QP given to the solver. -/
noncomputable def HWalkgen.prepare [FloorRing K] (hull : Vec (Pt K) → Res (Polygon K)) (w : HWalkgen K)
    (fb : K) : Res (HWalkgen K × ℕ × QPMatrices K) := do
  let w ← w.begin fb
  let (nbCop, nbFoot) ← w.nbCtr hull
  let index := w.index (nbCop + nbFoot)
  let q ← listAt w.qps index
  let q ← w.fillQP hull nbCop nbFoot q
  let q ← normalizeMatrices q EPS
  pure ({ w with qps := w.qps.set index q }, index, q)

/-- `HumanoidWalkgen::solve`, `/repo/src/humanoid_walkgen.cpp:315-454`. The solver is called without
warm start and without output stream. -/
noncomputable def HWalkgen.solve [FloorRing K] (hull : Vec (Pt K) → Res (Polygon K)) (o : Oracle K)
    (w : HWalkgen K) (fb : K) : Res (Bool × HWalkgen K) := do
  let (w, index, q) ← w.prepare hull fb
  let sizeVec := 2 * w.lip.N + 2 * w.sup.M
  let solver ← listAt w.solvers index
  let (found, dX, solver) ← solverSolve o { solver with calls := w.calls } q 10000
    ⟨sizeVec, w.dX.get⟩ false false
  let w ← HWalkgen.finish { w with dX := dX, solvers := w.solvers.set index solver, calls := w.calls + 1 } fb
  pure (found, w)

/-- Coordinates. -/
inductive Axis
  | x
  | y
  | z
  deriving DecidableEq

/-- Calls of the public interface (`/repo/mpc-walkgen/humanoid_walkgen.h:52-149`). `left` tells the
foot. -/
inductive HCall (K : Type)
  | setNbSamples (n : ℕ)
  | setSamplingPeriod (T : K)
  | setStepPeriod (p : K)
  | setInitialDoubleSupportLength (p : K)
  | setKin (left : Bool) (g : Polygon K)
  | setCop (left : Bool) (g : Polygon K)
  | setVelRef (v : Vec K)
  | setAngularVelRef (v : Vec K)
  | setFootState (left : Bool) (a : Axis) (v : Vec K)
  | setComState (a : Axis) (v : Vec K)
  | setMaxHeight (left : Bool) (h : K)
  | setWeightings (w : HWeighting K)
  | setConfig (withCop withFeet : Bool)
  | setMove (m : Bool)
  | solve (feedBackPeriod : K)

/-- Replaces a foot. -/
def Sup.mapFoot (s : Sup K) (left : Bool) (f : Foot K → Foot K) : Sup K :=
  if left then { s with left := f s.left } else { s with right := f s.right }

/-- `setStateX`, `setStateY`, `setStateZ` of a foot,
`/repo/mpc-walkgen/model/humanoid_foot_model.h:84-112`. -/
def Foot.setState (f : Foot K) (a : Axis) (st : State3 K) : Foot K :=
  match a with
  | .x => { f with x := { f.x with state := st } }
  | .y => { f with y := { f.y with state := st } }
  | .z => { f with z := { f.z with state := st } }

/-- One call of the public interface, `/repo/src/humanoid_walkgen.cpp:44-454`. The second component
is the value returned by `solve` (`true` for the setters). -/
noncomputable def HWalkgen.step [FloorRing K] (hull : Vec (Pt K) → Res (Polygon K)) (o : Oracle K)
    (w : HWalkgen K) : HCall K → Res (Bool × HWalkgen K)
  | .setNbSamples n => do
    require (0 < n)
    let lip ← w.lip.setNbSamples n
    let sup ← w.sup.setNbSamples n
    pure (true, HWalkgen.computeConstantPart { w with
      lip := lip, sup := sup, boundSize := 2 * lip.N
      dX := Vec.const (2 * lip.N + 2 * sup.M) 0, X := Vec.const (2 * sup.N + 2 * sup.M) 0 })
  | .setSamplingPeriod T => do
    require (0 ≤ T)
    let lip ← w.lip.setSamplingPeriod T
    let sup ← w.sup.setSamplingPeriod T
    pure (true, { w with lip := lip, sup := sup, boundSize := 2 * lip.N })
  | .setStepPeriod p => do
    require (0 < p)
    require (0 < p - w.sup.T + EPS)
    let sup ← w.sup.setStepPeriod p
    pure (true, { w with sup := sup })
  | .setInitialDoubleSupportLength p => do
    let sup ← w.sup.setInitialDoubleSupportLength p
    pure (true, { w with sup := sup })
  | .setKin left g => pure (true, { w with sup := w.sup.mapFoot left fun f => { f with kin := g } })
  | .setCop left g => pure (true, { w with sup := w.sup.mapFoot left fun f => { f with cop := g } })
  | .setVelRef v => do
    require (v.size = 2 * w.lip.N)
    pure (true, { w with velRef := v })
  | .setAngularVelRef v => do
    require (v.size = w.lip.N)
    pure (true, w)
  | .setFootState left a v => do
    require (v.size = 3)
    pure (true, { w with
      sup := w.sup.mapFoot left fun f => f.setState a ⟨v.get 0, v.get 1, v.get 2⟩ })
  | .setComState .x v => do
    let lip ← w.lip.setStateX v
    pure (true, { w with lip := lip })
  | .setComState .y v => do
    let lip ← w.lip.setStateY v
    pure (true, { w with lip := lip })
  | .setComState .z v => do
    require (v.size = 3)
    require (v.get 1 = 0)
    require (v.get 2 = 0)
    let lip ← w.lip.setComHeight (v.get 0)
    pure (true, { w with lip := lip })
  | .setMaxHeight left h =>
    pure (true, { w with sup := w.sup.mapFoot left fun f => { f with maxHeight := h } })
  | .setWeightings wt => do
    require (0 ≤ w.weighting.velocityTracking)
    require (0 ≤ w.weighting.copCentering)
    require (0 ≤ w.weighting.jerkMinimization)
    pure (true, { w with weighting := wt })
  | .setConfig a b => pure (true, HWalkgen.computeConstantPart { w with withCop := a, withFeet := b })
  | .setMove m => do
    let sup := w.sup.setMove m
    let ds ← sup.isInDS
    pure (true, { w with sup := sup, first := if ds then true else w.first })
  | .solve fb => w.solve hull o fb

/-- A sequence of calls; stops at the first fault. -/
noncomputable def HWalkgen.run [FloorRing K] (hull : Vec (Pt K) → Res (Polygon K)) (o : Oracle K) :
    HWalkgen K → List (HCall K) → Res (HWalkgen K)
  | w, [] => .ok w
  | w, c :: cs => do
    let (_, w') ← w.step hull o c
    HWalkgen.run hull o w' cs

end MPC
