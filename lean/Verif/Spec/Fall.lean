import Verif.Props.HumRest
import Verif.Props.HumSafe
import Verif.Spec.CopRun

/-! # A robot that stands -/

namespace MPC.Spec

variable {K : Type} [Field K] [LinearOrder K] [FloorRing K]

/-- The generator `w` makes its robot stand: both feet are on the ground and stay there, and `solve` is called once per
sampling period. The generator may solve, with solvers and polygons that fit. -/
structure Stands (hull : Vec (Pt K) → Res (Polygon K)) (w : HWalkgen K) : Prop where
  history : HumHistory hull w
  reach : Reach (· = w.lip.T) CanStop (w.sup, w.X)
  usable : HumUsable w.lip.T w
  solvers : SolversFit w
  feet : StandingFeet w.sup
  /-- `solve` was called before. -/
  planned : w.first = false
  polygon : w.withCop = true → ∀ q, IsUnion w.sup ⟨w.sup.left.x.state.p, w.sup.left.y.state.p⟩
    ⟨w.sup.right.x.state.p, w.sup.right.y.state.p⟩ (midFeet w.sup) q → HullWorks hull q

/-- Calls of `solve`, once per sampling period. -/
def standCalls (w : HWalkgen K) (n : ℕ) : List (HCall K) := List.replicate n (.solve w.lip.T)

/-- No coefficient of the inverse of the CoP dynamics is erased for being smaller than `EPSILON`. -/
def ExactCop (w : HWalkgen K) : Prop :=
  ∀ d B, computeCopDynamic w.lip.T w.lip.T w.lip.N w.lip.comHeight 0 GRAVITY_NORM 1 1 = .ok d → d.Uinv = some B →
    IsInverse w.lip.N d.U B

/-- What no call of `solve` changes while the robot stands. -/
structure StandsAlike (w w' : HWalkgen K) : Prop where
  N : w'.lip.N = w.lip.N
  T : w'.lip.T = w.lip.T
  height : w'.lip.comHeight = w.lip.comHeight
  weighting : w'.weighting = w.weighting
  velRef : w'.velRef = w.velRef
  withCop : w'.withCop = w.withCop
  left : w'.sup.left = w.sup.left
  right : w'.sup.right = w.sup.right

/-- The CoM of the robot seen from the point midway between its feet, along x. -/
def comX (w : HWalkgen K) : State3 K := ⟨w.lip.x.p - (midFeet w.sup).x, w.lip.x.v, w.lip.x.a⟩

/-- The CoM of the robot seen from the point midway between its feet, along y. -/
def comY (w : HWalkgen K) : State3 K := ⟨w.lip.y.p - (midFeet w.sup).y, w.lip.y.v, w.lip.y.a⟩

/-! ### One sample

The horizon is one sampling period `T` with a constant jerk, and `l` is the height of the CoM divided by the gravity. -/

/-- The CoP after the period, without jerk. -/
def freeCop (T l : K) (x : State3 K) : K := x.p + x.v * T + x.a * (T ^ 2 / 2 - l)

/-- What a unit of jerk adds to the CoP. -/
def copStep (T l : K) : K := T ^ 3 / 6 - T * l

/-- Second derivative of the cost with respect to the jerk. The only sample has the weight `1 / 20`. -/
def jerkCurve (wg : HWeighting K) (T l : K) : K :=
  max wg.velocityTracking 0 / 20 * (T ^ 2 / 2) ^ 2 + max wg.jerkMinimization 0 / 20 + max wg.copCentering 0 * copStep T l ^ 2

/-- The jerk with the smallest cost, when no velocity is asked for. -/
def bestJerk (wg : HWeighting K) (T l : K) (x : State3 K) : K :=
  -(max wg.velocityTracking 0 / 20 * (T ^ 2 / 2) * (x.v + x.a * T)
    + max wg.copCentering 0 * copStep T l * freeCop T l x) / jerkCurve wg T l

/-- The CoP with the smallest cost. -/
def bestCop (wg : HWeighting K) (T l : K) (x : State3 K) : K := freeCop T l x + copStep T l * bestJerk wg T l x

end MPC.Spec
