import Verif.Spec.HumRun

/-! # When `HumanoidWalkgen::solve` may be called -/

namespace MPC

variable {K : Type} [Field K] [LinearOrder K]

/-- The polygon stores a coefficient for each of its rows, and at most one row per vertex. -/
structure Polygon.Complete (g : Polygon K) : Prop where
  coefX : g.nbGeneral ≤ g.coefX.size
  coefY : g.nbGeneral ≤ g.coefY.size
  rows : g.nbGeneral ≤ g.vertices.size

/-- The constructor of polygons works on `c` points: it returns a polygon with at most one row per point. -/
def HullWorks (hull : Vec (Pt K) → Res (Polygon K)) (p : Vec (Pt K)) : Prop :=
  ∃ g, hull p = .ok g ∧ g.Complete ∧ g.nbGeneral ≤ p.size

/-- The generator `w` may solve with the feedback period `fb`. -/
structure HumUsable (fb : K) (w : HWalkgen K) : Prop where
  /-- The sampling period and the durations of the phases are multiples of the feedback period. -/
  grid : Grid fb w.sup
  /-- The period is that of the LIP model or differs enough for the LIP model to be updated. -/
  period : w.lip.fb = fb ∨ EPS < |fb - w.lip.fb|
  /-- The velocity reference has the size of the horizon, if it is used. -/
  ref : 0 < w.weighting.velocityTracking → w.velRef.size = 2 * w.lip.N
  /-- The CoP dynamics are invertible for every first sampling interval. -/
  regular : ∀ c : ℕ, 1 ≤ c → c * fb ≤ w.lip.T → (c * fb) ^ 2 * GRAVITY_NORM ≠ 6 * w.lip.comHeight
  cop : w.withCop = true → w.sup.left.cop.Complete ∧ w.sup.right.cop.Complete
  kin : w.withFeet = true → w.sup.left.kin.Complete ∧ w.sup.right.kin.Complete
  /-- The tables of problems have room for the rows of the polygons. -/
  table : (if w.withCop then w.sup.maxNbCop * w.lip.N else 0) +
    (if w.withFeet then w.sup.maxNbKin * w.lip.N else 0) ≤ w.maxCtr

/-- The solver number `M*(maxCtr+1) + c` is that of a problem with `M` steps and `c` rows. -/
def SolversFit (w : HWalkgen K) : Prop :=
  ∀ M ≤ w.lip.N, ∀ c ≤ w.maxCtr, ∃ s, w.solvers[M * (w.maxCtr + 1) + c]? = some s ∧
    s.nbVar = 2 * w.lip.N + 2 * M ∧ s.nbCtr = c

/-- The calls made during a walk: `solve` with the period `fb`, `setMove` (the stop is not requested during the initial
double support), new references and horizontal states of the CoM. -/
inductive HumWalks [FloorRing K] (hull : Vec (Pt K) → Res (Polygon K)) (o : Oracle K) (fb : K) (w : HWalkgen K) :
    HWalkgen K → Prop
  | refl : HumWalks hull o fb w w
  | solve {w₁ w₂ : HWalkgen K} {b : Bool} : HumWalks hull o fb w w₁ →
      w₁.step hull o (.solve fb) = .ok (b, w₂) → HumWalks hull o fb w w₂
  | setMove {w₁ w₂ : HWalkgen K} {m b : Bool} : HumWalks hull o fb w w₁ → CanStop w₁.sup m →
      w₁.step hull o (.setMove m) = .ok (b, w₂) → HumWalks hull o fb w w₂
  | setVelRef {w₁ w₂ : HWalkgen K} {v : Vec K} {b : Bool} : HumWalks hull o fb w w₁ →
      w₁.step hull o (.setVelRef v) = .ok (b, w₂) → HumWalks hull o fb w w₂
  | setComX {w₁ w₂ : HWalkgen K} {v : Vec K} {b : Bool} : HumWalks hull o fb w w₁ →
      w₁.step hull o (.setComState .x v) = .ok (b, w₂) → HumWalks hull o fb w w₂
  | setComY {w₁ w₂ : HWalkgen K} {v : Vec K} {b : Bool} : HumWalks hull o fb w w₁ →
      w₁.step hull o (.setComState .y v) = .ok (b, w₂) → HumWalks hull o fb w w₂

end MPC
