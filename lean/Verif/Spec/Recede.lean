import Verif.Spec.Trajectory

/-!
# Repeated solving of `TrajectoryWalkgen`

What is expected of the solver, and of the motion over many calls of `solve`.
-/

namespace MPC.Spec

variable {K : Type} [Field K] [LinearOrder K]

/-- The solver answers a QP of consistent dimensions with a feasible point whenever there is one. -/
def FindsFeasible (o : Oracle K) : Prop :=
  ∀ n qp it, (∃ a b, qp.DimensionsAreConsistent a b) → (∃ d, Feasible qp d) → Feasible qp (o n qp it).2

/-- The solver answers with a solution whenever there is one. -/
def FindsSolution (o : Oracle K) : Prop :=
  ∀ n qp it, (∃ d, IsSolution qp d) → IsSolution qp (o n qp it).2

/-- Velocity and acceleration are within the limits. -/
def StateWithin (s : TrajSettings K) (x : State3 K) : Prop := |x.v| ≤ s.velLimit ∧ |x.a| ≤ s.accLimit

/-- The calls made while tracking: `solve` with the sampling period, new references, new weightings. -/
def Tracking (s : TrajSettings K) : TrajCall K → Prop
  | .solve fb => fb = s.period
  | .setVelRef v => v.size = s.nbSamples
  | .setPosRef v => v.size = s.nbSamples
  | .setWeightings w => 0 ≤ w.velocityTracking ∧ 0 ≤ w.positionTracking ∧ 0 ≤ w.jerkMinimization
  | _ => False

/-- The state moved by `δ`. -/
def State3.shift (x : State3 K) (δ : K) : State3 K := ⟨x.p + δ, x.v, x.a⟩

end MPC.Spec
