import Verif.Spec.HumSafe

/-! # Specification: conditions under which the cost determines the plan of the humanoid generator -/

namespace MPC

variable {K : Type} [Field K] [LinearOrder K]

/-- The generator `w` is called with usual values: the sampling period is between 20 `EPSILON` and 10 s, the height of the
CoM at most 1 km, and the objectives that determine the plan are in use: CoP centering, and velocity tracking or
minimization of the jerks. -/
structure Spec.Usual (w : HWalkgen K) : Prop where
  long : 20 * EPS < w.lip.T
  short : w.lip.T ≤ 10
  height : |w.lip.comHeight| ≤ 1000
  centering : 0 < w.weighting.copCentering
  motion : 0 < w.weighting.velocityTracking ∨ 0 < w.weighting.jerkMinimization

/-- Every previewed footstep supports a sample of the horizon, and the current phase is not over. -/
def Spec.StepsUsed (s : Sup K) : Prop := 0 < s.ttnp ∧ ∀ c < s.M, ∃ r < s.N, RowIsUnit s r (c + 1)

end MPC
