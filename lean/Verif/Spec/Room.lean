import Verif.Spec.Rate

/-! # What C97 states: the velocity, acceleration and jerk limits and the velocity at which a robot settles -/

namespace MPC.Spec

/-- The limits leave room for the velocity `vr`. -/
structure TrajSettings.Room (s : TrajSettings ℝ) (vr : ℝ) : Prop where
  vel : |vr| < s.velLimit
  acc : 0 < s.accLimit
  jerk : 0 < s.jerkLimit

/-- The same settings with or without the limits. -/
def TrajSettings.limited (s : TrajSettings ℝ) (b : Bool) : TrajSettings ℝ := { s with constrained := b }

/-- The settings with the motion limits of the base enabled or not. -/
def ZebSettings.limited (s : ZebSettings ℝ) (b : Bool) : ZebSettings ℝ := { s with config := { s.config with base := b } }

end MPC.Spec
