import Verif.Spec.ZebEvery

/-! # What C98 states: a CoM constraint that leaves room -/

namespace MPC.Spec

/-- The settings with the CoM constraint enabled or not. -/
def ZebSettings.comLimited (s : ZebSettings ℝ) (b : Bool) : ZebSettings ℝ := { s with config := { s.config with com := b } }

/-- The polygon leaves room around the point `c`. -/
def RoomAround (p : Vec (Pt ℝ)) (c : Pt ℝ) : Prop := ∃ r > 0, ∀ q : Pt ℝ, |q.x - c.x| ≤ r → |q.y - c.y| ≤ r → InPolygon p q

end MPC.Spec
