import Verif.Spec.ZebRecede

/-!
# From one control cycle of `ZebulonWalkgen` to the next

The rest of a plan, the constraints at one sample, and the constraints on the robot itself.
-/

namespace MPC.Spec

variable {K : Type} [Field K] [LinearOrder K]

/-- What is left of the jerks `X` after the first sampling period: in each of the four blocks of `N` jerks they move
up by one sample; the last one, for which there is no plan, is zero. -/
def laterJerks (N : ℕ) (X : ℕ → K) (j : ℕ) : K := if j % N + 1 < N then X (j + 1) else 0

/-- Velocities and accelerations of the base are within the limits. -/
def ZebSettings.BaseWithin (s : ZebSettings K) (z : ZebState K) : Prop :=
  |z.bx.v| ≤ s.velLimit ∧ |z.by_.v| ≤ s.velLimit ∧ |z.bx.a| ≤ s.accLimit ∧ |z.by_.a| ≤ s.accLimit

/-- The enabled constraints for a robot in state `z`, with heading `(c, n)`: CoM and CoP relative to the base are in
their polygons, the base is within its limits, no velocity is orthogonal to the heading. The CoP is the one of the two
masses. -/
structure ZebSettings.Safe (s : ZebSettings K) (c n : K) (z : ZebState K) : Prop where
  com : s.config.com = true → InPolygon s.comPolygon ⟨z.cx.p - z.bx.p, z.cy.p - z.by_.p⟩
  cop : s.config.cop = true →
    InPolygon s.copPolygon ⟨s.cop s.gx z.cx z.bx - z.bx.p, s.cop s.gy z.cy z.by_ - z.by_.p⟩
  base : s.config.base = true → s.BaseWithin z
  heading : s.config.tilt = true → n * z.cx.v - c * z.cy.v = 0 ∧ n * z.bx.v - c * z.by_.v = 0

/-- The calls made while the base tracks: `solve` with the sampling period, new references, new weightings. -/
def ZebTracking (s : ZebSettings K) : ZebCall K → Prop
  | .solve fb => fb = s.period
  | .setVelRef v => v.size = 2 * s.nbSamples
  | .setPosRef v => v.size = 2 * s.nbSamples
  | .setCopRef v => v.size = 2 * s.nbSamples
  | .setComRef v => v.size = 2 * s.nbSamples
  | .setWeightings w => 0 ≤ w.copCentering ∧ 0 ≤ w.comCentering ∧ 0 ≤ w.velocityTracking ∧
      0 ≤ w.jerkMinimization ∧ 0 ≤ w.tiltMinimization
  | _ => False

variable [FloorRing K]

/-- The predicted state at sample `i`. -/
def ZebSettings.stateAt (s : ZebSettings K) (z : ZebState K) (X : ℕ → K) (i : ℕ) : ZebState K :=
  ⟨s.comX z X i, s.comY z X i, s.baseX z X i, s.baseY z X i⟩

end MPC.Spec
