import Verif.Spec.ZebulonQP
import Verif.Spec.Recede

/-!
# Repeated solving of `ZebulonWalkgen`

Motion of CoM and base over many calls of `solve`.
-/

namespace MPC.Spec

variable {K : Type} [Field K] [LinearOrder K]

/-- The states after time `t` under constant jerks. -/
def ZebState.driven (z : ZebState K) (jcx jcy jbx jby t : K) : ZebState K :=
  ⟨cubic z.cx jcx t, cubic z.cy jcy t, cubic z.bx jbx t, cubic z.by_ jby t⟩

/-- No velocity and no acceleration. -/
def ZebState.AtRest (z : ZebState K) : Prop :=
  (z.cx.v = 0 ∧ z.cx.a = 0) ∧ (z.cy.v = 0 ∧ z.cy.a = 0) ∧ (z.bx.v = 0 ∧ z.bx.a = 0) ∧ (z.by_.v = 0 ∧ z.by_.a = 0)

/-- CoM and base moved by `(a, b)`. -/
def ZebState.shift (z : ZebState K) (a b : K) : ZebState K :=
  ⟨State3.shift z.cx a, State3.shift z.cy b, State3.shift z.bx a, State3.shift z.by_ b⟩

variable [FloorRing K]

/-- The jerks `X` attain the references of all tracking and centring objectives in use; the CoM reference is
shifted by `k`. -/
def ZebSettings.Meets (s : ZebSettings K) (k : K × K) (z : ZebState K) (X : ℕ → K) : Prop :=
  ∀ i < s.nbSamples,
    (0 < s.weighting.velocityTracking →
      (s.baseX z X i).v = s.velRef.get i ∧ (s.baseY z X i).v = s.velRef.get (s.nbSamples + i)) ∧
    (0 < s.weighting.positionTracking →
      (s.baseX z X i).p = s.posRef.get i ∧ (s.baseY z X i).p = s.posRef.get (s.nbSamples + i)) ∧
    (0 < s.weighting.copCentering →
      s.copRelX z X i = s.copRef.get i ∧ s.copRelY z X i = s.copRef.get (s.nbSamples + i)) ∧
    (0 < s.weighting.comCentering →
      s.comRelX z X i = s.comRef.get i + k.1 ∧ s.comRelY z X i = s.comRef.get (s.nbSamples + i) + k.2)

/-- The robot is not tilting and the jerks `X` do not tilt it: no tilt angle, no tilt velocity, no torque in the tilt
equation of the code for base height `L`. -/
def ZebSettings.Balanced (s : ZebSettings K) (L : K) (z : ZebState K) (X : ℕ → K) : Prop :=
  (s.roll.p = 0 ∧ s.roll.v = 0) ∧ (s.pitch.p = 0 ∧ s.pitch.v = 0) ∧
  ∀ i < s.nbSamples, s.tiltRhs L s.contactX (s.comX z X i) (s.baseX z X i) = 0 ∧
    s.tiltRhs L s.contactY (s.comY z X i) (s.baseY z X i) = 0

/-- CoM and base stand still at the references in use, inside the polygons in use (reflected, see C46), and in balance
if a tilt objective is in use. -/
structure ZebSettings.Resting (s : ZebSettings K) (L : K) (k : K × K) (z : ZebState K) : Prop where
  rest : z.AtRest
  vel : 0 < s.weighting.velocityTracking → ∀ i < 2 * s.nbSamples, s.velRef.get i = 0
  pos : 0 < s.weighting.positionTracking → ∀ i < s.nbSamples,
    s.posRef.get i = z.bx.p ∧ s.posRef.get (s.nbSamples + i) = z.by_.p
  cop : 0 < s.weighting.copCentering → ∀ i < s.nbSamples,
    s.copRef.get i = s.predictedCop s.gx z.cx z.bx - z.bx.p ∧
    s.copRef.get (s.nbSamples + i) = s.predictedCop s.gy z.cy z.by_ - z.by_.p
  com : 0 < s.weighting.comCentering → ∀ i < s.nbSamples,
    s.comRef.get i + k.1 = z.cx.p - z.bx.p ∧ s.comRef.get (s.nbSamples + i) + k.2 = z.cy.p - z.by_.p
  copInside : s.config.cop = true → InPolygon s.copPolygon
    (Pt.reflect ⟨s.predictedCop s.gx z.cx z.bx - z.bx.p, s.predictedCop s.gy z.cy z.by_ - z.by_.p⟩)
  comInside : s.config.com = true → InPolygon s.comPolygon (Pt.reflect ⟨z.cx.p - z.bx.p, z.cy.p - z.by_.p⟩)
  balance : 0 < s.weighting.tiltMinimization ∨ 0 < s.weighting.tiltVelMinimization →
    s.period ^ 2 * EPS ≤ 2 ∧ (s.roll.p = 0 ∧ s.roll.v = 0) ∧ (s.pitch.p = 0 ∧ s.pitch.v = 0) ∧
    s.tiltRhs L s.contactX z.cx z.bx = 0 ∧ s.tiltRhs L s.contactY z.cy z.by_ = 0

end MPC.Spec
