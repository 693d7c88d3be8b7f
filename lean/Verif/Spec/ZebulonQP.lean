import Verif.Spec.Zebulon

/-!
# The optimisation problem a user of `ZebulonWalkgen` expects

Costs and constraints on the predicted motion of CoM and base, without the matrices of the code.
-/

namespace MPC.Spec

open Finset

variable {K : Type} [Field K] [LinearOrder K]

/-! ### Costs -/

/-- Squared errors of the base velocity. -/
def ZebSettings.velCost (s : ZebSettings K) (z : ZebState K) (X : ℕ → K) : K :=
  ∑ i ∈ range s.nbSamples, (((s.baseX z X i).v - s.velRef.get i) ^ 2
    + ((s.baseY z X i).v - s.velRef.get (s.nbSamples + i)) ^ 2)

/-- Squared errors of the base position. -/
def ZebSettings.posCost (s : ZebSettings K) (z : ZebState K) (X : ℕ → K) : K :=
  ∑ i ∈ range s.nbSamples, (((s.baseX z X i).p - s.posRef.get i) ^ 2
    + ((s.baseY z X i).p - s.posRef.get (s.nbSamples + i)) ^ 2)

/-- Squared jerks. -/
def ZebSettings.jerkCost (s : ZebSettings K) (X : ℕ → K) : K := ∑ i ∈ range (4 * s.nbSamples), X i ^ 2

/-- Squares of a prediction `ψx`, `ψy` at every sample. -/
def ZebSettings.tiltCost (s : ZebSettings K) (ψx ψy : ℕ → K) : K :=
  ∑ i ∈ range s.nbSamples, (ψx i ^ 2 + ψy i ^ 2)

section
variable [FloorRing K]

/-- CoM relative to the base. -/
def ZebSettings.comRelX (s : ZebSettings K) (z : ZebState K) (X : ℕ → K) (i : ℕ) : K :=
  (s.comX z X i).p - (s.baseX z X i).p
def ZebSettings.comRelY (s : ZebSettings K) (z : ZebState K) (X : ℕ → K) (i : ℕ) : K :=
  (s.comY z X i).p - (s.baseY z X i).p

/-- CoP relative to the base. -/
def ZebSettings.copRelX (s : ZebSettings K) (z : ZebState K) (X : ℕ → K) (i : ℕ) : K :=
  s.predictedCop s.gx (s.comX z X i) (s.baseX z X i) - (s.baseX z X i).p
def ZebSettings.copRelY (s : ZebSettings K) (z : ZebState K) (X : ℕ → K) (i : ℕ) : K :=
  s.predictedCop s.gy (s.comY z X i) (s.baseY z X i) - (s.baseY z X i).p

/-- Squared errors of the CoM relative to the base, for the CoM reference shifted by `k`. -/
def ZebSettings.comCost (s : ZebSettings K) (k : K × K) (z : ZebState K) (X : ℕ → K) : K :=
  ∑ i ∈ range s.nbSamples, ((s.comRelX z X i - (s.comRef.get i + k.1)) ^ 2
    + (s.comRelY z X i - (s.comRef.get (s.nbSamples + i) + k.2)) ^ 2)

/-- Squared errors of the CoP relative to the base. -/
def ZebSettings.copCost (s : ZebSettings K) (z : ZebState K) (X : ℕ → K) : K :=
  ∑ i ∈ range s.nbSamples, ((s.copRelX z X i - s.copRef.get i) ^ 2
    + (s.copRelY z X i - s.copRef.get (s.nbSamples + i)) ^ 2)

/-- Half of the weighted sum of squares; `tilt` and `tiltVel` are the squares of predicted tilt angles and
angular velocities. Objectives without positive weighting are not used. -/
def ZebSettings.totalCost (s : ZebSettings K) (k : K × K) (tilt tiltVel : K) (z : ZebState K) (X : ℕ → K) : K :=
  1 / 2 * (max s.weighting.velocityTracking 0 * s.velCost z X
    + max s.weighting.positionTracking 0 * s.posCost z X
    + max s.weighting.copCentering 0 * s.copCost z X
    + max s.weighting.comCentering 0 * s.comCost k z X
    + max s.weighting.jerkMinimization 0 * s.jerkCost X
    + max s.weighting.tiltMinimization 0 * tilt
    + max s.weighting.tiltVelMinimization 0 * tiltVel)

end

/-! ### Tilt -/

/-- Right hand side of the tilt equation of the code, for base height `L`, contact point `c`, CoM `com` and
base `base`: `m g (com - base) - M L com'' - m h base'' - M g c`. -/
def ZebSettings.tiltRhs (s : ZebSettings K) (L c : K) (com base : State3 K) : K :=
  s.bodyMass * GRAVITY_NORM * (com.p - base.p) - s.baseMass * L * com.a
    - s.bodyMass * s.bodyHeight * base.a - s.baseMass * GRAVITY_NORM * c

/-- Angles and angular velocities at the samples when the tilt is `τ` now and the angular accelerations
are `α`. -/
def ZebSettings.tiltMotion (s : ZebSettings K) (τ : State3 K) (α : ℕ → K) (i : ℕ) : State2 K :=
  accTrajectory s.period s.period ⟨τ.p, τ.v⟩ α i

/-- `g (m h + M L)` and `m h h + M L L`. -/
def ZebSettings.tiltStiffness (s : ZebSettings K) (L : K) : K :=
  GRAVITY_NORM * (s.bodyMass * s.bodyHeight + s.baseMass * L)
def ZebSettings.tiltInertia (s : ZebSettings K) (L : K) : K :=
  s.bodyMass * s.bodyHeight * s.bodyHeight + s.baseMass * L * L

/-- The angular accelerations `α` are those of the equation documented in
`src/function/zebulon_tilt_minimization_objective.cpp`: at every sample
`g (m h + M L) ψ + m g (c - d) = M L d'' + m h c'' + (m h h + M L L) ψ''`. -/
def ZebSettings.DocumentedTilt (s : ZebSettings K) (L : K) (com base : ℕ → State3 K) (τ : State3 K)
    (α : ℕ → K) : Prop :=
  ∀ i < s.nbSamples,
    s.tiltStiffness L * (s.tiltMotion τ α i).q + s.bodyMass * GRAVITY_NORM * ((com i).p - (base i).p)
      = s.baseMass * L * (base i).a + s.bodyMass * s.bodyHeight * (com i).a + s.tiltInertia L * α i

/-- The angular accelerations `α` are those of the equation solved by the code: at every sample
`g (m h + M L) ψ + M L c'' + m h d'' + M g db = m g (c - d) + (m h h + M L L) ψ''`. -/
def ZebSettings.CodeTilt (s : ZebSettings K) (L contact : K) (com base : ℕ → State3 K) (τ : State3 K)
    (α : ℕ → K) : Prop :=
  ∀ i < s.nbSamples,
    s.tiltStiffness L * (s.tiltMotion τ α i).q - s.tiltInertia L * α i = s.tiltRhs L contact (com i) (base i)

/-- `ψ` and `ω` are, up to the `10⁻¹⁵` below which the code drops entries of its inverse, the angles and
angular velocities of the unique motion that solves the equation of the code. `γ` are the accelerations that
reach the same angles from rest. -/
def ZebSettings.PredictsCodeTilt (s : ZebSettings K) (L contact : K) (com base : ℕ → State3 K) (τ : State3 K)
    (ψ ω : ℕ → K) : Prop :=
  ∃ α γ : ℕ → K, s.CodeTilt L contact com base τ α ∧
    (∀ α', s.CodeTilt L contact com base τ α' → ∀ i < s.nbSamples, α' i = α i) ∧
    (∀ i < s.nbSamples, (s.tiltMotion ⟨0, 0, 0⟩ γ i).q = (s.tiltMotion τ α i).q) ∧
    ∀ i < s.nbSamples,
      |ψ i - (s.tiltMotion τ α i).q| ≤ 1 / 10 ^ 15 * ∑ j ∈ range s.nbSamples,
        |s.tiltStiffness L * (s.tiltMotion τ α j).q - s.tiltInertia L * γ j| ∧
      |ω i - (s.tiltMotion τ α i).w| ≤ 1 / 10 ^ 15 * ∑ j ∈ range s.nbSamples,
        |s.tiltStiffness L * (s.tiltMotion τ α j).q - s.tiltInertia L * γ j|

/-! ### Constraints -/

/-- Base velocities, accelerations and jerks are within their limits. -/
def ZebSettings.BaseWithinLimits (s : ZebSettings K) (z : ZebState K) (X : ℕ → K) : Prop :=
  ∀ i < s.nbSamples, |(s.baseX z X i).v| ≤ s.velLimit ∧ |(s.baseY z X i).v| ≤ s.velLimit ∧
    |(s.baseX z X i).a| ≤ s.accLimit ∧ |(s.baseY z X i).a| ≤ s.accLimit ∧
    |jerkBX s.nbSamples X i| ≤ s.jerkLimit ∧ |jerkBY s.nbSamples X i| ≤ s.jerkLimit

/-- Value that is not positive on the inner side of the edge from `a` to `b`. -/
def sideOf (a b X : Pt K) : K := (b.y - a.y) * (X.x - a.x) - (b.x - a.x) * (X.y - a.y)

section
variable [FloorRing K]

/-- Points that are to stay in the polygons. -/
def ZebSettings.comRel (s : ZebSettings K) (z : ZebState K) (X : ℕ → K) (i : ℕ) : Pt K :=
  ⟨s.comRelX z X i, s.comRelY z X i⟩
def ZebSettings.copRel (s : ZebSettings K) (z : ZebState K) (X : ℕ → K) (i : ℕ) : Pt K :=
  ⟨s.copRelX z X i, s.copRelY z X i⟩

/-- CoM and base velocities have no component orthogonal to the heading `(cs, sn)`. -/
def ZebSettings.AlongHeading (s : ZebSettings K) (cs sn : K) (z : ZebState K) (X : ℕ → K) : Prop :=
  ∀ i < s.nbSamples, sn * (s.comX z X i).v - cs * (s.comY z X i).v = 0 ∧
    sn * (s.baseX z X i).v - cs * (s.baseY z X i).v = 0

end

/-- The point reflected at the origin. -/
def Pt.reflect (p : Pt K) : Pt K := ⟨-p.x, -p.y⟩

/-- The rows of a polygon constraint for points that move from `old` to `new`: the reflection of the new point
is inside, and the artificial bound `MAXBOUND` on the displacement across an edge. -/
def PolygonRows (p : Vec (Pt K)) (N : ℕ) (old new : ℕ → Pt K) : Prop :=
  ∀ e < p.size, ∀ i < N, InnerSide (p.get e) (p.get ((e + 1) % p.size)) (Pt.reflect (new i)) ∧
    sideOf (p.get e) (p.get ((e + 1) % p.size)) (new i) - sideOf (p.get e) (p.get ((e + 1) % p.size)) (old i)
      ≤ MAXBOUND

/-- `X` may replace the jerks `X0` in a step from state `z`, for a heading `(cs, sn)`: the enabled constraints, and
the artificial bound `MAXBOUND` on the change of the jerks that have no limit of their own. -/
def ZebSettings.Allowed [FloorRing K] (s : ZebSettings K) (cs sn : K) (z : ZebState K) (X0 X : ℕ → K) : Prop :=
  (s.config.cop = true → PolygonRows s.copPolygon s.nbSamples (s.copRel z X0) (s.copRel z X)) ∧
  (s.config.base = true → s.BaseWithinLimits z X) ∧
  (s.config.com = true → PolygonRows s.comPolygon s.nbSamples (s.comRel z X0) (s.comRel z X)) ∧
  (s.config.tilt = true → s.AlongHeading cs sn z X) ∧
  (∀ i < 4 * s.nbSamples, (s.config.base = true → i < 2 * s.nbSamples) → |X i - X0 i| ≤ MAXBOUND)

/-- The polygon is its own reflection at the origin: a point is inside iff its reflection is. -/
def CentrallySymmetric (p : Vec (Pt K)) : Prop := ∀ X, InPolygon p X ↔ InPolygon p (Pt.reflect X)

end MPC.Spec
