import Verif.Model.Trajectory
import Verif.Spec.Motion
import Verif.Spec.QP

/-!
# What a user of `TrajectoryWalkgen` expects

Written in terms of the calls made and of the motion `Spec.jerkTrajectory`, without the matrices of
the code.
-/

namespace MPC.Spec

open Finset

variable {K : Type} [Field K] [LinearOrder K]

/-- What the user configured. -/
structure TrajSettings (K : Type) where
  nbSamples : ℕ
  period : K
  velRef : Vec K
  posRef : Vec K
  velLimit : K
  accLimit : K
  jerkLimit : K
  weighting : TrajWeighting K
  constrained : Bool

/-- The documented defaults. -/
def TrajSettings.init : TrajSettings K :=
  ⟨1, 1, Vec.const 1 0, Vec.const 1 0, 1, 1, 1, ⟨0, 0, 0⟩, false⟩

/-- Effect of a call on the settings: each setter sets what its name says. -/
def TrajSettings.apply (s : TrajSettings K) : TrajCall K → TrajSettings K
  | .setNbSamples n => { s with nbSamples := n }
  | .setSamplingPeriod T => { s with period := T }
  | .setVelRef v => { s with velRef := v }
  | .setPosRef v => { s with posRef := v }
  | .setVelLimit l => { s with velLimit := l }
  | .setAccLimit l => { s with accLimit := l }
  | .setJerkLimit l => { s with jerkLimit := l }
  | .setState _ => s
  | .setWeightings w => { s with weighting := w }
  | .setConfig b => { s with constrained := b }
  | .solve _ => s

/-- Settings after a history of calls. -/
def TrajSettings.after (s : TrajSettings K) (cs : List (TrajCall K)) : TrajSettings K :=
  cs.foldl TrajSettings.apply s

/-- Preconditions that each call documents for its own arguments. -/
def TrajSettings.Pre (s : TrajSettings K) : TrajCall K → Prop
  | .setNbSamples n => 0 < n
  | .setSamplingPeriod T => 0 < T
  | .setVelRef v => v.size = s.nbSamples
  | .setPosRef v => v.size = s.nbSamples
  | .setVelLimit l => 0 ≤ l
  | .setAccLimit l => 0 ≤ l
  | .setJerkLimit l => 0 ≤ l
  | .setState v => v.size = 3
  | .setWeightings w => 0 ≤ w.velocityTracking ∧ 0 ≤ w.positionTracking ∧ 0 ≤ w.jerkMinimization
  | .setConfig _ => True
  | .solve fb => 0 < fb

/-- Every call of the history meets its preconditions. -/
def TrajSettings.Legal : TrajSettings K → List (TrajCall K) → Prop
  | _, [] => True
  | s, c :: cs => s.Pre c ∧ TrajSettings.Legal (s.apply c) cs

/-- Both references were given for the current number of samples. -/
def TrajSettings.RefsCurrent (s : TrajSettings K) : Prop :=
  s.velRef.size = s.nbSamples ∧ s.posRef.size = s.nbSamples

/-- At each `solve` of the history the references are current. -/
def TrajSettings.RefsCurrentAtSolves : TrajSettings K → List (TrajCall K) → Prop
  | _, [] => True
  | s, c :: cs => (∀ fb, c = .solve fb → s.RefsCurrent) ∧
      TrajSettings.RefsCurrentAtSolves (s.apply c) cs

/-- The documented cost of jerks `J` from state `x`: weighted squared velocity error, position error
and jerk over the horizon. A weight that is not positive does not count. -/
def trajCost (s : TrajSettings K) (x : State3 K) (J : ℕ → K) : K :=
  1 / 2 * (max s.weighting.velocityTracking 0 *
      ∑ i ∈ range s.nbSamples, ((jerkTrajectory s.period s.period x J i).v - s.velRef.get i) ^ 2
    + max s.weighting.positionTracking 0 *
      ∑ i ∈ range s.nbSamples, ((jerkTrajectory s.period s.period x J i).p - s.posRef.get i) ^ 2
    + max s.weighting.jerkMinimization 0 * ∑ i ∈ range s.nbSamples, J i ^ 2)

/-- Jerks `J` from state `x` keep velocity, acceleration and jerk within the limits at every
sample. -/
def WithinLimits (s : TrajSettings K) (x : State3 K) (J : ℕ → K) : Prop :=
  ∀ i < s.nbSamples, |(jerkTrajectory s.period s.period x J i).v| ≤ s.velLimit ∧
    |(jerkTrajectory s.period s.period x J i).a| ≤ s.accLimit ∧ |J i| ≤ s.jerkLimit

end MPC.Spec
