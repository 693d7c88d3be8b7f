import Verif.Spec.Recede
import Verif.Spec.Zebulon

/-!
# Motion between the samples

The constraints of the generators are about the samples of the horizon. What holds at the other times.
-/

namespace MPC.Spec

variable {K : Type} [Field K] [LinearOrder K]

/-- State at time `i T + t` of the plan that starts in `x` and has jerk `J i` from `i T` to `(i + 1) T`. -/
def planAt (T : K) (x : State3 K) (J : ℕ → K) (i : ℕ) (t : K) : State3 K :=
  cubic (match i with
    | 0 => x
    | k + 1 => jerkTrajectory T T x J k) (J i) t

/-- Limits on velocity, acceleration and jerk, and the sampling period. -/
structure Limits (K : Type) where
  vel : K
  acc : K
  jerk : K
  period : K

def TrajSettings.limits (s : TrajSettings K) : Limits K := ⟨s.velLimit, s.accLimit, s.jerkLimit, s.period⟩
def ZebSettings.limits (s : ZebSettings K) : Limits K := ⟨s.velLimit, s.accLimit, s.jerkLimit, s.period⟩

/-- Acceleration within its limit; velocity within its limit up to what the greatest jerk can do when the problem
is solved again every `f`, before the end of the sampling period. For `f = period` this is the limit itself. -/
def Limits.Loosely (l : Limits K) (f : K) (x : State3 K) : Prop :=
  |x.v| ≤ l.vel + l.jerk * l.period * (l.period - f) / 2 ∧ |x.a| ≤ l.acc

/-- Acceleration within its limit, velocity within its limit up to `ε`. -/
def Limits.UpTo (l : Limits K) (ε : K) (x : State3 K) : Prop := |x.v| ≤ l.vel + ε ∧ |x.a| ≤ l.acc

end MPC.Spec
