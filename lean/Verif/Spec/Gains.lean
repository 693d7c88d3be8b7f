import Verif.Props.Trajectory
import Verif.Spec.Recede
import Mathlib.Topology.Order.Real
import Mathlib.Topology.MetricSpace.Pseudo.Defs

/-! # What C92 states: a robot settles at a position -/

namespace MPC.Spec
open Filter Topology

/-- The state is at the position `pr`, at rest, up to `e`. -/
def NearRest (pr e : ℝ) (x : State3 ℝ) : Prop := |x.p - pr| ≤ e ∧ |x.v| ≤ e ∧ |x.a| ≤ e

/-- A robot driven by a generator with the settings `s`, called once per sampling period, settles at the position `pr`: when it
starts near enough to `pr`, and with small planned jerks, it stays near `pr` and tends to rest there (asymptotic stability),
whatever the calls made before and whatever the solver, if it finds solutions. -/
def Settles (s : TrajSettings ℝ) (pr : ℝ) : Prop :=
  ∀ e > 0, ∃ d > 0, ∀ (o : Oracle ℝ) (cs : List (TrajCall ℝ)) (w : TrajWalkgen ℝ), FindsSolution o → TrajReaches o cs w →
    settingsOf cs = s → (∀ i < s.nbSamples, |w.X.get i| ≤ d) → NearRest pr d w.getState →
    ∃ W : ℕ → TrajWalkgen ℝ, (∀ n, TrajReaches o (cs ++ List.replicate n (.solve s.period)) (W n)) ∧
      (∀ n, NearRest pr e (W n).getState) ∧ Tendsto (fun n => (W n).getState.p) atTop (𝓝 pr) ∧
      Tendsto (fun n => (W n).getState.v) atTop (𝓝 0) ∧ Tendsto (fun n => (W n).getState.a) atTop (𝓝 0)

/-- The weights are balanced for one sample of `T` seconds: the position must not be weighted too much with regard to the
jerk, nor the velocity too little. -/
def Balanced (T : ℝ) (w : TrajWeighting ℝ) : Prop :=
  w.positionTracking * T ^ 6 / 36 < 4 * w.jerkMinimization ∧
  3 * (w.positionTracking * T ^ 6 / 36) * w.jerkMinimization <
    w.velocityTracking * T ^ 4 / 4 * (w.positionTracking * T ^ 6 / 36 + w.velocityTracking * T ^ 4 / 4)

end MPC.Spec
