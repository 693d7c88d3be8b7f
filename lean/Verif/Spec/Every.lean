import Verif.Spec.Gains

/-! # What C94 states: a robot settles at a position when `solve` is called more or less often than once per sampling period -/

namespace MPC.Spec
open Filter Topology

/-- As `Settles`, with a call of `solve` every `fb` seconds. -/
def SettlesEvery (fb : ℝ) (s : TrajSettings ℝ) (pr : ℝ) : Prop :=
  ∀ e > 0, ∃ d > 0, ∀ (o : Oracle ℝ) (cs : List (TrajCall ℝ)) (w : TrajWalkgen ℝ), FindsSolution o → TrajReaches o cs w →
    settingsOf cs = s → (∀ i < s.nbSamples, |w.X.get i| ≤ d) → NearRest pr d w.getState →
    ∃ W : ℕ → TrajWalkgen ℝ, (∀ n, TrajReaches o (cs ++ List.replicate n (.solve fb)) (W n)) ∧
      (∀ n, NearRest pr e (W n).getState) ∧ Tendsto (fun n => (W n).getState.p) atTop (𝓝 pr) ∧
      Tendsto (fun n => (W n).getState.v) atTop (𝓝 0) ∧ Tendsto (fun n => (W n).getState.a) atTop (𝓝 0)

/-- The weights are balanced for one sample of `T` seconds and calls every `fb` seconds. -/
def BalancedEvery (fb T : ℝ) (w : TrajWeighting ℝ) : Prop :=
  let X := w.positionTracking * T ^ 6 / 36
  let Y := w.velocityTracking * T ^ 4 / 4
  let s := fb / T
  3 * X * s < 6 * X + 2 * Y ∧ 2 * (3 * X + 2 * Y) * s < 4 * (X + Y + w.jerkMinimization) + X * s ^ 3 ∧
    3 * X * (X + Y + w.jerkMinimization) < (3 * X + Y) * (3 * X + 2 * Y - (3 * X + Y) * s + X * s ^ 2)

end MPC.Spec
