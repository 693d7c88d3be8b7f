import Verif.Spec.ZebEvery

/-! # What C96 states: a robot settles at a velocity when `solve` is called every `fb` seconds -/

namespace MPC.Spec
open Filter Topology

/-- The state moves with the velocity `vr`, without acceleration, up to `e`. -/
def NearSpeed (vr e : ℝ) (x : State3 ℝ) : Prop := |x.v - vr| ≤ e ∧ |x.a| ≤ e

/-- A robot driven by a generator with the settings `s`, called every `fb` seconds, settles at the velocity `vr`: when it starts near
enough to it, and with small planned jerks, it stays near and tends to it, whatever the calls made before and whatever the solver, if
it finds solutions. -/
def SettlesSpeed (fb : ℝ) (s : TrajSettings ℝ) (vr : ℝ) : Prop :=
  ∀ e > 0, ∃ d > 0, ∀ (o : Oracle ℝ) (cs : List (TrajCall ℝ)) (w : TrajWalkgen ℝ), FindsSolution o → TrajReaches o cs w →
    settingsOf cs = s → (∀ i < s.nbSamples, |w.X.get i| ≤ d) → NearSpeed vr d w.getState →
    ∃ W : ℕ → TrajWalkgen ℝ, (∀ n, TrajReaches o (cs ++ List.replicate n (.solve fb)) (W n)) ∧
      (∀ n, NearSpeed vr e (W n).getState) ∧ Tendsto (fun n => (W n).getState.v) atTop (𝓝 vr) ∧
      Tendsto (fun n => (W n).getState.a) atTop (𝓝 0)

/-- Only the velocity `vr` and the jerks are weighted, and nothing is limited; the settings are those of some calls without `solve`, each
with its preconditions. -/
structure TrajSettings.TracksSpeed (s : TrajSettings ℝ) (vr : ℝ) : Prop where
  samples : 0 < s.nbSamples
  period : 0 < s.period
  vel : 0 < s.weighting.velocityTracking
  pos : s.weighting.positionTracking ≤ 0
  jerk : 0 < s.weighting.jerkMinimization
  free : s.constrained = false
  refs : s.RefsCurrent
  ref : ∀ i < s.nbSamples, s.velRef.get i = vr
  calls : ∃ cs : List (TrajCall ℝ), TrajSettings.init.Legal cs ∧ (∀ fb, TrajCall.solve fb ∉ cs) ∧ settingsOf cs = s

/-- The base of a wheeled robot settles at the velocity `(vx, vy)`, as `SettlesSpeed`. -/
def BaseSettlesSpeed (fb : ℝ) (s : ZebSettings ℝ) (vx vy : ℝ) : Prop :=
  ∀ e > 0, ∃ d > 0, ∀ (o : Oracle ℝ) (tr : Trig ℝ) (cx cy : ℝ) (cs : List (ZebCall ℝ)) (w : Zeb ℝ), FindsSolution o →
    ZebReaches o tr cx cy cs w → zebSettingsOf cx cy cs = s → (∀ i < 4 * s.nbSamples, |w.X.get i| ≤ d) →
    NearSpeed vx d w.state.bx → NearSpeed vy d w.state.by_ →
    ∃ W : ℕ → Zeb ℝ, (∀ n, ZebReaches o tr cx cy (cs ++ List.replicate n (.solve fb)) (W n)) ∧
      (∀ n, NearSpeed vx e (W n).state.bx ∧ NearSpeed vy e (W n).state.by_) ∧
      (Tendsto (fun n => (W n).state.bx.v) atTop (𝓝 vx) ∧ Tendsto (fun n => (W n).state.bx.a) atTop (𝓝 0)) ∧
      Tendsto (fun n => (W n).state.by_.v) atTop (𝓝 vy) ∧ Tendsto (fun n => (W n).state.by_.a) atTop (𝓝 0)

/-- Only the base velocity `(vx, vy)` and the jerks are weighted, without constraints or with limits of the base beyond its reference. -/
structure ZebSettings.TracksSpeed (s : ZebSettings ℝ) (vx vy : ℝ) : Prop where
  samples : 0 < s.nbSamples
  period : 0 < s.period
  vel : 0 < s.weighting.velocityTracking
  pos : s.weighting.positionTracking ≤ 0
  cop : s.weighting.copCentering ≤ 0
  com : s.weighting.comCentering ≤ 0
  jerk : 0 < s.weighting.jerkMinimization
  tilt : s.weighting.tiltMinimization ≤ 0
  tiltVel : s.weighting.tiltVelMinimization ≤ 0
  config : s.config.cop = false ∧ s.config.com = false ∧ s.config.tilt = false
  limits : s.config.base = true → |vx| < s.velLimit ∧ |vy| < s.velLimit ∧ 0 < s.accLimit ∧ 0 < s.jerkLimit
  refs : s.RefsCurrent
  ref : ∀ i < s.nbSamples, s.velRef.get i = vx ∧ s.velRef.get (s.nbSamples + i) = vy
  calls : ∃ k, Configured s k

end MPC.Spec
