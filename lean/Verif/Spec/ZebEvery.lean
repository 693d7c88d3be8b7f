import Verif.Spec.Every
import Verif.Spec.ZebRecede
import Verif.Props.Zebulon
import Verif.Lemmas.ZebMeaning

/-! # What C95 states: a wheeled robot settles, when `solve` is called every `fb` seconds -/

namespace MPC.Spec
open Filter Topology

/-- CoM relative to the base, along both coordinates. -/
def ZebState.between (z : ZebState ℝ) : State3 ℝ × State3 ℝ :=
  (⟨z.cx.p - z.bx.p, z.cx.v - z.bx.v, z.cx.a - z.bx.a⟩, ⟨z.cy.p - z.by_.p, z.cy.v - z.by_.v, z.cy.a - z.by_.a⟩)

/-- The base, along both coordinates. -/
def ZebState.base (z : ZebState ℝ) : State3 ℝ × State3 ℝ := (z.bx, z.by_)

/-- The part `q` of the state of a robot driven by a generator with the settings `s`, called every `fb` seconds, settles at
`(px, py)`: when it starts near enough, and with small planned jerks, it stays near and tends to rest there, whatever the calls
made before (that led to a shift of the CoM reference in `shifts`), the contents of memory and the rotations, and whatever the
solver, if it finds solutions. -/
def ZebSettlesEvery (fb : ℝ) (s : ZebSettings ℝ) (shifts : Set (ℝ × ℝ)) (q : ZebState ℝ → State3 ℝ × State3 ℝ) (px py : ℝ) : Prop :=
  ∀ e > 0, ∃ d > 0, ∀ (o : Oracle ℝ) (tr : Trig ℝ) (cx cy : ℝ) (cs : List (ZebCall ℝ)) (w : Zeb ℝ), FindsSolution o →
    ZebReaches o tr cx cy cs w → zebSettingsOf cx cy cs = s → (ZebSettings.init cx cy).usedShift (0, 0) cs ∈ shifts →
    (∀ i < 4 * s.nbSamples, |w.X.get i| ≤ d) → NearRest px d (q w.state).1 → NearRest py d (q w.state).2 →
    ∃ W : ℕ → Zeb ℝ, (∀ n, ZebReaches o tr cx cy (cs ++ List.replicate n (.solve fb)) (W n)) ∧
      (∀ n, NearRest px e (q (W n).state).1 ∧ NearRest py e (q (W n).state).2) ∧
      (Tendsto (fun n => (q (W n).state).1.p) atTop (𝓝 px) ∧ Tendsto (fun n => (q (W n).state).1.v) atTop (𝓝 0) ∧
        Tendsto (fun n => (q (W n).state).1.a) atTop (𝓝 0)) ∧
      (Tendsto (fun n => (q (W n).state).2.p) atTop (𝓝 py) ∧ Tendsto (fun n => (q (W n).state).2.v) atTop (𝓝 0) ∧
        Tendsto (fun n => (q (W n).state).2.a) atTop (𝓝 0))

/-- The settings are those of some calls without `solve`, each with its preconditions, that led to the shift `k`. -/
def Configured (s : ZebSettings ℝ) (k : ℝ × ℝ) : Prop :=
  ∃ (cx cy : ℝ) (cs : List (ZebCall ℝ)), (ZebSettings.init cx cy).Legal cs ∧ (∀ fb, ZebCall.solve fb ∉ cs) ∧ zebSettingsOf cx cy cs = s ∧
    (ZebSettings.init cx cy).usedShift (0, 0) cs = k

/-- One sample of `T` seconds. -/
structure ZebSettings.OneSample (s : ZebSettings ℝ) (T : ℝ) : Prop where
  samples : s.nbSamples = 1
  period : s.period = T
  refs : s.RefsCurrent

/-- The base tracks the position `(px, py)` and the velocity zero, without constraints or with positive limits of its velocity,
acceleration and jerk. -/
structure ZebSettings.TracksBase (s : ZebSettings ℝ) (T wv wp wj px py : ℝ) : Prop extends s.OneSample T where
  weights : s.weighting = ⟨wv, wp, 0, 0, wj, 0, 0⟩
  vel : s.velRef.get 0 = 0 ∧ s.velRef.get 1 = 0
  pos : s.posRef.get 0 = px ∧ s.posRef.get 1 = py
  config : s.config.cop = false ∧ s.config.com = false ∧ s.config.tilt = false
  limits : s.config.base = true → 0 < s.velLimit ∧ 0 < s.accLimit ∧ 0 < s.jerkLimit

/-- The CoM is centred above the base, up to its reference and the shift `k`, without constraints or with a CoM constraint that leaves
room around the reference. The constraint is the one of the code, which keeps the reflection of the CoM in the polygon. -/
structure ZebSettings.Centres (s : ZebSettings ℝ) (T wc wj : ℝ) (k : ℝ × ℝ) : Prop extends s.OneSample T where
  weights : s.weighting = ⟨0, 0, 0, wc, wj, 0, 0⟩
  config : s.config.cop = false ∧ s.config.base = false ∧ s.config.tilt = false
  room : s.config.com = true → ∃ r > 0, ∀ p : Pt ℝ, |p.x - (s.comRef.get 0 + k.1)| ≤ r → |p.y - (s.comRef.get 1 + k.2)| ≤ r →
    InPolygon s.comPolygon (Pt.reflect p)

end MPC.Spec
