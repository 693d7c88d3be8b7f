import Verif.Model.Rounded
import Verif.Spec.Supervisor
/-! # Rounded clocks: what C83 states -/
namespace MPC
variable {K : Type} [Field K] [LinearOrder K]

/-- A control cycle with rounded clocks; the solver gives any vector of the expected size (see `Cycle`). -/
def CycleR (c : Clock K) (fb : K) (a b : Sup K × Vec K) : Prop :=
  ∃ s₁ v₁, a.1.updateTimelineR c a.2 fb = .ok (s₁, v₁) ∧ b.2.size = v₁.size ∧
    s₁.updateFeetStatesR c ⟨2 * s₁.M, fun i => b.2.get (2 * s₁.N + i)⟩ fb = .ok b.1

namespace Spec

/-- The walk given by two supervisors is the same: phases, footsteps and assignment of the samples to them. -/
structure SameWalk (s s' : Sup K) : Prop where
  N : s'.N = s.N
  M : s'.M = s.M
  move : s'.move = s.move
  types : s'.timeline.map (fun p => p.type) = s.timeline.map (fun p => p.type)
  V : s'.V = s.V
  VT : s'.VT = s.VT
  V0 : s'.V0 = s.V0
  phaseIdx : s'.phaseIdx = s.phaseIdx

/-- Stored times at most `δ` away from those of `s`. -/
structure StoredTimes (δ : K) (s s' : Sup K) : Prop where
  T : |s'.T - s.T| ≤ δ
  step : |s'.stepPeriod - s.stepPeriod| ≤ δ
  ds : |s'.dsPeriod - s.dsPeriod| ≤ δ
  ttnp : |s'.ttnp - s.ttnp| ≤ δ
  durations : ∀ (k : ℕ) (p p' : Phase K), s.timeline[k]? = some p → s'.timeline[k]? = some p' → |p'.duration - p.duration| ≤ δ

/-- The clock makes errors of at most `δ` on times that occur with `s`, whose phases last at most `Q` control periods `fb`,
and these errors do not add up to `EPS`. -/
structure FineClock (c : Clock K) (fb δ : K) (Q : ℕ) (s : Sup K) : Prop where
  grid : Grid fb s
  period : 2 * EPS ≤ fb
  step : s.stepPeriod ≤ Q * fb
  ds : s.dsPeriod ≤ Q * fb
  eps : |c.eps - EPS| ≤ δ
  rnd : ∀ x, |x| ≤ 1 + 2 * s.N * s.T + Q * fb → |c.rnd x - x| ≤ δ
  small : (3 * Q + 3 * s.N + 12) * δ < EPS

/-- The supervisor with its times stored on `p` bits. -/
def stored (p : ℕ) (s : Sup ℚ) : Sup ℚ :=
  { s with T := fl p s.T, stepPeriod := fl p s.stepPeriod, dsPeriod := fl p s.dsPeriod, ttnp := fl p s.ttnp,
           timeline := s.timeline.map fun f => ⟨f.type, fl p f.duration⟩ }

/-- Two histories, with exact clocks and with rounded ones, that start with the same parameters up to the errors of storage
and get the same walking requests. -/
inductive Both (c : Clock K) (fb fb' δ : K) : Sup K × Vec K → Sup K × Vec K → Prop
  | start {a a'} : Ready a → SameWalk a.1 a'.1 → StoredTimes δ a.1 a'.1 → a'.1.left = a.1.left → a'.1.right = a.1.right →
      a'.2.size = a.2.size → Both c fb fb' δ a a'
  | cycle {a a' b b'} : Both c fb fb' δ a a' → Cycle fb a b → CycleR c fb' a' b' → Both c fb fb' δ b b'
  | setMove {a a' m} : Both c fb fb' δ a a' → CanStop a.1 m →
      Both c fb fb' δ (a.1.setMove m, a.2) (a'.1.setMove m, a'.2)

/-- An axis that starts the last cycle of a flight in the state `s`, `D` before landing on `g`, ends it in `s'`: the distance
to the target is cubic in the relative error `ρ` of the clock, the velocity quadratic and the acceleration linear. -/
structure Lands (s s' : State3 K) (g D ρ : K) : Prop where
  pos : g - s'.p = (9 / 2 * (g - s.p) - 3 / 2 * (D * s.v) - 1 / 6 * (D * D * s.a)) * ρ ^ 3
  vel : D * s'.v = 3 * (9 / 2 * (g - s.p) - 3 / 2 * (D * s.v) - 1 / 6 * (D * D * s.a)) * ρ ^ 2
  acc : D * D * s'.a = -(6 * (9 / 2 * (g - s.p) - 3 / 2 * (D * s.v) - 1 / 6 * (D * D * s.a)) * ρ)

/-- The three axes of a foot that has to land on `(x, y)`. -/
structure FootLands (f f' : Foot K) (x y D ρ : K) : Prop where
  x : Lands f.x.state f'.x.state x D ρ
  y : Lands f.y.state f'.y.state y D ρ
  z : Lands f.z.state f'.z.state 0 D ρ

end Spec
end MPC
