import Verif.Model.RoundedState
import Verif.Spec.Motion
/-! # Rounded state updates: what C88 states -/
namespace MPC.Spec
variable {K : Type} [Field K] [LinearOrder K]

/-- Every rounding has a relative error of at most `u`. -/
structure Precise (c : Arith K) (u : K) : Prop where
  r : ∀ x, |c.r x - x| ≤ u * |x|
  d : ∀ x, |c.d x - x| ≤ u * |x|

/-- The sums of the absolute values of the terms that `updateState` adds up are at most `P`, `V` and `A`. -/
structure Terms (jerk T : K) (s : State3 K) (P V A : K) : Prop where
  p : |s.p| + |s.v| * T + |s.a| * T ^ 2 / 2 + |jerk| * T ^ 3 / 6 ≤ P
  v : |s.v| + |s.a| * T + |jerk| * T ^ 2 / 2 ≤ V
  a : |s.a| + |jerk| * T ≤ A

/-- The exact motion: each jerk is applied during `T`. -/
def exactRun (T : K) (J : ℕ → K) (s : State3 K) : ℕ → State3 K
  | 0 => s
  | n + 1 => cubic (exactRun T J s n) (J n) T

/-- Componentwise distances of two states. -/
structure Within (s s' : State3 K) (p v a : K) : Prop where
  p : |s'.p - s.p| ≤ p
  v : |s'.v - s.v| ≤ v
  a : |s'.a - s.a| ≤ a

end MPC.Spec
