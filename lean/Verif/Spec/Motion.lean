import Verif.Eigen

/-!
# Specification of the motion of a point under piecewise constant jerk

Independent of the matrices of the code: the closed-form solution of `p''' = j` on one interval,
chained over the sampling grid (first interval of length `S`, the others of length `T`).
-/

namespace MPC.Spec

variable {K : Type} [Field K]

/-- Solution at time `t` of `p''' = j`, `p(0)=s.p`, `p'(0)=s.v`, `p''(0)=s.a`. -/
def cubic (s : State3 K) (j t : K) : State3 K where
  p := s.p + s.v * t + s.a * t ^ 2 / 2 + j * t ^ 3 / 6
  v := s.v + s.a * t + j * t ^ 2 / 2
  a := s.a + j * t

/-- State at sample `i` when the jerk is `X 0` during `S` and then `X 1, X 2, …` during `T` each. -/
def jerkTrajectory (S T : K) (x : State3 K) (X : ℕ → K) : ℕ → State3 K
  | 0 => cubic x (X 0) S
  | i + 1 => cubic (jerkTrajectory S T x X i) (X (i + 1)) T

/-- Angle and angular velocity. -/
structure State2 (K : Type) where
  q : K
  w : K

/-- Solution at time `t` of `q'' = α`. -/
def quadratic (s : State2 K) (α t : K) : State2 K where
  q := s.q + s.w * t + α * t ^ 2 / 2
  w := s.w + α * t

/-- State at sample `i` under piecewise constant angular acceleration. -/
def accTrajectory (S T : K) (x : State2 K) (X : ℕ → K) : ℕ → State2 K
  | 0 => quadratic x (X 0) S
  | i + 1 => quadratic (accTrajectory S T x X i) (X (i + 1)) T

/-- CoP of a linear inverted pendulum of mass ratio `m`, height `h`, gravity `(gx, gz)` whose
CoM has state `s`. -/
def copOf (m h gx gz : K) (s : State3 K) : K :=
  m * (s.p - h / gz * s.a) - m * h * gx / gz

end MPC.Spec
