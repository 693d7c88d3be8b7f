import Verif.Model.Rounded
import Verif.Model.Dynamics
/-!
# `Tools::ConstantJerkDynamic::updateState` with rounding: `/repo/src/tools.cpp:254-268`

`Scalar` is `float` or `double`. `std::pow(T, 2)` with an `int` exponent is a `double` in C++11, and so are the products and
sums it takes part in; the other operations are in `Scalar`. `std::pow` is taken to be correctly rounded.
-/
namespace MPC
variable {K : Type} [Field K] [LinearOrder K]

/-- Rounding to `Scalar` and to `double`. -/
structure Arith (K : Type) where
  r : K → K
  d : K → K

/-- Exact arithmetic. -/
def Arith.exact : Arith K := ⟨fun x => x, fun x => x⟩

/-- `updateState`, lines 260-267, in the order of evaluation of C++. -/
def stateStepR (c : Arith K) (jerk T : K) (s : State3 K) : State3 K where
  p := c.r (c.d (s.p + c.d (c.d (c.r (s.v * T) + c.d (c.r (1 / 2 * s.a) * c.d (T ^ 2)))
    + c.d (c.d (jerk * c.d (T ^ 3)) / 6))))
  v := c.r (c.d (s.v + c.d (c.r (s.a * T) + c.d (c.r (1 / 2 * jerk) * c.d (T ^ 2)))))
  a := c.r (s.a + c.r (jerk * T))

/-- Repeated updates with the jerks `J`. -/
def stateRunR (c : Arith K) (T : K) (J : ℕ → K) (s : State3 K) : ℕ → State3 K
  | 0 => s
  | n + 1 => stateStepR c (J n) T (stateRunR c T J s n)

/-- The arithmetic of `float` (`p = 24`) and `double` (`p = 53`). -/
def flArith (p : ℕ) : Arith ℚ := ⟨fl p, fl 53⟩

end MPC
