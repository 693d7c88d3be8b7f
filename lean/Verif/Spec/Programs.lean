import Verif.Model.Programs
import Verif.Spec.Motion
/-! # What the example programs should do -/
namespace MPC.Spec

variable {K : Type} [Field K] [LinearOrder K]

/-- The rows of a log follow from state `x`: each state is the one reached from the previous with the jerk of the row. -/
def LogFollows (fb : K) : State3 K → List (TrajRow K) → Prop
  | _, [] => True
  | x, r :: rs => r.state = cubic x r.jerk fb ∧ LogFollows fb r.state rs

/-- The rows of a log of the Zebulon program follow from the states `b` of the base and `c` of the CoM, for some jerks. -/
def ZebLogFollows (fb : ℝ) : State3 ℝ → State3 ℝ → List ZebRow → Prop
  | _, _, [] => True
  | b, c, r :: rs => (∃ jb jc, r.base = cubic b jb fb ∧ r.com = cubic c jc fb) ∧ r.delta = r.com.p - r.base.p ∧
      ZebLogFollows fb r.base r.com rs

end MPC.Spec
