import Verif.Spec.ZebEvery

/-! # What C99 states: a wheeled robot with the heading constraint stays on a line -/

namespace MPC.Spec
variable {K : Type} [Field K] [LinearOrder K]

/-- Component across the heading `(c, n)` of a vector `(x, y)`. -/
def across (c n x y : K) : K := n * x - c * y

/-- CoM and base do not move across the heading, and do not begin to. -/
structure ZebState.OnLine (c n : K) (z : ZebState K) : Prop where
  comV : across c n z.cx.v z.cy.v = 0
  comA : across c n z.cx.a z.cy.a = 0
  baseV : across c n z.bx.v z.by_.v = 0
  baseA : across c n z.bx.a z.by_.a = 0

/-- CoM and base are on the same lines along the heading in both states. -/
def ZebState.SameLine (c n : K) (z z' : ZebState K) : Prop :=
  across c n z'.cx.p z'.cy.p = across c n z.cx.p z.cy.p ∧ across c n z'.bx.p z'.by_.p = across c n z.bx.p z.by_.p

/-- The planned jerks of CoM and base are along the heading. -/
def JerksAlong (c n : K) (N : ℕ) (X : ℕ → K) : Prop :=
  ∀ i < N, across c n (jerkCX N X i) (jerkCY N X i) = 0 ∧ across c n (jerkBX N X i) (jerkBY N X i) = 0

end MPC.Spec
