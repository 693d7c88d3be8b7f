import Verif.Eigen

/-! # What it means for a stored matrix to be an inverse -/

namespace MPC.Spec

variable {K : Type} [Field K]

/-- `A` and `B` are `n × n` and inverse of each other (both products are the identity). -/
def IsInverse (n : ℕ) (A B : Mat K) : Prop :=
  A.rows = n ∧ A.cols = n ∧ B.rows = n ∧ B.cols = n ∧
  (∃ P, A.mul? B = .ok P ∧ P.Same (Mat.one n)) ∧ (∃ P, B.mul? A = .ok P ∧ P.Same (Mat.one n))

end MPC.Spec
