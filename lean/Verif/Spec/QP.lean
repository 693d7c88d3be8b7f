import Verif.Model.QP

/-! # What a quadratic program means (`/repo/qpsolver/mpc-walkgen/qpsolver.h:20-28`) -/

namespace MPC.Spec

open Finset

variable {K : Type} [Field K] [LinearOrder K]

/-- `½ xᵀQx + pᵀx`. -/
def cost (m : QPMatrices K) (x : ℕ → K) : K :=
  1 / 2 * (∑ i ∈ range m.Q.rows, ∑ j ∈ range m.Q.cols, x i * m.Q.get i j * x j)
    + ∑ i ∈ range m.p.size, m.p.get i * x i

/-- `xl ≤ x ≤ xu` and `bl ≤ A x ≤ bu`, component by component. -/
def Feasible (m : QPMatrices K) (x : ℕ → K) : Prop :=
  (∀ i < m.xl.size, m.xl.get i ≤ x i) ∧ (∀ i < m.xu.size, x i ≤ m.xu.get i) ∧
  (∀ i < m.bl.size, m.bl.get i ≤ ∑ j ∈ range m.A.cols, m.A.get i j * x j) ∧
  (∀ i < m.bu.size, ∑ j ∈ range m.A.cols, m.A.get i j * x j ≤ m.bu.get i)

/-- `x` is a solution of the QP. -/
def IsSolution (m : QPMatrices K) (x : ℕ → K) : Prop :=
  Feasible m x ∧ ∀ y, Feasible m y → cost m x ≤ cost m y

end MPC.Spec
