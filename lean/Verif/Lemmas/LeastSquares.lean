import Verif.Eigen

/-! Expansion of sums of squares of affine functions. -/

set_option linter.unusedSectionVars false

namespace MPC

open Finset

variable {K : Type} [Field K] [LinearOrder K] [IsStrictOrderedRing K]

/-- Entries of `UᵀU` for `n` rows. -/
def gram (n : ℕ) (U : ℕ → ℕ → K) (i j : ℕ) : K := ∑ k ∈ range n, U k i * U k j

theorem gram_symm (n : ℕ) (U : ℕ → ℕ → K) (i j : ℕ) : gram n U i j = gram n U j i :=
  sum_congr rfl fun _ _ => mul_comm _ _

/-- `dᵀ (UᵀU) d = ‖U d‖²`. -/
theorem gram_quad (n N : ℕ) (U : ℕ → ℕ → K) (d : ℕ → K) :
    ∑ i ∈ range N, ∑ j ∈ range N, d i * gram n U i j * d j
      = ∑ k ∈ range n, (∑ j ∈ range N, U k j * d j) ^ 2 := by
  have h : ∀ k, (∑ j ∈ range N, U k j * d j) ^ 2
      = ∑ i ∈ range N, ∑ j ∈ range N, (U k i * d i) * (U k j * d j) := by
    intro k; rw [sq, sum_mul_sum]
  simp only [h]
  conv_rhs => rw [sum_comm]
  refine sum_congr rfl fun i _ => ?_
  conv_rhs => rw [sum_comm]
  refine sum_congr rfl fun j _ => ?_
  unfold gram
  rw [mul_sum, sum_mul]
  exact sum_congr rfl fun k _ => by ring

/-- Expansion of `½‖U(x+d)+e‖²` around `x`: gradient `UᵀU x + Uᵀe`, Hessian `UᵀU`. -/
theorem lsq_expand (n N : ℕ) (U : ℕ → ℕ → K) (e x d : ℕ → K) :
    1 / 2 * ∑ k ∈ range n, (∑ j ∈ range N, U k j * (x j + d j) + e k) ^ 2
      = 1 / 2 * ∑ k ∈ range n, (∑ j ∈ range N, U k j * x j + e k) ^ 2
        + ∑ i ∈ range N, (∑ j ∈ range N, gram n U i j * x j + ∑ k ∈ range n, U k i * e k) * d i
        + 1 / 2 * ∑ i ∈ range N, ∑ j ∈ range N, d i * gram n U i j * d j := by
  rw [gram_quad]
  have h1 : ∀ k, ∑ j ∈ range N, U k j * (x j + d j) + e k
      = (∑ j ∈ range N, U k j * x j + e k) + ∑ j ∈ range N, U k j * d j := by
    intro k
    have : ∑ j ∈ range N, U k j * (x j + d j)
        = ∑ j ∈ range N, U k j * x j + ∑ j ∈ range N, U k j * d j := by
      rw [← sum_add_distrib]; exact sum_congr rfl fun j _ => by ring
    rw [this]; ring
  simp only [h1, add_sq]
  rw [sum_add_distrib, sum_add_distrib]
  have h2 : ∑ k ∈ range n, 2 * (∑ j ∈ range N, U k j * x j + e k) * ∑ j ∈ range N, U k j * d j
      = 2 * ∑ i ∈ range N, (∑ j ∈ range N, gram n U i j * x j + ∑ k ∈ range n, U k i * e k) * d i := by
    have : ∀ i ∈ range N, (∑ j ∈ range N, gram n U i j * x j + ∑ k ∈ range n, U k i * e k) * d i
        = ∑ k ∈ range n, (∑ j ∈ range N, U k j * x j + e k) * (U k i * d i) := by
      intro i _
      have h3 : ∑ j ∈ range N, gram n U i j * x j
          = ∑ k ∈ range n, U k i * ∑ j ∈ range N, U k j * x j := by
        unfold gram
        simp only [sum_mul, mul_sum]
        rw [sum_comm]
        exact sum_congr rfl fun k _ => sum_congr rfl fun j _ => by ring
      rw [h3, ← sum_add_distrib, sum_mul]
      exact sum_congr rfl fun k _ => by ring
    rw [sum_congr rfl this, sum_comm, mul_sum]
    refine sum_congr rfl fun k _ => ?_
    rw [mul_assoc, mul_sum]
  rw [h2]
  ring

end MPC
