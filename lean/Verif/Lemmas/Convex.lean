import Verif.Spec.Convex
import Verif.Lemmas.Superpose

/-! # Means of the problems of `TrajectoryWalkgen` (C104) -/

set_option linter.unusedSectionVars false

namespace MPC

open Finset

variable {K : Type} [Field K] [LinearOrder K] [IsStrictOrderedRing K]

theorem abs_mean_le {a b x y A B C : K} (ha : 0 ≤ a) (hb : 0 ≤ b) (hx : |x| ≤ A) (hy : |y| ≤ B) (h : a * A + b * B ≤ C) :
    |a * x + b * y| ≤ C := by
  rw [abs_le] at *
  constructor <;> nlinarith [mul_le_mul_of_nonneg_left hx.1 ha, mul_le_mul_of_nonneg_left hx.2 ha,
    mul_le_mul_of_nonneg_left hy.1 hb, mul_le_mul_of_nonneg_left hy.2 hb]

theorem sq_mean_le {a b : K} (ha : 0 ≤ a) (hb : 0 ≤ b) (hab : a + b = 1) (x y : K) :
    (a * x + b * y) ^ 2 ≤ a * x ^ 2 + b * y ^ 2 := by
  obtain rfl : b = 1 - a := by linear_combination hab
  have h : a * x ^ 2 + (1 - a) * y ^ 2 - (a * x + (1 - a) * y) ^ 2 = a * (1 - a) * (x - y) ^ 2 := by ring
  have := mul_nonneg (mul_nonneg ha hb) (sq_nonneg (x - y))
  linarith

theorem sum_sq_mean_le {a b : K} (ha : 0 ≤ a) (hb : 0 ≤ b) (hab : a + b = 1) {N : ℕ} {x y z : ℕ → K}
    (hz : ∀ i < N, z i = a * x i + b * y i) :
    ∑ i ∈ range N, z i ^ 2 ≤ a * ∑ i ∈ range N, x i ^ 2 + b * ∑ i ∈ range N, y i ^ 2 := by
  rw [mul_sum, mul_sum, ← sum_add_distrib]
  refine sum_le_sum fun i hi => ?_
  rw [hz i (mem_range.1 hi)]
  exact sq_mean_le ha hb hab _ _

section
variable {a b : K} {s₁ s₂ s₃ : Spec.TrajSettings K}

theorem within_mean (ha : 0 ≤ a) (hb : 0 ≤ b) (hs : Spec.MeanSettings a b s₁ s₂ s₃) {x y : State3 K} {J L : ℕ → K}
    (h₁ : Spec.WithinLimits s₁ x J) (h₂ : Spec.WithinLimits s₂ y L) :
    Spec.WithinLimits s₃ (Spec.superpose a b x y) (fun i => a * J i + b * L i) := by
  intro i hi
  rw [hs.N₃] at hi
  obtain ⟨p1, p2, p3⟩ := h₁ i hi
  obtain ⟨q1, q2, q3⟩ := h₂ i (by rw [hs.N₂]; exact hi)
  rw [hs.T₂] at q1 q2
  rw [hs.T₃, combine_trajectory]
  exact ⟨abs_mean_le ha hb p1 q1 hs.velLimit, abs_mean_le ha hb p2 q2 hs.accLimit, abs_mean_le ha hb p3 q3 hs.jerkLimit⟩

theorem trajCost_mean (ha : 0 ≤ a) (hb : 0 ≤ b) (hab : a + b = 1) (hs : Spec.MeanSettings a b s₁ s₂ s₃) (hr : s₁.RefsCurrent)
    (x y : State3 K) (J L : ℕ → K) :
    Spec.trajCost s₃ (Spec.superpose a b x y) (fun i => a * J i + b * L i)
      ≤ a * Spec.trajCost s₁ x J + b * Spec.trajCost s₂ y L := by
  unfold Spec.trajCost
  rw [hs.N₂, hs.N₃, hs.T₂, hs.T₃, hs.weighting₂, hs.weighting₃]
  have hv := sum_sq_mean_le ha hb hab (N := s₁.nbSamples)
    (x := fun i => (Spec.jerkTrajectory s₁.period s₁.period x J i).v - s₁.velRef.get i)
    (y := fun i => (Spec.jerkTrajectory s₁.period s₁.period y L i).v - s₂.velRef.get i)
    (z := fun i => (Spec.jerkTrajectory s₁.period s₁.period (Spec.superpose a b x y) (fun i => a * J i + b * L i) i).v
      - s₃.velRef.get i) (fun i hi => by
      rw [combine_trajectory, hs.velRef.get i (by rw [hr.1]; exact hi)]; simp only [Spec.superpose]; ring)
  have hp := sum_sq_mean_le ha hb hab (N := s₁.nbSamples)
    (x := fun i => (Spec.jerkTrajectory s₁.period s₁.period x J i).p - s₁.posRef.get i)
    (y := fun i => (Spec.jerkTrajectory s₁.period s₁.period y L i).p - s₂.posRef.get i)
    (z := fun i => (Spec.jerkTrajectory s₁.period s₁.period (Spec.superpose a b x y) (fun i => a * J i + b * L i) i).p
      - s₃.posRef.get i) (fun i hi => by
      rw [combine_trajectory, hs.posRef.get i (by rw [hr.2]; exact hi)]; simp only [Spec.superpose]; ring)
  have hj := sum_sq_mean_le ha hb hab (N := s₁.nbSamples) (x := J) (y := L) (z := fun i => a * J i + b * L i) fun _ _ => rfl
  have h1 := mul_le_mul_of_nonneg_left hv (le_max_right s₁.weighting.velocityTracking 0)
  have h2 := mul_le_mul_of_nonneg_left hp (le_max_right s₁.weighting.positionTracking 0)
  have h3 := mul_le_mul_of_nonneg_left hj (le_max_right s₁.weighting.jerkMinimization 0)
  linarith

end

end MPC
