import Verif.Lemmas.ZebMeaning

/-! # The Hessian of the QP of `ZebulonWalkgen` is positive -/

set_option linter.unusedSectionVars false

namespace MPC

open Finset

variable {K : Type} [Field K] [LinearOrder K] [IsStrictOrderedRing K] [FloorRing K]

variable {tr : Trig K} {s : Spec.ZebSettings K} {L : K} {k : K × K} {w : Zeb K}

theorem zQ_symm {u ps v qs : ℕ → ℕ → K} {qp : QPMatrices K} (hq : ZPrep tr s L k w u ps v qs qp) {i j : ℕ}
    (hi : i < 4 * s.nbSamples) (hj : j < 4 * s.nbSamples) : qp.Q.get i j = qp.Q.get j i := by
  rw [hq.Q.2.2 i hi j hj, hq.Q.2.2 j hj i hi]
  unfold zQ
  beta_reduce
  rw [gram_symm _ (zVelD s), gram_symm _ (zPosD s), gram_symm _ (zCopD s), gram_symm _ (zComD s),
    gram_symm _ (zTiltD s L u), gram_symm _ (zTiltD s L v)]
  simp only [eq_comm (a := i) (b := j), and_comm (a := 2 * s.nbSamples ≤ i ∧ i < 2 * s.nbSamples + 2 * s.nbSamples)]

theorem zQuad_ge {u ps v qs : ℕ → ℕ → K} {qp : QPMatrices K} (hq : ZPrep tr s L k w u ps v qs qp) (d : ℕ → K) :
    w.invObj * (max s.weighting.jerkMinimization 0 * ∑ i ∈ range (4 * s.nbSamples), d i ^ 2) ≤ quadForm qp.Q d := by
  have e8 : ∑ i ∈ range (4 * s.nbSamples), ∑ j ∈ range (4 * s.nbSamples),
      d i * (if i = j then (1 : K) else 0) * d j = ∑ i ∈ range (4 * s.nbSamples), d i ^ 2 := by
    refine sum_congr rfl fun i hi => ?_
    rw [sum_eq_single i]
    · simp; ring
    · intro j _ hj; simp [Ne.symm hj]
    · intro hh; exact absurd hi hh
  have eQ : ∑ i ∈ range (4 * s.nbSamples), ∑ j ∈ range (4 * s.nbSamples),
      d i * zQ s (zTiltD s L u) (zTiltD s L v) i j * d j
      = max s.weighting.velocityTracking 0 * ∑ i ∈ range (2 * s.nbSamples), ∑ j ∈ range (2 * s.nbSamples),
          d (2 * s.nbSamples + i) * gram (2 * s.nbSamples) (zVelD s) i j * d (2 * s.nbSamples + j)
      + max s.weighting.positionTracking 0 * ∑ i ∈ range (2 * s.nbSamples), ∑ j ∈ range (2 * s.nbSamples),
          d (2 * s.nbSamples + i) * gram (2 * s.nbSamples) (zPosD s) i j * d (2 * s.nbSamples + j)
      + max s.weighting.copCentering 0 * ∑ i ∈ range (4 * s.nbSamples), ∑ j ∈ range (4 * s.nbSamples),
          d i * gram (2 * s.nbSamples) (zCopD s) i j * d j
      + max s.weighting.comCentering 0 * ∑ i ∈ range (4 * s.nbSamples), ∑ j ∈ range (4 * s.nbSamples),
          d i * gram (2 * s.nbSamples) (zComD s) i j * d j
      + max s.weighting.jerkMinimization 0 * ∑ i ∈ range (4 * s.nbSamples), d i ^ 2
      + max s.weighting.tiltMinimization 0 * ∑ i ∈ range (4 * s.nbSamples), ∑ j ∈ range (4 * s.nbSamples),
          d i * gram (2 * s.nbSamples) (zTiltD s L u) i j * d j
      + max s.weighting.tiltVelMinimization 0 * ∑ i ∈ range (4 * s.nbSamples), ∑ j ∈ range (4 * s.nbSamples),
          d i * gram (2 * s.nbSamples) (zTiltD s L v) i j * d j := by
    rw [← e8, ← sum_shift2 s.nbSamples (gram (2 * s.nbSamples) (zVelD s)),
      ← sum_shift2 s.nbSamples (gram (2 * s.nbSamples) (zPosD s))]
    simp only [mul_sum, ← sum_add_distrib]
    refine sum_congr rfl fun i _ => sum_congr rfl fun j _ => ?_
    unfold zQ; ring
  have eQ' : quadForm qp.Q d = w.invObj * ∑ i ∈ range (4 * s.nbSamples), ∑ j ∈ range (4 * s.nbSamples),
        d i * zQ s (zTiltD s L u) (zTiltD s L v) i j * d j := by
    unfold quadForm
    rw [hq.Q.1, hq.Q.2.1, mul_sum]
    refine sum_congr rfl fun i hi => ?_
    rw [mul_sum]
    refine sum_congr rfl fun j hj => ?_
    rw [hq.Q.2.2 i (mem_range.1 hi) j (mem_range.1 hj)]; ring
  rw [eQ', eQ, gram_quad _ _ (zVelD s) fun i => d (2 * s.nbSamples + i),
    gram_quad _ _ (zPosD s) fun i => d (2 * s.nbSamples + i), gram_quad, gram_quad, gram_quad, gram_quad]
  have hn : ∀ (c : K) (n : ℕ) (f : ℕ → K), 0 ≤ max c 0 * ∑ i ∈ range n, f i ^ 2 := fun c n f =>
    mul_nonneg (le_max_right _ _) (sum_nonneg fun _ _ => sq_nonneg _)
  refine mul_le_mul_of_nonneg_left ?_ hq.invObj_pos.le
  have a1 := hn s.weighting.velocityTracking (2 * s.nbSamples) fun i =>
    ∑ j ∈ range (2 * s.nbSamples), zVelD s i j * d (2 * s.nbSamples + j)
  have a2 := hn s.weighting.positionTracking (2 * s.nbSamples) fun i =>
    ∑ j ∈ range (2 * s.nbSamples), zPosD s i j * d (2 * s.nbSamples + j)
  have a3 := hn s.weighting.copCentering (2 * s.nbSamples) fun i => ∑ j ∈ range (4 * s.nbSamples), zCopD s i j * d j
  have a4 := hn s.weighting.comCentering (2 * s.nbSamples) fun i => ∑ j ∈ range (4 * s.nbSamples), zComD s i j * d j
  have a5 := hn s.weighting.tiltMinimization (2 * s.nbSamples) fun i =>
    ∑ j ∈ range (4 * s.nbSamples), zTiltD s L u i j * d j
  have a6 := hn s.weighting.tiltVelMinimization (2 * s.nbSamples) fun i =>
    ∑ j ∈ range (4 * s.nbSamples), zTiltD s L v i j * d j
  linarith

end MPC
