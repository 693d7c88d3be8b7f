import Verif.Lemmas.Dynamics
import Verif.Spec.Matrix
import Mathlib.LinearAlgebra.Matrix.Block
import Mathlib.LinearAlgebra.Matrix.NonsingularInverse

/-! Helper lemmas about inverses of runtime-sized matrices. -/

set_option linter.unusedSectionVars false

namespace MPC

open Finset

variable {K : Type} [Field K] [LinearOrder K] [IsStrictOrderedRing K]

open Spec

/-- The determinant of a lower triangular runtime-sized matrix. -/
theorem det_lower (n : ℕ) (f : ℕ → ℕ → K) (h : ∀ i j, i < j → f i j = 0) :
    Matrix.det (Matrix.of fun i j : Fin n => f i j) = ∏ i : Fin n, f i i := by
  rw [Matrix.det_of_isLowerTriangular]
  · simp
  · intro i j hij
    exact h _ _ hij

theorem inverse_isSome (A : Mat K) (h : ∀ i j, i < j → A.get i j = 0)
    (hd : ∀ i < A.rows, A.get i i ≠ 0) : ∃ B, A.inverse = some B := by
  unfold Mat.inverse
  have : Matrix.det (Matrix.of fun i j : Fin A.rows => A.get i j) ≠ 0 := by
    rw [det_lower _ _ h]
    exact Finset.prod_ne_zero_iff.2 fun i _ => hd i i.2
  simp only [this, if_false]
  exact ⟨_, rfl⟩

theorem inverse_spec (A B : Mat K) (hsq : A.cols = A.rows) (h : A.inverse = some B) :
    IsInverse A.rows A B := by
  unfold Mat.inverse at h
  set M : Matrix (Fin A.rows) (Fin A.rows) K := Matrix.of fun i j => A.get i j with hM
  have hdet : M.det ≠ 0 := by
    intro h0
    simp [h0] at h
  simp only [hdet, if_false, Option.some.injEq] at h
  have hrB : B.rows = A.rows := by rw [← h]
  have hcB : B.cols = A.rows := by rw [← h]
  have hB : ∀ i j : Fin A.rows, B.get i j = (M.det⁻¹ • M.adjugate) i j := by
    intro i j
    rw [← h]
    simp
  have h1 : M * (M.det⁻¹ • M.adjugate) = 1 := by
    rw [Matrix.mul_smul, Matrix.mul_adjugate, smul_smul, inv_mul_cancel₀ hdet, one_smul]
  have h2 : (M.det⁻¹ • M.adjugate) * M = 1 := by
    rw [Matrix.smul_mul, Matrix.adjugate_mul, smul_smul, inv_mul_cancel₀ hdet, one_smul]
  refine ⟨rfl, hsq, hrB, hcB, ?_, ?_⟩
  · refine ⟨_, Mat.mul?_ok (by rw [hsq, hrB]), rfl, hcB, ?_⟩
    intro i hi j hj
    have hj' : j < A.rows := by simpa [hcB] using hj
    have hi' : i < A.rows := hi
    have := congrFun (congrFun h1 ⟨i, hi'⟩) ⟨j, hj'⟩
    rw [Matrix.mul_apply, Matrix.one_apply] at this
    simp only [Mat.one, hsq]
    rw [Finset.sum_range]
    simp only [Fin.mk.injEq] at this
    rw [← this]
    refine Finset.sum_congr rfl fun k _ => ?_
    rw [← hB k ⟨j, hj'⟩]; rfl
  · refine ⟨_, Mat.mul?_ok hcB, hrB, hsq, ?_⟩
    intro i hi j hj
    have hj' : j < A.rows := by rw [← hsq]; exact hj
    have hi' : i < A.rows := by rw [← hrB]; exact hi
    have := congrFun (congrFun h2 ⟨i, hi'⟩) ⟨j, hj'⟩
    rw [Matrix.mul_apply, Matrix.one_apply] at this
    simp only [Mat.one, hcB]
    rw [Finset.sum_range]
    simp only [Fin.mk.injEq] at this
    rw [← this]
    refine Finset.sum_congr rfl fun k _ => ?_
    rw [← hB ⟨i, hi'⟩ k]; rfl

/-- Entries of the thresholded inverse. -/
theorem inverseLU_eq (A B : Mat K) (eps : K) (h : A.inverse = some B) :
    inverseLU A eps = some ⟨B.rows, B.cols, fun i j =>
      if |B.get i j| < eps then 0 else B.get i j⟩ := by
  unfold inverseLU; rw [h]; rfl

theorem sum_two {N : ℕ} {j : ℕ} (f : ℕ → K) (hj : j < N) (h : ∀ k, k ≠ j → k ≠ j + 1 → f k = 0) :
    ∑ k ∈ range N, f k = f j + (if j + 1 < N then f (j + 1) else 0) := by
  split_ifs with h1
  · rw [← Finset.sum_pair (show j ≠ j + 1 by omega)]
    symm
    apply sum_subset
    · intro k hk; simp at hk ⊢; omega
    · intro k _ hk
      simp at hk
      exact h k (by tauto) (by tauto)
  · rw [add_zero]
    apply sum_eq_single_of_mem j (by simpa using hj)
    intro k hk hkj
    simp at hk
    exact h k hkj (by omega)

/-- The bidiagonal matrix is a two-sided inverse when `S = T`. -/
theorem bidiagonal_isInverse (T : K) (hT : T ≠ 0) (N : ℕ) :
    IsInverse N ⟨N, N, accU T T⟩ (bidiagonalInverse T T N) := by
  refine ⟨rfl, rfl, rfl, rfl, ?_, ?_⟩
  · refine ⟨_, Mat.mul?_ok rfl, rfl, rfl, ?_⟩
    intro i hi j hj
    have hj : j < N := hj
    have hi : i < N := hi
    change ∑ k ∈ range N, accU T T i k * (bidiagonalInverse T T N).get k j = _
    rw [sum_two (fun k => accU T T i k * (bidiagonalInverse T T N).get k j) hj (by
      intro k h1 h2
      simp only [bidiagonalInverse]
      split_ifs <;> simp_all)]
    simp only [accU, bidiagonalInverse, Mat.one]
    have hTT' : T * (-1 / T) = -1 := by field_simp
    rcases Nat.lt_trichotomy i j with h | h | h
    · have e1 : ¬ j ≤ i := by omega
      have e2 : ¬ j + 1 ≤ i := by omega
      have e3 : j ≠ 0 := by omega
      have e4 : i ≠ j := by omega
      simp [e1, e2, e3, e4]
    · subst h
      have e2 : ¬ i + 1 ≤ i := by omega
      by_cases h0 : i = 0 <;> simp [e2, h0, hT]
    · have e1 : j ≤ i := by omega
      have e2 : j + 1 ≤ i := by omega
      have e3 : j + 1 < N := by omega
      have e4 : i ≠ j := by omega
      by_cases h0 : j = 0
      · subst h0; simp [e2, e3, e4, hTT', hT]
      · simp [e1, e2, e3, e4, h0, hTT', hT]
  · refine ⟨_, Mat.mul?_ok rfl, rfl, rfl, ?_⟩
    intro i hi j hj
    have hj : j < N := hj
    have hi : i < N := hi
    change ∑ k ∈ range N, (bidiagonalInverse T T N).get i k * accU T T k j = _
    rcases Nat.eq_zero_or_pos i with h0 | h0
    · subst h0
      rw [sum_eq_single_of_mem 0 (by simpa using hi) (by
        intro k _ hk
        have e : ¬ (0 = k) := fun h => hk h.symm
        simp [bidiagonalInverse, hk, e])]
      by_cases hj0 : j = 0
      · subst hj0; simp [bidiagonalInverse, accU, Mat.one, hT]
      · have e : ¬ (0 = j) := fun h => hj0 h.symm
        simp [bidiagonalInverse, accU, Mat.one, hj0, e]
    · obtain ⟨m, rfl⟩ : ∃ m, i = m + 1 := ⟨i - 1, by omega⟩
      have hm : m < N := by omega
      rw [sum_two (fun k => (bidiagonalInverse T T N).get (m + 1) k * accU T T k j) hm (by
        intro k h1 h2
        simp only [bidiagonalInverse]
        have e1 : ¬ (m + 1 = k) := fun h => h2 h.symm
        have e2 : ¬ (m = k) := fun h => h1 h.symm
        have e3 : ¬ (k = 0 ∧ m = 0) := by omega
        split_ifs <;> first | omega | (simp; done) | (exfalso; omega))]
      simp only [accU, bidiagonalInverse, Mat.one]
      have e0 : m + 1 < N := hi
      by_cases hm0 : m = 0
      · subst hm0
        by_cases hj0 : j = 0
        · subst hj0; simp [e0, hT]
        · have e1 : ¬ (j ≤ 0) := by omega
          by_cases hj1 : j = 1
          · subst hj1; simp [e0, hT]
          · have e2 : ¬ j ≤ 1 := by omega
            have e3 : ¬ 1 = j := fun h => hj1 h.symm
            simp [e0, hj0, e2, e3]
      · by_cases hj0 : j = 0
        · subst hj0
          simp [e0, hm0, hT]
        · rcases Nat.lt_trichotomy j (m + 1) with h | h | h
          · have e1 : j ≤ m := by omega
            have e2 : j ≤ m + 1 := by omega
            have e3 : ¬ (m + 1 = j) := by omega
            simp [e0, hm0, hj0, e1, e2, e3, hT]
          · subst h
            simp [e0, hm0, hT]
          · have e1 : ¬ j ≤ m := by omega
            have e2 : ¬ j ≤ m + 1 := by omega
            have e3 : ¬ (m + 1 = j) := by omega
            simp [hm0, hj0, e1, e2, e3]

end MPC
