import Verif.Lemmas.QP

/-!
# Properties C13–C15: normalisation and the solver wrapper
-/

set_option linter.unusedSectionVars false

namespace MPC

open Finset

variable {K : Type} [Field K] [LinearOrder K] [IsStrictOrderedRing K]

/-- **C13.** For every QP (any sizes, any coefficients) and every `eps ≥ 0`, normalisation
terminates and changes neither the feasible points nor the solutions. -/
theorem C13_same_solutions (m : QPMatrices K) (eps : K) (h0 : 0 ≤ eps) :
    ∃ m', normalizeMatrices m eps = .ok m' ∧
      (∀ x, Spec.Feasible m' x ↔ Spec.Feasible m x) ∧
      (∀ x, Spec.IsSolution m' x ↔ Spec.IsSolution m x) := by
  have hc := lt_of_lt_of_le one_pos (factor_ge_one m.Q eps h0)
  have hd := lt_of_lt_of_le one_pos (factor_ge_one m.A eps h0)
  exact ⟨_, normalizeMatrices_ok m eps h0, scale_feasible m _ _ hd, scale_solution m _ _ hc hd⟩

/-- C13 excludes negative tolerances: a zero coefficient then makes the factor infinite. -/
theorem C13_negative_eps_unspecified (A : Mat K) (eps : K) (h : eps < 0) (i j : ℕ)
    (hi : i < A.rows) (hj : j < A.cols) (h0 : A.get i j = 0) :
    getNormalizationFactor A eps = .error .unspecified := by
  unfold getNormalizationFactor
  have h1 : smallestSignificant A eps ≤ 0 := by
    have := smallestSignificant_le A eps hi hj (by rw [h0, abs_zero]; exact h)
    rwa [h0, abs_zero] at this
  have step : ∀ f x : K, 0 ≤ f → 0 ≤ normalizationStep eps f x := by
    intro f x hf
    unfold normalizationStep
    split_ifs
    · exact abs_nonneg x
    · exact hf
  have fold : ∀ (α : Type) (l : List α) (g : K → α → K), (∀ f a, 0 ≤ f → 0 ≤ g f a) → ∀ f, 0 ≤ f →
      0 ≤ l.foldl g f := by
    intro α l g hg
    induction l with
    | nil => intro f hf; exact hf
    | cons a l ih => intro f hf; exact ih _ (hg f a hf)
  have h2 : 0 ≤ smallestSignificant A eps :=
    fold _ _ _ (fun f a hf => fold _ _ _ (fun f b hf => step f _ hf) f hf) 1 zero_le_one
  rw [if_pos (le_antisymm h1 h2)]

/-- **C14.** After normalisation with `0 < eps < 1`: every coefficient of `Q` (and of `A`) above
`eps` becomes at least one, and every coefficient is multiplied by a common factor between `1`
and `1/eps`. -/
theorem C14_bounds (m : QPMatrices K) (eps : K) (h0 : 0 < eps) (h1 : eps < 1) :
    ∃ m', normalizeMatrices m eps = .ok m' ∧
      (m'.Q.rows = m.Q.rows ∧ m'.Q.cols = m.Q.cols ∧
        ∀ i < m.Q.rows, ∀ j < m.Q.cols, (eps < |m.Q.get i j| → 1 ≤ |m'.Q.get i j|) ∧
          |m.Q.get i j| ≤ |m'.Q.get i j| ∧ |m'.Q.get i j| ≤ |m.Q.get i j| / eps) ∧
      (m'.A.rows = m.A.rows ∧ m'.A.cols = m.A.cols ∧
        ∀ i < m.A.rows, ∀ j < m.A.cols, (eps < |m.A.get i j| → 1 ≤ |m'.A.get i j|) ∧
          |m.A.get i j| ≤ |m'.A.get i j| ∧ |m'.A.get i j| ≤ |m.A.get i j| / eps) := by
  have key : ∀ (A : Mat K) (i j : ℕ), i < A.rows → j < A.cols →
      (eps < |A.get i j| → 1 ≤ |1 / smallestSignificant A eps * A.get i j|) ∧
      |A.get i j| ≤ |1 / smallestSignificant A eps * A.get i j| ∧
      |1 / smallestSignificant A eps * A.get i j| ≤ |A.get i j| / eps := by
    intro A i j hi hj
    have hpos := smallestSignificant_pos A eps h0.le
    rw [abs_mul, abs_of_pos (one_div_pos.2 hpos)]
    refine ⟨?_, ?_, ?_⟩
    · intro h
      have := smallestSignificant_le A eps hi hj h
      rw [one_div, ← div_eq_inv_mul, le_div_iff₀ hpos, one_mul]
      exact this
    · exact le_mul_of_one_le_left (abs_nonneg _) (factor_ge_one A eps h0.le)
    · have := smallestSignificant_gt A eps h1
      rw [one_div, ← div_eq_inv_mul]
      exact div_le_div_of_nonneg_left (abs_nonneg _) h0 this.le
  exact ⟨_, normalizeMatrices_ok m eps h0.le, ⟨rfl, rfl, fun i hi j hj => key m.Q i j hi hj⟩,
    ⟨rfl, rfl, fun i hi j hj => key m.A i j hi hj⟩⟩

/-- A concrete normalisation: the smallest significant coefficient `1/100` becomes one, the
coefficient `1/100000 < EPS` is ignored. -/
example : getNormalizationFactor (⟨2, 2, fun i j => if i = j then 1 / 100 else 1 / 100000⟩ : Mat ℚ)
    EPS = .ok 100 := by
  have : smallestSignificant (⟨2, 2, fun i j => if i = j then 1 / 100 else 1 / 100000⟩ : Mat ℚ) EPS
      = 1 / 100 := by
    simp [smallestSignificant, List.range_succ, normalizationStep, EPS]
    norm_num [abs_of_pos]
  unfold getNormalizationFactor
  rw [this]; norm_num

/-! ### C15 -/

/-- **C15 is violated.** Without an output stream the wrapper returns `true` whatever qpOASES
reports: for every solver state, every QP of the right dimensions and every oracle. All three
walking generators call it without an output stream. -/
theorem C15_wrapper_hides_failure (o : Oracle K) (s : SolverState K) (m : QPMatrices K)
    (maxIter : ℕ) (sol : Vec K) (warm : Bool) (hm : m.DimensionsAreConsistent s.nbVar s.nbCtr)
    (hsol : s.nbVar ≤ sol.size) :
    ∃ sol' s', solverSolve o s m maxIter sol warm false = .ok (true, sol', s') := by
  have h := solverSolve_ok o s m maxIter sol warm false hm hsol
  simp only [Bool.not_false, Bool.or_true] at h
  exact ⟨_, _, h⟩

/-- A concrete failing solver whose failure is reported as success. -/
example : ∃ (o : Oracle ℚ) (s : SolverState ℚ) (m : QPMatrices ℚ) (sol sol' : Vec ℚ)
    (s' : SolverState ℚ), (∀ n q k, (o n q k).1 = false) ∧
    solverSolve o s m 100 sol true false = .ok (true, sol', s') := by
  obtain ⟨sol', s', h⟩ := C15_wrapper_hides_failure (K := ℚ) (fun _ _ _ => (false, fun _ => 0))
    (SolverState.make 1 0) ⟨Mat.zero 1 1, Vec.const 1 0, Vec.const 1 0, Vec.const 1 0, Mat.zero 0 1,
      Vec.const 0 0, Vec.const 0 0⟩ 100 (Vec.const 1 0) true
    ⟨rfl, rfl, rfl, rfl, rfl, rfl, rfl, rfl, rfl⟩ le_rfl
  exact ⟨_, _, _, _, _, _, fun _ _ _ => rfl, h⟩

/-- **C15 (partial: an output stream is given).** Then the wrapper returns exactly what qpOASES
reports, the primal vector is written in any case, and the QP given to qpOASES is the requested one
(with the matrices of the last initialisation in case of a warm start). Missing: the case without
output stream, for which the claim is false (`C15_wrapper_hides_failure`). -/
theorem C15_reports_failure_partial (o : Oracle K) (s : SolverState K) (m : QPMatrices K)
    (maxIter : ℕ) (sol : Vec K) (warm : Bool) (hm : m.DimensionsAreConsistent s.nbVar s.nbCtr)
    (hsol : s.nbVar ≤ sol.size) :
    ∃ sol' s' used, solverSolve o s m maxIter sol warm true
        = .ok ((o s.calls used maxIter).1, sol', s') ∧
      (used = m ∨ (s.initialized = true ∧ warm = true ∧ used = { m with Q := s.Q, A := s.A })) ∧
      sol'.size = sol.size ∧ (∀ i < s.nbVar, sol'.get i = (o s.calls used maxIter).2 i) := by
  have h := solverSolve_ok o s m maxIter sol warm true hm hsol
  simp only [Bool.not_true, Bool.or_false] at h
  refine ⟨_, _, usedQP s m warm, h, ?_, rfl, fun i hi => by simp [hi]⟩
  unfold usedQP
  split_ifs with h
  · exact .inr ⟨(Bool.and_eq_true_iff.1 h).1, (Bool.and_eq_true_iff.1 h).2, rfl⟩
  · exact .inl rfl

end MPC
