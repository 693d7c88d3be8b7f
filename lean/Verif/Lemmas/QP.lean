import Verif.Spec.QP

set_option linter.unusedSectionVars false

namespace MPC

open Finset

variable {K : Type} [Field K] [LinearOrder K] [IsStrictOrderedRing K]

theorem normalizationStep_le (eps f x : K) : normalizationStep eps f x ≤ f := by
  unfold normalizationStep; split_ifs with h
  · exact h.2.le
  · exact le_rfl

theorem normalizationStep_le_abs (eps f x : K) (hx : eps < |x|) :
    normalizationStep eps f x ≤ |x| := by
  unfold normalizationStep; split_ifs with h
  · exact le_rfl
  · exact not_lt.1 fun h' => h ⟨hx, h'⟩

theorem normalizationStep_gt (eps f x : K) (hf : eps < f) : eps < normalizationStep eps f x := by
  unfold normalizationStep; split_ifs with h
  · exact h.1
  · exact hf

/-- Fold of a step that never increases. -/
theorem foldl_le {α : Type} (l : List α) (g : K → α → K) (hg : ∀ f a, g f a ≤ f) (f : K) :
    l.foldl g f ≤ f := by
  induction l generalizing f with
  | nil => exact le_rfl
  | cons a l ih => exact (ih _).trans (hg f a)

theorem foldl_le_of_mem {α : Type} (l : List α) (g : K → α → K) (hg : ∀ f a, g f a ≤ f) (f : K)
    (a : α) (ha : a ∈ l) (c : K) (hc : ∀ f, g f a ≤ c) : l.foldl g f ≤ c := by
  induction l generalizing f with
  | nil => simp at ha
  | cons b l ih =>
    rcases List.mem_cons.1 ha with rfl | h
    · exact (foldl_le l g hg _).trans (hc f)
    · exact ih _ h

theorem foldl_gt {α : Type} (l : List α) (g : K → α → K) (e : K) (hg : ∀ f a, e < f → e < g f a)
    (f : K) (hf : e < f) : e < l.foldl g f := by
  induction l generalizing f with
  | nil => exact hf
  | cons a l ih => exact ih _ (hg f a hf)

theorem smallestSignificant_le_one (A : Mat K) (eps : K) : smallestSignificant A eps ≤ 1 :=
  foldl_le _ _ (fun f _ => foldl_le _ _ (fun f _ => normalizationStep_le _ f _) f) 1

theorem smallestSignificant_le (A : Mat K) (eps : K) {i j : ℕ} (hi : i < A.rows) (hj : j < A.cols)
    (h : eps < |A.get i j|) : smallestSignificant A eps ≤ |A.get i j| := by
  refine foldl_le_of_mem _ _ (fun f _ => foldl_le _ _ (fun f _ => normalizationStep_le _ f _) f) 1
    i (List.mem_range.2 hi) _ fun f => ?_
  exact foldl_le_of_mem _ _ (fun f _ => normalizationStep_le _ f _) f j (List.mem_range.2 hj) _
    fun f => normalizationStep_le_abs _ f _ h

theorem smallestSignificant_gt (A : Mat K) (eps : K) (h1 : eps < 1) :
    eps < smallestSignificant A eps :=
  foldl_gt _ _ eps (fun f _ hf => foldl_gt _ _ eps
    (fun f _ hf => normalizationStep_gt _ f _ hf) f hf) 1 h1

/-- A nonzero value at the end stays positive when `eps ≥ 0`, whatever `eps`. -/
theorem smallestSignificant_pos (A : Mat K) (eps : K) (h0 : 0 ≤ eps) :
    0 < smallestSignificant A eps := by
  have step : ∀ f x : K, 0 < f → 0 < normalizationStep eps f x := by
    intro f x hf
    unfold normalizationStep
    split_ifs with h
    · exact lt_of_le_of_lt h0 h.1
    · exact hf
  exact foldl_gt _ _ 0 (fun f _ hf => foldl_gt _ _ 0 (fun f _ hf => step f _ hf) f hf) 1 one_pos

theorem getNormalizationFactor_ok (A : Mat K) (eps : K) (h0 : 0 ≤ eps) :
    getNormalizationFactor A eps = .ok (1 / smallestSignificant A eps) := by
  unfold getNormalizationFactor
  rw [if_neg (smallestSignificant_pos A eps h0).ne']

/-- The factor is at least one, hence positive. -/
theorem factor_ge_one (A : Mat K) (eps : K) (h0 : 0 ≤ eps) :
    1 ≤ 1 / smallestSignificant A eps := by
  rw [le_div_iff₀ (smallestSignificant_pos A eps h0), one_mul]
  exact smallestSignificant_le_one A eps

/-- Scaled QP. -/
def scaleQP (m : QPMatrices K) (c d : K) : QPMatrices K :=
  { m with Q := Mat.smul c m.Q, p := Vec.smul c m.p, A := Mat.smul d m.A, bu := Vec.smul d m.bu
           bl := Vec.smul d m.bl }

theorem scale_feasible (m : QPMatrices K) (c d : K) (hd : 0 < d) (x : ℕ → K) :
    Spec.Feasible (scaleQP m c d) x ↔ Spec.Feasible m x := by
  have e : ∀ i, ∑ j ∈ range m.A.cols, d * m.A.get i j * x j
      = d * ∑ j ∈ range m.A.cols, m.A.get i j * x j := by
    intro i; rw [mul_sum]; exact sum_congr rfl fun j _ => by ring
  simp only [Spec.Feasible, scaleQP, Mat.smul, Vec.smul, e, mul_le_mul_iff_right₀ hd]

theorem scale_cost (m : QPMatrices K) (c d : K) (x : ℕ → K) :
    Spec.cost (scaleQP m c d) x = c * Spec.cost m x := by
  simp only [Spec.cost, scaleQP, Mat.smul, Vec.smul]
  rw [mul_add]
  congr 1
  · rw [mul_left_comm]
    congr 1
    rw [mul_sum]
    refine sum_congr rfl fun i _ => ?_
    rw [mul_sum]
    exact sum_congr rfl fun j _ => by ring
  · rw [mul_sum]; exact sum_congr rfl fun i _ => by ring

theorem scale_solution (m : QPMatrices K) (c d : K) (hc : 0 < c) (hd : 0 < d) (x : ℕ → K) :
    Spec.IsSolution (scaleQP m c d) x ↔ Spec.IsSolution m x := by
  simp only [Spec.IsSolution, scale_feasible m c d hd, scale_cost, mul_le_mul_iff_right₀ hc]

theorem normalizeMatrices_ok (m : QPMatrices K) (eps : K) (h0 : 0 ≤ eps) :
    normalizeMatrices m eps = .ok (scaleQP m (1 / smallestSignificant m.Q eps)
      (1 / smallestSignificant m.A eps)) := by
  unfold normalizeMatrices
  rw [getNormalizationFactor_ok _ _ h0, getNormalizationFactor_ok _ _ h0]
  rfl

theorem solverSolve_ok (o : Oracle K) (s : SolverState K) (m : QPMatrices K)
    (maxIter : ℕ) (sol : Vec K) (warm os : Bool) (hm : m.DimensionsAreConsistent s.nbVar s.nbCtr)
    (hsol : s.nbVar ≤ sol.size) :
    solverSolve o s m maxIter sol warm os =
      .ok ((o s.calls (usedQP s m warm) maxIter).1 || !os,
        ⟨sol.size, fun i => if i < s.nbVar then (o s.calls (usedQP s m warm) maxIter).2 i
          else sol.get i⟩,
        { s with initialized := true, Q := (usedQP s m warm).Q, A := (usedQP s m warm).A
                 calls := s.calls + 1 }) := by
  unfold solverSolve
  rw [require_pos hm, requireIndex_pos hsol]
  simp only [ok_bind]
  cases h : (o s.calls (usedQP s m warm) maxIter).1 <;> cases os <;> simp

/-! ### Uniqueness of the solution of a strictly convex QP -/

/-- The quadratic form. -/
def quadForm (Q : Mat K) (x : ℕ → K) : K :=
  ∑ i ∈ range Q.rows, ∑ j ∈ range Q.cols, x i * Q.get i j * x j

theorem quadForm_parallelogram (Q : Mat K) (x y : ℕ → K) :
    quadForm Q x + quadForm Q y
      = 2 * quadForm Q (fun i => (x i + y i) / 2) + 1 / 2 * quadForm Q (fun i => x i - y i) := by
  unfold quadForm
  rw [mul_sum, mul_sum, ← sum_add_distrib, ← sum_add_distrib]
  refine sum_congr rfl fun i _ => ?_
  rw [mul_sum, mul_sum, ← sum_add_distrib, ← sum_add_distrib]
  exact sum_congr rfl fun j _ => by ring

theorem cost_midpoint (m : QPMatrices K) (x y : ℕ → K) :
    Spec.cost m x + Spec.cost m y = 2 * Spec.cost m (fun i => (x i + y i) / 2)
      + 1 / 4 * quadForm m.Q (fun i => x i - y i) := by
  have h := quadForm_parallelogram m.Q x y
  have e : ∑ i ∈ range m.p.size, m.p.get i * x i + ∑ i ∈ range m.p.size, m.p.get i * y i
      = 2 * ∑ i ∈ range m.p.size, m.p.get i * ((x i + y i) / 2) := by
    rw [mul_sum, ← sum_add_distrib]
    exact sum_congr rfl fun i _ => by ring
  unfold quadForm at h ⊢
  unfold Spec.cost
  linear_combination 1 / 2 * h + e

theorem feasible_midpoint (m : QPMatrices K) (x y : ℕ → K) (hx : Spec.Feasible m x)
    (hy : Spec.Feasible m y) : Spec.Feasible m (fun i => (x i + y i) / 2) := by
  obtain ⟨a1, a2, a3, a4⟩ := hx
  obtain ⟨b1, b2, b3, b4⟩ := hy
  have e : ∀ i, ∑ j ∈ range m.A.cols, m.A.get i j * ((x j + y j) / 2)
      = (∑ j ∈ range m.A.cols, m.A.get i j * x j + ∑ j ∈ range m.A.cols, m.A.get i j * y j) / 2 := by
    intro i
    rw [← sum_add_distrib, sum_div]
    exact sum_congr rfl fun j _ => by ring
  refine ⟨fun i hi => ?_, fun i hi => ?_, fun i hi => ?_, fun i hi => ?_⟩
  · have := a1 i hi; have := b1 i hi; linarith
  · have := a2 i hi; have := b2 i hi; linarith
  · simp only [e]; have := a3 i hi; have := b3 i hi; linarith
  · simp only [e]; have := a4 i hi; have := b4 i hi; linarith

/-- Two solutions have a difference on which the quadratic form is not positive. -/
theorem solution_unique (m : QPMatrices K) (x y : ℕ → K) (hx : Spec.IsSolution m x)
    (hy : Spec.IsSolution m y) : quadForm m.Q (fun i => x i - y i) ≤ 0 := by
  have h1 := hx.2 _ (feasible_midpoint m x y hx.1 hy.1)
  have h2 := hy.2 _ (feasible_midpoint m x y hx.1 hy.1)
  have h3 := cost_midpoint m x y
  linarith

/-- Cost and feasibility only depend on the variables of the QP. -/
theorem cost_congr {m : QPMatrices K} {n k : ℕ} (hm : m.DimensionsAreConsistent n k) {x y : ℕ → K}
    (h : ∀ i < n, x i = y i) : Spec.cost m x = Spec.cost m y := by
  obtain ⟨h1, h2, h3, -⟩ := hm
  unfold Spec.cost
  rw [h1, h2, h3]
  have e1 : ∑ i ∈ range n, ∑ j ∈ range n, x i * m.Q.get i j * x j
      = ∑ i ∈ range n, ∑ j ∈ range n, y i * m.Q.get i j * y j :=
    sum_congr rfl fun i hi => sum_congr rfl fun j hj => by
      rw [h i (mem_range.1 hi), h j (mem_range.1 hj)]
  have e2 : ∑ i ∈ range n, m.p.get i * x i = ∑ i ∈ range n, m.p.get i * y i :=
    sum_congr rfl fun i hi => by rw [h i (mem_range.1 hi)]
  rw [e1, e2]

theorem feasible_congr {m : QPMatrices K} {n k : ℕ} (hm : m.DimensionsAreConsistent n k)
    {x y : ℕ → K} (h : ∀ i < n, x i = y i) (hx : Spec.Feasible m x) : Spec.Feasible m y := by
  obtain ⟨-, -, -, h4, h5, h6, -, -⟩ := hm
  obtain ⟨a1, a2, a3, a4⟩ := hx
  have e : ∀ i, ∑ j ∈ range m.A.cols, m.A.get i j * x j
      = ∑ j ∈ range m.A.cols, m.A.get i j * y j := fun i => by
    rw [h6]; exact sum_congr rfl fun j hj => by rw [h j (mem_range.1 hj)]
  refine ⟨fun i hi => ?_, fun i hi => ?_, fun i hi => ?_, fun i hi => ?_⟩
  · rw [← h i (h4 ▸ hi)]; exact a1 i hi
  · rw [← h i (h5 ▸ hi)]; exact a2 i hi
  · rw [← e]; exact a3 i hi
  · rw [← e]; exact a4 i hi

theorem solution_congr {m : QPMatrices K} {n k : ℕ} (hm : m.DimensionsAreConsistent n k)
    {x y : ℕ → K} (h : ∀ i < n, x i = y i) (hx : Spec.IsSolution m x) : Spec.IsSolution m y :=
  ⟨feasible_congr hm h hx.1, fun z hz => by rw [← cost_congr hm h]; exact hx.2 z hz⟩

end MPC
