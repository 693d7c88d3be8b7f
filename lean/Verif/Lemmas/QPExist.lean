import Mathlib.Topology.Order.Compact
import Mathlib.Topology.Instances.Real.Lemmas
import Mathlib.Topology.Algebra.Order.Field
import Verif.Lemmas.QP

/-! # A feasible QP over the real numbers has a solution -/

namespace MPC

open Finset

/-- A point of a finite dimensional space as a point of a QP. -/
def extendPt {n : ℕ} (v : Fin n → ℝ) (i : ℕ) : ℝ := if h : i < n then v ⟨i, h⟩ else 0

theorem extendPt_continuous {n : ℕ} (i : ℕ) : Continuous fun v : Fin n → ℝ => extendPt v i := by
  unfold extendPt
  split
  · exact continuous_apply _
  · exact continuous_const

theorem extendPt_restrict {n : ℕ} (x : ℕ → ℝ) {i : ℕ} (h : i < n) : x i = extendPt (fun j : Fin n => x j) i := by
  simp [extendPt, h]

/-- A feasible QP has a solution. -/
theorem solution_exists {m : QPMatrices ℝ} {n k : ℕ} (hm : m.DimensionsAreConsistent n k) (hf : ∃ x, Spec.Feasible m x) :
    ∃ x, Spec.IsSolution m x := by
  obtain ⟨x, hx⟩ := hf
  have hs : ∀ i, Continuous fun v : Fin n → ℝ => ∑ j ∈ range m.A.cols, m.A.get i j * extendPt v j := fun i =>
    continuous_finset_sum _ fun j _ => continuous_const.mul (extendPt_continuous j)
  have hc : IsClosed {v : Fin n → ℝ | Spec.Feasible m (extendPt v)} := by
    have : {v : Fin n → ℝ | Spec.Feasible m (extendPt v)} =
        (⋂ i, ⋂ _ : i < m.xl.size, {v | m.xl.get i ≤ extendPt v i}) ∩
        ((⋂ i, ⋂ _ : i < m.xu.size, {v | extendPt v i ≤ m.xu.get i}) ∩
        ((⋂ i, ⋂ _ : i < m.bl.size, {v | m.bl.get i ≤ ∑ j ∈ range m.A.cols, m.A.get i j * extendPt v j}) ∩
        (⋂ i, ⋂ _ : i < m.bu.size, {v | ∑ j ∈ range m.A.cols, m.A.get i j * extendPt v j ≤ m.bu.get i}))) := by
      ext v
      simp [Spec.Feasible]
    rw [this]
    refine (isClosed_iInter fun i => isClosed_iInter fun _ => ?_).inter ((isClosed_iInter fun i => isClosed_iInter fun _ => ?_).inter
      ((isClosed_iInter fun i => isClosed_iInter fun _ => ?_).inter (isClosed_iInter fun i => isClosed_iInter fun _ => ?_)))
    · exact isClosed_le continuous_const (extendPt_continuous i)
    · exact isClosed_le (extendPt_continuous i) continuous_const
    · exact isClosed_le continuous_const (hs i)
    · exact isClosed_le (hs i) continuous_const
  have hb : {v : Fin n → ℝ | Spec.Feasible m (extendPt v)} ⊆
      Set.Icc (fun i : Fin n => m.xl.get i) (fun i : Fin n => m.xu.get i) := by
    rintro v ⟨h1, h2, -, -⟩
    refine ⟨fun i => ?_, fun i => ?_⟩
    · have := h1 i (by rw [hm.2.2.2.1]; exact i.2)
      simpa [extendPt] using this
    · have := h2 i (by rw [hm.2.2.2.2.1]; exact i.2)
      simpa [extendPt] using this
  have hK := isCompact_Icc.of_isClosed_subset hc hb
  have hcost : Continuous fun v : Fin n → ℝ => Spec.cost m (extendPt v) := by
    unfold Spec.cost
    refine (continuous_const.mul (continuous_finset_sum _ fun i _ => continuous_finset_sum _ fun j _ => ?_)).add
      (continuous_finset_sum _ fun i _ => ?_)
    · exact ((extendPt_continuous i).mul continuous_const).mul (extendPt_continuous j)
    · exact continuous_const.mul (extendPt_continuous i)
  have hr : ∀ y, Spec.Feasible m y → (fun j : Fin n => y j) ∈ {v : Fin n → ℝ | Spec.Feasible m (extendPt v)} :=
    fun y hy => feasible_congr hm (fun i hi => extendPt_restrict y hi) hy
  obtain ⟨v, hv, hmin⟩ := hK.exists_isMinOn ⟨_, hr x hx⟩ hcost.continuousOn
  refine ⟨extendPt v, hv, fun y hy => ?_⟩
  rw [cost_congr hm (x := y) (fun i hi => extendPt_restrict y hi)]
  exact hmin (hr y hy)

end MPC
