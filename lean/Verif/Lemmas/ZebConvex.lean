import Verif.Lemmas.ZebSuper
import Verif.Lemmas.ZebRecede
import Verif.Lemmas.HumTotal
import Verif.Lemmas.ZebShift

/-! # Lemmas on means of motions of `ZebulonWalkgen` -/

set_option linter.unusedSectionVars false

namespace MPC

open Finset

variable {K : Type} [Field K] [LinearOrder K] [IsStrictOrderedRing K] [FloorRing K]

theorem abs_mean {a x y B : K} (ha : 0 ≤ a) (hb : 0 ≤ 1 - a) (hx : |x| ≤ B) (hy : |y| ≤ B) : |a * x + (1 - a) * y| ≤ B := by
  rw [abs_le] at *
  constructor <;> nlinarith [mul_le_mul_of_nonneg_left hx.1 ha, mul_le_mul_of_nonneg_left hx.2 ha,
    mul_le_mul_of_nonneg_left hy.1 hb, mul_le_mul_of_nonneg_left hy.2 hb]

section
variable {s : Spec.ZebSettings K} {rv₂ r₂ rv₃ r₃ : Vec K} {a : K} {J₁ J₂ J₃ X₁ X₂ X₃ : ℕ → K} {z₁ z₂ : Spec.ZebState K}

theorem zPredict_mean (hJ : ∀ i < 4 * s.nbSamples, J₃ i = a * J₁ i + (1 - a) * J₂ i) {i : ℕ} (hi : i < s.nbSamples) :
    s.comX (z₁.superpose a (1 - a) z₂) J₃ i = Spec.superpose a (1 - a) (s.comX z₁ J₁ i) (s.comX z₂ J₂ i) ∧
    s.comY (z₁.superpose a (1 - a) z₂) J₃ i = Spec.superpose a (1 - a) (s.comY z₁ J₁ i) (s.comY z₂ J₂ i) ∧
    s.baseX (z₁.superpose a (1 - a) z₂) J₃ i = Spec.superpose a (1 - a) (s.baseX z₁ J₁ i) (s.baseX z₂ J₂ i) ∧
    s.baseY (z₁.superpose a (1 - a) z₂) J₃ i = Spec.superpose a (1 - a) (s.baseY z₁ J₁ i) (s.baseY z₂ J₂ i) := by
  refine ⟨?_, ?_, ?_, ?_⟩
  · refine (jerkTrajectory_congr fun q hq => ?_).trans (combine_trajectory _ _ _ _ _ _ _ _ _)
    exact hJ _ (by omega)
  · refine (jerkTrajectory_congr fun q hq => ?_).trans (combine_trajectory _ _ _ _ _ _ _ _ _)
    exact hJ (s.nbSamples + q) (by omega)
  · refine (jerkTrajectory_congr fun q hq => ?_).trans (combine_trajectory _ _ _ _ _ _ _ _ _)
    exact hJ (2 * s.nbSamples + q) (by omega)
  · refine (jerkTrajectory_congr fun q hq => ?_).trans (combine_trajectory _ _ _ _ _ _ _ _ _)
    exact hJ (3 * s.nbSamples + q) (by omega)

theorem zCop_mean (g : K) (x y x' y' : State3 K) :
    s.predictedCop g (Spec.superpose a (1 - a) x x') (Spec.superpose a (1 - a) y y')
      = a * s.predictedCop g x y + (1 - a) * s.predictedCop g x' y' := by
  unfold Spec.ZebSettings.predictedCop Spec.copOf Spec.superpose
  split
  · ring
  · ring

/-- A point between two others. -/
def ptMean (a : K) (p q : Pt K) : Pt K := ⟨a * p.x + (1 - a) * q.x, a * p.y + (1 - a) * q.y⟩

theorem zRel_mean (hJ : ∀ i < 4 * s.nbSamples, J₃ i = a * J₁ i + (1 - a) * J₂ i) {i : ℕ} (hi : i < s.nbSamples) :
    s.comRel (z₁.superpose a (1 - a) z₂) J₃ i = ptMean a (s.comRel z₁ J₁ i) (s.comRel z₂ J₂ i) ∧
    s.copRel (z₁.superpose a (1 - a) z₂) J₃ i = ptMean a (s.copRel z₁ J₁ i) (s.copRel z₂ J₂ i) := by
  obtain ⟨e1, e2, e3, e4⟩ := zPredict_mean (z₁ := z₁) (z₂ := z₂) hJ hi
  unfold Spec.ZebSettings.comRel Spec.ZebSettings.copRel Spec.ZebSettings.comRelX Spec.ZebSettings.comRelY
    Spec.ZebSettings.copRelX Spec.ZebSettings.copRelY ptMean
  rw [e1, e2, e3, e4, zCop_mean, zCop_mean]
  simp only [Spec.superpose, Pt.mk.injEq]
  refine ⟨⟨by ring, by ring⟩, by ring, by ring⟩

theorem polygonRows_mean (ha : 0 ≤ a) (hb : 0 ≤ 1 - a) {p : Vec (Pt K)} {N : ℕ} {o₁ o₂ o₃ n₁ n₂ n₃ : ℕ → Pt K}
    (ho : ∀ i < N, o₃ i = ptMean a (o₁ i) (o₂ i)) (hn : ∀ i < N, n₃ i = ptMean a (n₁ i) (n₂ i))
    (h₁ : Spec.PolygonRows p N o₁ n₁) (h₂ : Spec.PolygonRows p N o₂ n₂) : Spec.PolygonRows p N o₃ n₃ := by
  intro e he i hi
  obtain ⟨a1, a2⟩ := h₁ e he i hi
  obtain ⟨b1, b2⟩ := h₂ e he i hi
  rw [ho i hi, hn i hi]
  unfold Spec.InnerSide Spec.Pt.reflect at *
  unfold Spec.sideOf ptMean at *
  dsimp only at *
  constructor
  · nlinarith [mul_le_mul_of_nonneg_left a1 ha, mul_le_mul_of_nonneg_left b1 hb]
  · nlinarith [mul_le_mul_of_nonneg_left a2 ha, mul_le_mul_of_nonneg_left b2 hb]

theorem allowed_mean (ha : 0 ≤ a) (hb : 0 ≤ 1 - a) (c n : K)
    (hX : ∀ i < 4 * s.nbSamples, X₃ i = a * X₁ i + (1 - a) * X₂ i) (hJ : ∀ i < 4 * s.nbSamples, J₃ i = a * J₁ i + (1 - a) * J₂ i)
    (h₁ : s.Allowed c n z₁ X₁ J₁) (h₂ : s.Allowed c n z₂ X₂ J₂) : s.Allowed c n (z₁.superpose a (1 - a) z₂) X₃ J₃ := by
  obtain ⟨p1, p2, p3, p4, p5⟩ := h₁
  obtain ⟨q1, q2, q3, q4, q5⟩ := h₂
  refine ⟨fun h => ?_, fun h => ?_, fun h => ?_, fun h => ?_, fun i hi hc => ?_⟩
  · exact polygonRows_mean ha hb (fun i hi => (zRel_mean hX hi).2) (fun i hi => (zRel_mean hJ hi).2) (p1 h) (q1 h)
  · intro i hi
    obtain ⟨-, -, e3, e4⟩ := zPredict_mean (z₁ := z₁) (z₂ := z₂) hJ hi
    obtain ⟨a1, a2, a3, a4, a5, a6⟩ := p2 h i hi
    obtain ⟨b1, b2, b3, b4, b5, b6⟩ := q2 h i hi
    rw [e3, e4]
    refine ⟨abs_mean ha hb a1 b1, abs_mean ha hb a2 b2, abs_mean ha hb a3 b3, abs_mean ha hb a4 b4, ?_, ?_⟩
    · unfold Spec.jerkBX at *
      rw [hJ _ (by omega)]; exact abs_mean ha hb a5 b5
    · unfold Spec.jerkBY at *
      rw [hJ _ (by omega)]; exact abs_mean ha hb a6 b6
  · exact polygonRows_mean ha hb (fun i hi => (zRel_mean hX hi).1) (fun i hi => (zRel_mean hJ hi).1) (p3 h) (q3 h)
  · intro i hi
    obtain ⟨e1, e2, e3, e4⟩ := zPredict_mean (z₁ := z₁) (z₂ := z₂) hJ hi
    obtain ⟨a1, a2⟩ := p4 h i hi
    obtain ⟨b1, b2⟩ := q4 h i hi
    rw [e1, e2, e3, e4]
    simp only [Spec.superpose]
    exact ⟨by linear_combination a * a1 + (1 - a) * b1, by linear_combination a * a2 + (1 - a) * b2⟩
  · rw [hX i hi, hJ i hi]
    have : a * J₁ i + (1 - a) * J₂ i - (a * X₁ i + (1 - a) * X₂ i) = a * (J₁ i - X₁ i) + (1 - a) * (J₂ i - X₂ i) := by ring
    rw [this]
    exact abs_mean ha hb (p5 i hi hc) (q5 i hi hc)

end

end MPC
