import Verif.Lemmas.ZebRecede
import Verif.Lemmas.HumTotal
import Verif.Lemmas.ZebShift
import Verif.Props.Boost
import Verif.Spec.ZebBoost

/-! # Lemmas on CoM and base of `ZebulonWalkgen` seen from a frame of constant velocity -/

set_option linter.unusedSectionVars false

namespace MPC

open Finset

variable {K : Type} [Field K] [LinearOrder K] [IsStrictOrderedRing K] [FloorRing K]

theorem predictedCop_boost {s : Spec.ZebSettings K} (hM : s.baseMass = 0 ∨ EPS < s.baseMass)
    (ht : s.bodyMass + s.baseMass ≠ 0) (g u δ : K) (com base : State3 K) :
    s.predictedCop g (Spec.State3.boost u δ com) (Spec.State3.boost u δ base) = s.predictedCop g com base + δ := by
  unfold Spec.ZebSettings.predictedCop Spec.copOf Spec.State3.boost
  dsimp only
  rcases hM with h0 | h0
  · rw [h0, add_zero] at ht
    rw [if_neg (by rw [h0]; exact not_lt.2 EPS_pos.le), if_neg (by rw [h0]; exact not_lt.2 EPS_pos.le), h0]
    simp only [add_zero, div_self ht]
    ring
  · rw [if_pos h0, if_pos h0]
    have : s.bodyMass / (s.bodyMass + s.baseMass) + s.baseMass / (s.bodyMass + s.baseMass) = 1 := by
      rw [← add_div, div_self ht]
    linear_combination δ * this

theorem tiltRhs_boost (s : Spec.ZebSettings K) (L c u δ : K) (com base : State3 K) :
    s.tiltRhs L c (Spec.State3.boost u δ com) (Spec.State3.boost u δ base) = s.tiltRhs L c com base := by
  unfold Spec.ZebSettings.tiltRhs Spec.State3.boost
  ring

section
variable {s : Spec.ZebSettings K} {rv r : Vec K} {z : Spec.ZebState K} {ux uy a b : K} {J J' : ℕ → K}

/-- The predicted motion moves with the state; it depends on the first jerks only. -/
theorem zPredict_boost (hT : EPS < s.period) (hJ : ∀ i < 4 * s.nbSamples, J' i = J i) {i : ℕ} (hi : i < s.nbSamples) :
    ({ s with velRef := rv, posRef := r } : Spec.ZebSettings K).comX (z.boost ux uy a b) J' i = Spec.State3.boost ux (a + ux * ((i + 1) * s.period)) (s.comX z J i) ∧
    ({ s with velRef := rv, posRef := r } : Spec.ZebSettings K).comY (z.boost ux uy a b) J' i = Spec.State3.boost uy (b + uy * ((i + 1) * s.period)) (s.comY z J i) ∧
    ({ s with velRef := rv, posRef := r } : Spec.ZebSettings K).baseX (z.boost ux uy a b) J' i = Spec.State3.boost ux (a + ux * ((i + 1) * s.period)) (s.baseX z J i) ∧
    ({ s with velRef := rv, posRef := r } : Spec.ZebSettings K).baseY (z.boost ux uy a b) J' i = Spec.State3.boost uy (b + uy * ((i + 1) * s.period)) (s.baseY z J i) := by
  have hc := comFirst_eq hT
  refine ⟨?_, ?_, ?_, ?_⟩
  · unfold Spec.ZebSettings.comX
    rw [hc]
    refine (jerkTrajectory_congr fun q hq => ?_).trans (boost_trajectory _ _ _ _ _ _)
    exact hJ _ (by omega)
  · unfold Spec.ZebSettings.comY
    rw [hc]
    refine (jerkTrajectory_congr fun q hq => ?_).trans (boost_trajectory _ _ _ _ _ _)
    exact hJ (s.nbSamples + q) (by omega)
  · refine (jerkTrajectory_congr fun q hq => ?_).trans (boost_trajectory _ _ _ _ _ _)
    exact hJ (2 * s.nbSamples + q) (by omega)
  · refine (jerkTrajectory_congr fun q hq => ?_).trans (boost_trajectory _ _ _ _ _ _)
    exact hJ (3 * s.nbSamples + q) (by omega)

theorem zRel_boost (hT : EPS < s.period) (hM : s.baseMass = 0 ∨ EPS < s.baseMass) (ht : s.bodyMass + s.baseMass ≠ 0)
    (hJ : ∀ i < 4 * s.nbSamples, J' i = J i) {i : ℕ} (hi : i < s.nbSamples) :
    ({ s with velRef := rv, posRef := r } : Spec.ZebSettings K).comRelX (z.boost ux uy a b) J' i = s.comRelX z J i ∧
    ({ s with velRef := rv, posRef := r } : Spec.ZebSettings K).comRelY (z.boost ux uy a b) J' i = s.comRelY z J i ∧
    ({ s with velRef := rv, posRef := r } : Spec.ZebSettings K).copRelX (z.boost ux uy a b) J' i = s.copRelX z J i ∧
    ({ s with velRef := rv, posRef := r } : Spec.ZebSettings K).copRelY (z.boost ux uy a b) J' i = s.copRelY z J i := by
  obtain ⟨e1, e2, e3, e4⟩ := zPredict_boost (rv := rv) (r := r) (z := z) (ux := ux) (uy := uy) (a := a) (b := b) hT hJ hi
  have hp : ∀ (g u δ : K) (com base : State3 K), ({ s with velRef := rv, posRef := r } : Spec.ZebSettings K).predictedCop g
      (Spec.State3.boost u δ com) (Spec.State3.boost u δ base) = s.predictedCop g com base + δ :=
    fun g u δ com base => predictedCop_boost hM ht g u δ com base
  unfold Spec.ZebSettings.comRelX Spec.ZebSettings.comRelY Spec.ZebSettings.copRelX Spec.ZebSettings.copRelY
  rw [e1, e2, e3, e4, hp, hp]
  simp only [Spec.State3.boost]
  refine ⟨by ring, by ring, by ring, by ring⟩

theorem zAllowed_boost (hT : EPS < s.period) (hM : s.baseMass = 0 ∨ EPS < s.baseMass) (ht : s.bodyMass + s.baseMass ≠ 0)
    {X X' : ℕ → K} (hX : ∀ i < 4 * s.nbSamples, X' i = X i) (hJ : ∀ i < 4 * s.nbSamples, J' i = J i) (c n : K)
    (hb : s.config.base = false) (hh : s.config.tilt = true → n * ux - c * uy = 0) :
    ({ s with velRef := rv, posRef := r } : Spec.ZebSettings K).Allowed c n (z.boost ux uy a b) X' J' ↔ s.Allowed c n z X J := by
  have hp : ∀ {q : Vec (Pt K)} {o1 o2 n1 n2 : ℕ → Pt K}, (∀ i < s.nbSamples, o1 i = o2 i) →
      (∀ i < s.nbSamples, n1 i = n2 i) →
      (Spec.PolygonRows q s.nbSamples o1 n1 ↔ Spec.PolygonRows q s.nbSamples o2 n2) := by
    intro q o1 o2 n1 n2 ho hn
    refine forall₂_congr fun e he => forall₂_congr fun i hi => ?_
    rw [ho i hi, hn i hi]
  unfold Spec.ZebSettings.Allowed
  refine and_congr ?_ (and_congr ?_ (and_congr ?_ (and_congr ?_ ?_)))
  · refine forall_congr' fun _ => hp (fun i hi => ?_) fun i hi => ?_
    · obtain ⟨-, -, h3, h4⟩ := zRel_boost (rv := rv) (r := r) (z := z) (ux := ux) (uy := uy) (a := a) (b := b) hT hM ht hX hi
      exact congrArg₂ Pt.mk h3 h4
    · obtain ⟨-, -, h3, h4⟩ := zRel_boost (rv := rv) (r := r) (z := z) (ux := ux) (uy := uy) (a := a) (b := b) hT hM ht hJ hi
      exact congrArg₂ Pt.mk h3 h4
  · change s.config.base = true → _ ↔ s.config.base = true → _
    simp only [hb, Bool.false_eq_true, false_imp_iff]
  · refine forall_congr' fun _ => hp (fun i hi => ?_) fun i hi => ?_
    · obtain ⟨h1, h2, -, -⟩ := zRel_boost (rv := rv) (r := r) (z := z) (ux := ux) (uy := uy) (a := a) (b := b) hT hM ht hX hi
      exact congrArg₂ Pt.mk h1 h2
    · obtain ⟨h1, h2, -, -⟩ := zRel_boost (rv := rv) (r := r) (z := z) (ux := ux) (uy := uy) (a := a) (b := b) hT hM ht hJ hi
      exact congrArg₂ Pt.mk h1 h2
  · refine forall_congr' fun ht' => forall₂_congr fun i hi => ?_
    have hh := hh ht'
    obtain ⟨e1, e2, e3, e4⟩ := zPredict_boost (rv := rv) (r := r) (z := z) (ux := ux) (uy := uy) (a := a) (b := b) hT hJ hi
    rw [e1, e2, e3, e4]
    simp only [Spec.State3.boost]
    refine and_congr ?_ ?_ <;>
    · constructor <;> intro h <;> first | linear_combination h + hh | linear_combination h - hh
  · refine forall₂_congr fun i hi => ?_
    rw [hX i hi, hJ i hi]

theorem zTilt_boost {L : K} {u ps u' ps' : ℕ → ℕ → K}
    (hu : ∀ i < s.nbSamples, ∀ j < s.nbSamples, u' i j = u i j) (hps : ∀ i < s.nbSamples, ∀ j < 2, ps' i j = ps i j)
    (τ : State3 K) (c u₀ : K) (δ : ℕ → K) {com base com' base' : ℕ → State3 K}
    (hc : ∀ i < s.nbSamples, com' i = Spec.State3.boost u₀ (δ i) (com i))
    (hb : ∀ i < s.nbSamples, base' i = Spec.State3.boost u₀ (δ i) (base i)) {i : ℕ} (hi : i < s.nbSamples) :
    zTilt { s with velRef := rv, posRef := r } L u' ps' τ c com' base' i = zTilt s L u ps τ c com base i := by
  unfold zTilt
  rw [hps i hi 0 (by norm_num), hps i hi 1 (by norm_num)]
  congr 1
  refine sum_congr rfl fun j hj => ?_
  have hj : j < s.nbSamples := mem_range.1 hj
  rw [hu i hi j hj, hc j hj, hb j hj]
  congr 1
  exact tiltRhs_boost s L c u₀ (δ j) _ _

theorem tiltCost_congr₂ {ψx ψy ψx' ψy' : ℕ → K} (hx : ∀ i < s.nbSamples, ψx' i = ψx i)
    (hy : ∀ i < s.nbSamples, ψy' i = ψy i) :
    ({ s with velRef := rv, posRef := r } : Spec.ZebSettings K).tiltCost ψx' ψy' = s.tiltCost ψx ψy :=
  sum_congr rfl fun i hi => by rw [hx i (mem_range.1 hi), hy i (mem_range.1 hi)]

theorem totalCost_boost (hT : EPS < s.period) (hM : s.baseMass = 0 ∨ EPS < s.baseMass) (ht : s.bodyMass + s.baseMass ≠ 0)
    (hv : ∀ i < s.nbSamples, rv.get i = s.velRef.get i + ux ∧
      rv.get (s.nbSamples + i) = s.velRef.get (s.nbSamples + i) + uy)
    (hr : ∀ i < s.nbSamples, r.get i = s.posRef.get i + (a + ux * ((i + 1) * s.period)) ∧
      r.get (s.nbSamples + i) = s.posRef.get (s.nbSamples + i) + (b + uy * ((i + 1) * s.period)))
    (hJ : ∀ i < 4 * s.nbSamples, J' i = J i) (k : K × K) (t t' : K) :
    ({ s with velRef := rv, posRef := r } : Spec.ZebSettings K).totalCost k t t' (z.boost ux uy a b) J' = s.totalCost k t t' z J := by
  have h1 : ({ s with velRef := rv, posRef := r } : Spec.ZebSettings K).velCost (z.boost ux uy a b) J' = s.velCost z J := by
    refine sum_congr rfl fun i hi => ?_
    obtain ⟨-, -, e3, e4⟩ := zPredict_boost (rv := rv) (r := r) (z := z) (ux := ux) (uy := uy) (a := a) (b := b) hT hJ (mem_range.1 hi)
    obtain ⟨r1, r2⟩ := hv i (mem_range.1 hi)
    rw [e3, e4]
    simp only [Spec.State3.boost, r1, r2]
    ring
  have h2 : ({ s with velRef := rv, posRef := r } : Spec.ZebSettings K).posCost (z.boost ux uy a b) J' = s.posCost z J := by
    refine sum_congr rfl fun i hi => ?_
    obtain ⟨-, -, e3, e4⟩ := zPredict_boost (rv := rv) (r := r) (z := z) (ux := ux) (uy := uy) (a := a) (b := b) hT hJ (mem_range.1 hi)
    obtain ⟨r1, r2⟩ := hr i (mem_range.1 hi)
    rw [e3, e4]
    simp only [Spec.State3.boost, r1, r2]
    ring
  have h3 : ({ s with velRef := rv, posRef := r } : Spec.ZebSettings K).copCost (z.boost ux uy a b) J' = s.copCost z J := by
    refine sum_congr rfl fun i hi => ?_
    obtain ⟨-, -, e3, e4⟩ := zRel_boost (rv := rv) (r := r) (z := z) (ux := ux) (uy := uy) (a := a) (b := b) hT hM ht hJ (mem_range.1 hi)
    rw [e3, e4]
  have h4 : ({ s with velRef := rv, posRef := r } : Spec.ZebSettings K).comCost k (z.boost ux uy a b) J' = s.comCost k z J := by
    refine sum_congr rfl fun i hi => ?_
    obtain ⟨e1, e2, -, -⟩ := zRel_boost (rv := rv) (r := r) (z := z) (ux := ux) (uy := uy) (a := a) (b := b) hT hM ht hJ (mem_range.1 hi)
    rw [e1, e2]
  have h5 : ({ s with velRef := rv, posRef := r } : Spec.ZebSettings K).jerkCost J' = s.jerkCost J :=
    sum_congr rfl fun i hi => by rw [hJ i (mem_range.1 hi)]
  unfold Spec.ZebSettings.totalCost
  rw [h1, h2, h3, h4, h5]

end

end MPC
