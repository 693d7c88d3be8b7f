import Verif.Lemmas.ZebRecede
import Verif.Lemmas.HumTotal

/-! # Lemmas on moving CoM and base of `ZebulonWalkgen` -/

set_option linter.unusedSectionVars false

namespace MPC

open Finset

variable {K : Type} [Field K] [LinearOrder K] [IsStrictOrderedRing K] [FloorRing K]

theorem predictedCop_shift {s : Spec.ZebSettings K} (hM : s.baseMass = 0 ∨ EPS < s.baseMass)
    (ht : s.bodyMass + s.baseMass ≠ 0) (g δ : K) (com base : State3 K) :
    s.predictedCop g (Spec.State3.shift com δ) (Spec.State3.shift base δ) = s.predictedCop g com base + δ := by
  unfold Spec.ZebSettings.predictedCop Spec.copOf Spec.State3.shift
  dsimp only
  rcases hM with h0 | h0
  · rw [h0, add_zero] at ht
    rw [if_neg (by rw [h0]; exact not_lt.2 EPS_pos.le), if_neg (by rw [h0]; exact not_lt.2 EPS_pos.le), h0]
    simp only [add_zero, div_self ht]
    ring
  · rw [if_pos h0, if_pos h0]
    have : s.bodyMass / (s.bodyMass + s.baseMass) + s.baseMass / (s.bodyMass + s.baseMass) = 1 := by
      rw [← add_div, div_self ht]
    linear_combination δ * this

theorem tiltRhs_shift (s : Spec.ZebSettings K) (L c δ : K) (com base : State3 K) :
    s.tiltRhs L c (Spec.State3.shift com δ) (Spec.State3.shift base δ) = s.tiltRhs L c com base := by
  unfold Spec.ZebSettings.tiltRhs Spec.State3.shift
  ring

section
variable {s : Spec.ZebSettings K} {r : Vec K} {z : Spec.ZebState K} {a b : K} {J J' : ℕ → K}

/-- The predicted motion moves with the state; it depends on the first jerks only. -/
theorem zPredict_shift (hJ : ∀ i < 4 * s.nbSamples, J' i = J i) {i : ℕ} (hi : i < s.nbSamples) :
    ({ s with posRef := r } : Spec.ZebSettings K).comX (z.shift a b) J' i = Spec.State3.shift (s.comX z J i) a ∧
    ({ s with posRef := r } : Spec.ZebSettings K).comY (z.shift a b) J' i = Spec.State3.shift (s.comY z J i) b ∧
    ({ s with posRef := r } : Spec.ZebSettings K).baseX (z.shift a b) J' i = Spec.State3.shift (s.baseX z J i) a ∧
    ({ s with posRef := r } : Spec.ZebSettings K).baseY (z.shift a b) J' i = Spec.State3.shift (s.baseY z J i) b := by
  refine ⟨?_, ?_, ?_, ?_⟩
  · refine (jerkTrajectory_congr fun q hq => ?_).trans (jerkTrajectory_shift _ _ _ _ _ _)
    exact hJ _ (by omega)
  · refine (jerkTrajectory_congr fun q hq => ?_).trans (jerkTrajectory_shift _ _ _ _ _ _)
    exact hJ (s.nbSamples + q) (by omega)
  · refine (jerkTrajectory_congr fun q hq => ?_).trans (jerkTrajectory_shift _ _ _ _ _ _)
    exact hJ (2 * s.nbSamples + q) (by omega)
  · refine (jerkTrajectory_congr fun q hq => ?_).trans (jerkTrajectory_shift _ _ _ _ _ _)
    exact hJ (3 * s.nbSamples + q) (by omega)

theorem zRel_shift (hM : s.baseMass = 0 ∨ EPS < s.baseMass) (ht : s.bodyMass + s.baseMass ≠ 0)
    (hJ : ∀ i < 4 * s.nbSamples, J' i = J i) {i : ℕ} (hi : i < s.nbSamples) :
    ({ s with posRef := r } : Spec.ZebSettings K).comRelX (z.shift a b) J' i = s.comRelX z J i ∧
    ({ s with posRef := r } : Spec.ZebSettings K).comRelY (z.shift a b) J' i = s.comRelY z J i ∧
    ({ s with posRef := r } : Spec.ZebSettings K).copRelX (z.shift a b) J' i = s.copRelX z J i ∧
    ({ s with posRef := r } : Spec.ZebSettings K).copRelY (z.shift a b) J' i = s.copRelY z J i := by
  obtain ⟨e1, e2, e3, e4⟩ := zPredict_shift (r := r) (z := z) (a := a) (b := b) hJ hi
  have hp : ∀ (g δ : K) (com base : State3 K), ({ s with posRef := r } : Spec.ZebSettings K).predictedCop g
      (Spec.State3.shift com δ) (Spec.State3.shift base δ) = s.predictedCop g com base + δ :=
    fun g δ com base => predictedCop_shift hM ht g δ com base
  unfold Spec.ZebSettings.comRelX Spec.ZebSettings.comRelY Spec.ZebSettings.copRelX Spec.ZebSettings.copRelY
  rw [e1, e2, e3, e4, hp, hp]
  simp only [Spec.State3.shift]
  refine ⟨by ring, by ring, by ring, by ring⟩

theorem zAllowed_shift (hM : s.baseMass = 0 ∨ EPS < s.baseMass) (ht : s.bodyMass + s.baseMass ≠ 0)
    {X X' : ℕ → K} (hX : ∀ i < 4 * s.nbSamples, X' i = X i) (hJ : ∀ i < 4 * s.nbSamples, J' i = J i) (c n : K) :
    ({ s with posRef := r } : Spec.ZebSettings K).Allowed c n (z.shift a b) X' J' ↔ s.Allowed c n z X J := by
  have hp : ∀ {q : Vec (Pt K)} {o1 o2 n1 n2 : ℕ → Pt K}, (∀ i < s.nbSamples, o1 i = o2 i) →
      (∀ i < s.nbSamples, n1 i = n2 i) →
      (Spec.PolygonRows q s.nbSamples o1 n1 ↔ Spec.PolygonRows q s.nbSamples o2 n2) := by
    intro q o1 o2 n1 n2 ho hn
    refine forall₂_congr fun e he => forall₂_congr fun i hi => ?_
    rw [ho i hi, hn i hi]
  unfold Spec.ZebSettings.Allowed
  refine and_congr ?_ (and_congr ?_ (and_congr ?_ (and_congr ?_ ?_)))
  · refine forall_congr' fun _ => hp (fun i hi => ?_) fun i hi => ?_
    · obtain ⟨-, -, h3, h4⟩ := zRel_shift (r := r) (z := z) (a := a) (b := b) hM ht hX hi
      exact congrArg₂ Pt.mk h3 h4
    · obtain ⟨-, -, h3, h4⟩ := zRel_shift (r := r) (z := z) (a := a) (b := b) hM ht hJ hi
      exact congrArg₂ Pt.mk h3 h4
  · refine forall_congr' fun _ => forall₂_congr fun i hi => ?_
    obtain ⟨-, -, e3, e4⟩ := zPredict_shift (r := r) (z := z) (a := a) (b := b) hJ hi
    have j1 : Spec.jerkBX s.nbSamples J' i = Spec.jerkBX s.nbSamples J i :=
      hJ (2 * s.nbSamples + i) (by have : i < s.nbSamples := hi; omega)
    have j2 : Spec.jerkBY s.nbSamples J' i = Spec.jerkBY s.nbSamples J i :=
      hJ (3 * s.nbSamples + i) (by have : i < s.nbSamples := hi; omega)
    rw [e3, e4]
    simp only [Spec.State3.shift, j1, j2]
  · refine forall_congr' fun _ => hp (fun i hi => ?_) fun i hi => ?_
    · obtain ⟨h1, h2, -, -⟩ := zRel_shift (r := r) (z := z) (a := a) (b := b) hM ht hX hi
      exact congrArg₂ Pt.mk h1 h2
    · obtain ⟨h1, h2, -, -⟩ := zRel_shift (r := r) (z := z) (a := a) (b := b) hM ht hJ hi
      exact congrArg₂ Pt.mk h1 h2
  · refine forall_congr' fun _ => forall₂_congr fun i hi => ?_
    obtain ⟨e1, e2, e3, e4⟩ := zPredict_shift (r := r) (z := z) (a := a) (b := b) hJ hi
    rw [e1, e2, e3, e4]
    simp only [Spec.State3.shift]
  · refine forall₂_congr fun i hi => ?_
    rw [hX i hi, hJ i hi]

theorem zTilt_shift {L : K} {u ps u' ps' : ℕ → ℕ → K}
    (hu : ∀ i < s.nbSamples, ∀ j < s.nbSamples, u' i j = u i j) (hps : ∀ i < s.nbSamples, ∀ j < 2, ps' i j = ps i j)
    (τ : State3 K) (c δ : K) {com base com' base' : ℕ → State3 K}
    (hc : ∀ i < s.nbSamples, com' i = Spec.State3.shift (com i) δ)
    (hb : ∀ i < s.nbSamples, base' i = Spec.State3.shift (base i) δ) {i : ℕ} (hi : i < s.nbSamples) :
    zTilt { s with posRef := r } L u' ps' τ c com' base' i = zTilt s L u ps τ c com base i := by
  unfold zTilt
  rw [hps i hi 0 (by norm_num), hps i hi 1 (by norm_num)]
  congr 1
  refine sum_congr rfl fun j hj => ?_
  have hj : j < s.nbSamples := mem_range.1 hj
  rw [hu i hi j hj, hc j hj, hb j hj]
  congr 1
  exact tiltRhs_shift s L c δ _ _

theorem tiltCost_congr {ψx ψy ψx' ψy' : ℕ → K} (hx : ∀ i < s.nbSamples, ψx' i = ψx i)
    (hy : ∀ i < s.nbSamples, ψy' i = ψy i) :
    ({ s with posRef := r } : Spec.ZebSettings K).tiltCost ψx' ψy' = s.tiltCost ψx ψy :=
  sum_congr rfl fun i hi => by rw [hx i (mem_range.1 hi), hy i (mem_range.1 hi)]

theorem totalCost_shift (hM : s.baseMass = 0 ∨ EPS < s.baseMass) (ht : s.bodyMass + s.baseMass ≠ 0)
    (hr : ∀ i < s.nbSamples, r.get i = s.posRef.get i + a ∧
      r.get (s.nbSamples + i) = s.posRef.get (s.nbSamples + i) + b)
    (hJ : ∀ i < 4 * s.nbSamples, J' i = J i) (k : K × K) (t t' : K) :
    ({ s with posRef := r } : Spec.ZebSettings K).totalCost k t t' (z.shift a b) J' = s.totalCost k t t' z J := by
  have h1 : ({ s with posRef := r } : Spec.ZebSettings K).velCost (z.shift a b) J' = s.velCost z J := by
    refine sum_congr rfl fun i hi => ?_
    obtain ⟨-, -, e3, e4⟩ := zPredict_shift (r := r) (z := z) (a := a) (b := b) hJ (mem_range.1 hi)
    rw [e3, e4]; rfl
  have h2 : ({ s with posRef := r } : Spec.ZebSettings K).posCost (z.shift a b) J' = s.posCost z J := by
    refine sum_congr rfl fun i hi => ?_
    obtain ⟨-, -, e3, e4⟩ := zPredict_shift (r := r) (z := z) (a := a) (b := b) hJ (mem_range.1 hi)
    obtain ⟨r1, r2⟩ := hr i (mem_range.1 hi)
    rw [e3, e4]
    simp only [Spec.State3.shift, r1, r2]
    ring
  have h3 : ({ s with posRef := r } : Spec.ZebSettings K).copCost (z.shift a b) J' = s.copCost z J := by
    refine sum_congr rfl fun i hi => ?_
    obtain ⟨-, -, e3, e4⟩ := zRel_shift (r := r) (z := z) (a := a) (b := b) hM ht hJ (mem_range.1 hi)
    rw [e3, e4]
  have h4 : ({ s with posRef := r } : Spec.ZebSettings K).comCost k (z.shift a b) J' = s.comCost k z J := by
    refine sum_congr rfl fun i hi => ?_
    obtain ⟨e1, e2, -, -⟩ := zRel_shift (r := r) (z := z) (a := a) (b := b) hM ht hJ (mem_range.1 hi)
    rw [e1, e2]
  have h5 : ({ s with posRef := r } : Spec.ZebSettings K).jerkCost J' = s.jerkCost J :=
    sum_congr rfl fun i hi => by rw [hJ i (mem_range.1 hi)]
  unfold Spec.ZebSettings.totalCost
  rw [h1, h2, h3, h4, h5]

end

end MPC
