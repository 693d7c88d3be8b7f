import Verif.Spec.CopRun

/-! # The plan in two successive control cycles -/

namespace MPC

variable {K : Type} [Field K] [LinearOrder K]

/-- The supervisors `s` and `s'` preview the same phases and footsteps, attach the samples to the same ones and have the
same support foot. -/
structure Spec.SamePreview (s s' : Sup K) : Prop where
  N : s'.N = s.N
  T : s'.T = s.T
  timeline : s'.timeline = s.timeline
  steps : s'.M = s.M
  phase : ∀ r < s.N, s'.phaseIdx.get r = s.phaseIdx.get r
  row : ∀ r < s.N, ∀ q, RowIsUnit s' r q ↔ RowIsUnit s r q
  support : ∀ p, Spec.SupportAt s' p ↔ Spec.SupportAt s p

/-- The supervisor `s'` previews what `s` previews, from the next sample on. Meanwhile `k` phases and `q` footsteps were
completed. -/
structure Spec.NextPreview (s s' : Sup K) (k q : ℕ) : Prop where
  N : s'.N = s.N
  T : s'.T = s.T
  timeline : ∀ i, i + k < s.timeline.length → s'.timeline[i]? = s.timeline[i + k]?
  phase : ∀ r, r + 1 < s.N → s'.phaseIdx.get r + k = s.phaseIdx.get (r + 1)
  row : ∀ r, r + 1 < s.N → ∃ j, RowIsUnit s (r + 1) (j + q) ∧ RowIsUnit s' r j

end MPC
