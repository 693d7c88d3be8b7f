import Verif.Props.ZebRest
import Verif.Spec.ZebCycle

/-! # Lemmas on successive control cycles of `ZebulonWalkgen` -/

set_option linter.unusedSectionVars false

namespace MPC

open Finset

variable {K : Type} [Field K] [LinearOrder K] [IsStrictOrderedRing K] [FloorRing K]

theorem jerkTrajectory_agree (S T : K) (x : State3 K) {J J' : ℕ → K} {i : ℕ} (h : ∀ k ≤ i, J k = J' k) :
    Spec.jerkTrajectory S T x J i = Spec.jerkTrajectory S T x J' i := by
  induction i with
  | zero => simp only [Spec.jerkTrajectory, h 0 le_rfl]
  | succ i ih => simp only [Spec.jerkTrajectory, h _ le_rfl, ih fun k hk => h k (by omega)]

theorem laterJerks_block {N : ℕ} (X : ℕ → K) (b : ℕ) {k : ℕ} (hk : k + 1 < N) :
    Spec.laterJerks N X (b * N + k) = X (b * N + (k + 1)) := by
  unfold Spec.laterJerks
  have : (b * N + k) % N = k := by
    rw [Nat.add_comm, Nat.add_mul_mod_self_right, Nat.mod_eq_of_lt (by omega)]
  rw [this, if_pos hk]
  rfl

theorem stateAt_later {s : Spec.ZebSettings K} (hT : EPS < s.period) (z : Spec.ZebState K) (X : ℕ → K) {i : ℕ}
    (hi : i + 1 < s.nbSamples) :
    s.stateAt (s.stateAt z X 0) (Spec.laterJerks s.nbSamples X) i = s.stateAt z X (i + 1) := by
  have e0 : ∀ k ≤ i, Spec.laterJerks s.nbSamples X k = X (k + 1) := fun k hk => by
    simpa using laterJerks_block X 0 (k := k) (N := s.nbSamples) (by omega)
  have e1 : ∀ k ≤ i, Spec.laterJerks s.nbSamples X (s.nbSamples + k) = X (s.nbSamples + (k + 1)) := fun k hk => by
    simpa using laterJerks_block X 1 (k := k) (N := s.nbSamples) (by omega)
  have e2 : ∀ k ≤ i, Spec.laterJerks s.nbSamples X (2 * s.nbSamples + k) = X (2 * s.nbSamples + (k + 1)) :=
    fun k hk => laterJerks_block X 2 (by omega)
  have e3 : ∀ k ≤ i, Spec.laterJerks s.nbSamples X (3 * s.nbSamples + k) = X (3 * s.nbSamples + (k + 1)) :=
    fun k hk => laterJerks_block X 3 (by omega)
  unfold Spec.ZebSettings.stateAt Spec.ZebSettings.comX Spec.ZebSettings.comY Spec.ZebSettings.baseX
    Spec.ZebSettings.baseY
  rw [comFirst_eq hT]
  congr 1
  · rw [← jerkTrajectory_tail]; exact jerkTrajectory_agree _ _ _ e0
  · rw [← jerkTrajectory_tail]; exact jerkTrajectory_agree _ _ _ e1
  · rw [← jerkTrajectory_tail]; exact jerkTrajectory_agree _ _ _ e2
  · rw [← jerkTrajectory_tail]; exact jerkTrajectory_agree _ _ _ e3

theorem stateAt_agree {s : Spec.ZebSettings K} (z : Spec.ZebState K) {X X' : ℕ → K}
    (h : ∀ i < 4 * s.nbSamples, X i = X' i) {i : ℕ} (hi : i < s.nbSamples) : s.stateAt z X i = s.stateAt z X' i := by
  unfold Spec.ZebSettings.stateAt Spec.ZebSettings.comX Spec.ZebSettings.comY Spec.ZebSettings.baseX
    Spec.ZebSettings.baseY
  congr 1 <;> exact jerkTrajectory_agree _ _ _ fun k hk => h _ (by omega)

theorem predictedCop_eq {s : Spec.ZebSettings K} (h : s.baseMass = 0 ∨ EPS < s.baseMass) (g : K) (c b : State3 K) :
    s.predictedCop g c b = s.cop g c b := by
  unfold Spec.ZebSettings.predictedCop Spec.ZebSettings.cop
  rcases h with h | h
  · rw [h]
    have : ¬ (EPS : K) < 0 := not_lt.2 (EPS_pos (K := K)).le
    simp [this, Spec.copOf]
  · rw [if_pos h]

/-- The constraints of an allowed plan, at one sample. -/
theorem allowed_safe {s : Spec.ZebSettings K} {c n : K} {z : Spec.ZebState K} {X0 X : ℕ → K}
    (h : s.Allowed c n z X0 X) (hcom : s.config.com = true → Spec.CentrallySymmetric s.comPolygon)
    (hcop : s.config.cop = true → Spec.CentrallySymmetric s.copPolygon ∧ (s.baseMass = 0 ∨ EPS < s.baseMass))
    {i : ℕ} (hi : i < s.nbSamples) : s.Safe c n (s.stateAt z X i) := by
  obtain ⟨h1, h2, h3, h4, -⟩ := h
  refine ⟨fun hc => ?_, fun hc => ?_, fun hc => ?_, fun hc => h4 hc i hi⟩
  · exact ((hcom hc) _).2 (inPolygon_of_rows (h3 hc) hi)
  · have := ((hcop hc).1 _).2 (inPolygon_of_rows (h1 hc) hi)
    simp only [Spec.ZebSettings.copRel, Spec.ZebSettings.copRelX, Spec.ZebSettings.copRelY,
      predictedCop_eq (hcop hc).2] at this
    exact this
  · obtain ⟨a, b, c', d, -⟩ := h2 hc i hi
    exact ⟨a, b, c', d⟩

/-! ### Calls that do not move the robot -/

theorem computeConstantPart_lip {w w' : Zeb K} (e : w.computeConstantPart = .ok w') :
    w'.lip = w.lip ∧ w'.base = w.base := by
  unfold Zeb.computeConstantPart at e
  obtain ⟨⟨a, b, c, d⟩, -, e⟩ := bind_eq_ok.1 e
  dsimp only at e
  obtain ⟨-, -, e⟩ := bind_eq_ok.1 e
  obtain ⟨_, -, e⟩ := bind_eq_ok.1 e
  obtain ⟨_, -, e⟩ := bind_eq_ok.1 e
  obtain ⟨_, -, e⟩ := bind_eq_ok.1 e
  obtain ⟨_, -, e⟩ := bind_eq_ok.1 e
  cases e
  exact ⟨rfl, rfl⟩

theorem zTracking_state {s : Spec.ZebSettings K} {tr : Trig K} {w w' : Zeb K} {o : Oracle K} {c : ZebCall K} {b : Bool}
    (hc : Spec.ZebTracking s c) (hs : ∀ fb, c ≠ .solve fb) (e : w.step o tr c = .ok (b, w')) :
    w'.state = w.state := by
  cases c with
  | solve fb => exact absurd rfl (hs fb)
  | setVelRef v =>
    obtain ⟨-, -, e⟩ := bind_eq_ok.1 e
    cases e; rfl
  | setPosRef v =>
    obtain ⟨-, -, e⟩ := bind_eq_ok.1 e
    cases e; rfl
  | setCopRef v =>
    obtain ⟨-, -, e⟩ := bind_eq_ok.1 e
    obtain ⟨_, -, e⟩ := bind_eq_ok.1 e
    cases e; rfl
  | setComRef v =>
    obtain ⟨-, -, e⟩ := bind_eq_ok.1 e
    obtain ⟨_, -, e⟩ := bind_eq_ok.1 e
    cases e; rfl
  | setWeightings wt =>
    obtain ⟨-, -, e⟩ := bind_eq_ok.1 e
    obtain ⟨-, -, e⟩ := bind_eq_ok.1 e
    obtain ⟨-, -, e⟩ := bind_eq_ok.1 e
    obtain ⟨-, -, e⟩ := bind_eq_ok.1 e
    obtain ⟨-, -, e⟩ := bind_eq_ok.1 e
    obtain ⟨-, -, e⟩ := bind_eq_ok.1 e
    obtain ⟨w1, e1, e⟩ := bind_eq_ok.1 e
    cases e
    obtain ⟨h1, h2⟩ := computeConstantPart_lip e1
    unfold Zeb.state
    rw [h1, h2]
  | _ => exact absurd hc (by simp [Spec.ZebTracking])

/-! ### Keeping the base velocity -/

/-- Jerks that keep the base velocity at the samples, and do not change the jerks `X0` of the CoM. -/
def holdBase (s : Spec.ZebSettings K) (z : Spec.ZebState K) (X0 : ℕ → K) (j : ℕ) : K :=
  if j < 2 * s.nbSamples then X0 j
  else if j < 3 * s.nbSamples then (-1) ^ (j - 2 * s.nbSamples + 1) * (2 * z.bx.a / s.period)
  else (-1) ^ (j - 3 * s.nbSamples + 1) * (2 * z.by_.a / s.period)

theorem holdBase_allowed {s : Spec.ZebSettings K} (hT : 0 < s.period) (hc : s.config = ⟨false, false, true, false⟩)
    (hJ : 2 * s.accLimit ≤ s.jerkLimit * s.period) {z : Spec.ZebState K} (hz : s.BaseWithin z) (c n : K) (X0 : ℕ → K) :
    s.Allowed c n z X0 (holdBase s z X0) := by
  have hM : (0 : K) ≤ MAXBOUND := by unfold MAXBOUND; norm_num
  have bx : ∀ k < s.nbSamples, Spec.jerkBX s.nbSamples (holdBase s z X0) k
      = (-1) ^ (k + 1) * (2 * z.bx.a / s.period) := by
    intro k hk
    unfold Spec.jerkBX holdBase
    rw [if_neg (by omega), if_pos (by omega)]
    congr 2; omega
  have by_ : ∀ k < s.nbSamples, Spec.jerkBY s.nbSamples (holdBase s z X0) k
      = (-1) ^ (k + 1) * (2 * z.by_.a / s.period) := by
    intro k hk
    unfold Spec.jerkBY holdBase
    rw [if_neg (by omega), if_neg (by omega)]
    congr 2; omega
  have key : ∀ (a : K) (k : ℕ), |a| ≤ s.accLimit →
      |(-1) ^ (k + 1) * (2 * a / s.period)| ≤ s.jerkLimit ∧ |(-1) ^ (k + 1) * a| ≤ s.accLimit := by
    intro a k ha
    rw [abs_mul, abs_mul, abs_pow, abs_div, abs_mul, abs_of_pos hT]
    simp only [abs_neg, abs_one, one_pow, one_mul, Nat.abs_ofNat]
    rw [div_le_iff₀ hT]
    exact ⟨by linarith, ha⟩
  rw [Spec.ZebSettings.Allowed, hc]
  refine ⟨by simp, fun _ i hi => ?_, by simp, by simp, fun i hi h => ?_⟩
  · have e1 : s.baseX z (holdBase s z X0) i
        = Spec.jerkTrajectory s.period s.period z.bx (fun k => (-1) ^ (k + 1) * (2 * z.bx.a / s.period)) i :=
      jerkTrajectory_agree _ _ _ fun k hk => bx k (by omega)
    have e2 : s.baseY z (holdBase s z X0) i
        = Spec.jerkTrajectory s.period s.period z.by_ (fun k => (-1) ^ (k + 1) * (2 * z.by_.a / s.period)) i :=
      jerkTrajectory_agree _ _ _ fun k hk => by_ k (by omega)
    obtain ⟨v1, a1⟩ := jerkTrajectory_alternate hT.ne' z.bx i
    obtain ⟨v2, a2⟩ := jerkTrajectory_alternate hT.ne' z.by_ i
    rw [e1, e2, v1, v2, a1, a2, bx i hi, by_ i hi]
    exact ⟨hz.1, hz.2.1, (key _ i hz.2.2.1).2, (key _ i hz.2.2.2).2, (key _ i hz.2.2.1).1, (key _ i hz.2.2.2).1⟩
  · have h' := h rfl
    unfold holdBase
    rw [if_pos h', sub_self, abs_zero]
    exact hM

end MPC
