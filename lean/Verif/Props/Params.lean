import Verif.Props.HumSolver
import Verif.Props.Lip

/-! # Parameters accepted by the humanoid generator and by `LIPModel` (C43) -/

set_option linter.unusedSectionVars false

namespace MPC

variable {K : Type} [Field K] [LinearOrder K] [IsStrictOrderedRing K] [FloorRing K]

/-- All weightings are non negative. -/
def HWeighting.NonNeg (w : HWeighting K) : Prop :=
  0 ≤ w.velocityTracking ∧ 0 ≤ w.copCentering ∧ 0 ≤ w.jerkMinimization

/-- **C43 (partial): humanoid.** `setWeightings` is accepted exactly when the weightings it *replaces*
are non negative. Missing: it should be the new ones (`C43_humanoid_accepts_negative`). -/
theorem C43_humanoid_partial (hull : Vec (Pt K) → Res (Polygon K)) (o : Oracle K) (w : HWalkgen K)
    (wt : HWeighting K) :
    (∃ r, w.step hull o (.setWeightings wt) = .ok r) ↔ w.weighting.NonNeg := by
  constructor
  · rintro ⟨r, h⟩
    obtain ⟨_, h1, h⟩ := bind_eq_ok.1 h
    obtain ⟨_, h2, h⟩ := bind_eq_ok.1 h
    obtain ⟨_, h3, h⟩ := bind_eq_ok.1 h
    exact ⟨require_eq_ok.1 h1, require_eq_ok.1 h2, require_eq_ok.1 h3⟩
  · rintro ⟨h1, h2, h3⟩
    refine ⟨(true, { w with weighting := wt }), ?_⟩
    simp only [HWalkgen.step, require_pos h1, require_pos h2, require_pos h3]
    rfl

/-- **C43 is false: humanoid.** A new generator accepts all weightings, also negative ones; after
negative ones it rejects every further call of `setWeightings`, also with valid weightings. -/
theorem C43_humanoid_accepts_negative (hull : Vec (Pt K) → Res (Polygon K)) (o : Oracle K)
    (w : HWalkgen K) (hw : HWalkgen.make = .ok w) (wt : HWeighting K) :
    ∃ w', w.step hull o (.setWeightings wt) = .ok (true, w') ∧ w'.weighting = wt ∧
      (¬ wt.NonNeg → ∀ wt', w'.step hull o (.setWeightings wt') = .error .assertFail) := by
  have hz : w.weighting = ⟨0, 0, 0⟩ := by
    unfold HWalkgen.make at hw
    obtain ⟨s, hs, hw⟩ := bind_eq_ok.1 hw
    obtain ⟨l, hl, hw⟩ := bind_eq_ok.1 hw
    obtain ⟨_, -, hw⟩ := bind_eq_ok.1 hw
    obtain ⟨_, -, hw⟩ := bind_eq_ok.1 hw
    obtain rfl := Except.ok.inj hw
    rfl
  refine ⟨{ w with weighting := wt }, ?_, rfl, fun hn wt' => ?_⟩
  · simp only [HWalkgen.step, hz, require_pos (le_refl (0 : K))]
    rfl
  · simp only [HWalkgen.step, require]
    by_cases h1 : 0 ≤ wt.velocityTracking
    · by_cases h2 : 0 ≤ wt.copCentering
      · have h3 : ¬ 0 ≤ wt.jerkMinimization := fun h3 => hn ⟨h1, h2, h3⟩
        simp only [if_pos h1, if_pos h2, if_neg h3]
        rfl
      · simp only [if_pos h1, if_neg h2]
        rfl
    · simp only [if_neg h1]
      rfl

/-- A new generator exists. -/
example : ∃ w : HWalkgen ℚ, HWalkgen.make = .ok w ∧ ¬ (⟨-1, 0, 0⟩ : HWeighting ℚ).NonNeg := by
  have h : okAnd (fun _ => true) (HWalkgen.make (K := ℚ)) = true := by
    set_option maxRecDepth 100000 in decide +kernel
  obtain ⟨w, hw, -⟩ := okAnd_true h
  refine ⟨w, hw, fun h => ?_⟩
  have := h.1
  norm_num at this

/-- **C43 (partial): LIP model.** When at least one feedback period fits in a sample, gravity vectors
accepted by `setGravity` have a non zero vertical component. Missing: longer feedback periods
(`C43_lip_accepts_zero`). -/
theorem C43_lip_partial (N : ℕ) (T : K) (cs : List (LipCall K)) (l l' : Lip K) (hr : LipReaches N T cs l)
    (hfb : 0 < l.fb) (hT : l.fb ≤ l.T + EPS) (gx gy gz : K) (h : l.step (.setGravity gx gy gz) = .ok l') :
    EPS < |gz| ∧ l'.gz = gz := by
  obtain ⟨l₀, h0, hr⟩ := hr
  have hf := Lip.run_fresh (Lip.make_fresh h0) hr
  have hf' := Lip.step_fresh hf h
  obtain ⟨_, -, h⟩ := bind_eq_ok.1 h
  obtain ⟨-, p⟩ := Lip.refreshCop_fresh (l := { l with gx := gx, gy := gy, gz := gz }) hf
    ⟨rfl, rfl, rfl, rfl, rfl, rfl, rfl, rfl, rfl⟩ h
  obtain ⟨p1, p2, p3, p4, p5, p6, p7, p8, p9, -, p10, p12⟩ := p
  have hnb : 0 < l'.nbFb := by
    have e := hf'.nb
    have h1 : ((1 : ℤ) : K) ≤ (l'.T + EPS) / l'.fb := by
      rw [p3, p4, Int.cast_one]
      exact (one_le_div hfb).2 hT
    unfold truncInt at e
    rw [if_pos (le_trans (by norm_num) h1)] at e
    have := Int.le_floor.2 h1
    omega
  have g := (hf'.pos hnb).2.gz
  rw [p10] at g
  exact ⟨g, p10⟩

/-- **C43 is false: LIP model.** With a feedback period of three seconds and samples of one second a
new model accepts every gravity vector, also with a zero vertical component, because the assertion reads
the old gravity. -/
theorem C43_lip_accepts_zero (gx gy gz : ℚ) : ∃ l l' : Lip ℚ, LipReaches 1 1 [.setFeedbackPeriod 3] l ∧
    l.step (.setGravity gx gy gz) = .ok l' ∧ l'.gz = gz := by
  have h : okAnd (fun l => decide (l.nbFb = 0 ∧ EPS < |l.gz|))
      ((Lip.make 1 (1 : ℚ) true) >>= fun l => l.run [.setFeedbackPeriod 3]) = true := by
    set_option maxRecDepth 100000 in decide +kernel
  obtain ⟨l, h, hc⟩ := okAnd_true h
  obtain ⟨l₀, h0, h⟩ := bind_eq_ok.1 h
  obtain ⟨h1, h2⟩ := of_decide_eq_true hc
  have ha : l.auto = true := (Lip.run_fresh (Lip.make_fresh h0) h).auto
  refine ⟨l, { l with gx := gx, gy := gy, gz := gz, copX := ⟨0, fun _ => .empty⟩
                      copY := ⟨0, fun _ => .empty⟩ }, ⟨l₀, h0, h⟩, ?_, rfl⟩
  simp only [Lip.step, Lip.setGravity, require_pos h2, Lip.refreshCop, ha, if_true, Lip.computeCopX,
    Lip.computeCopY, h1]
  rfl

/-- The hypotheses of `C43_lip_partial` hold for a new model. -/
example : ∃ l l' : Lip ℚ, LipReaches 5 (1 / 10) [.setMass (1 / 2)] l ∧ 0 < l.fb ∧ l.fb ≤ l.T + EPS ∧
    l.step (.setGravity 1 0 10) = .ok l' := by
  have h : okAnd (fun l => decide (0 < l.1.fb ∧ l.1.fb ≤ l.1.T + EPS))
      ((Lip.make 5 (1 / 10 : ℚ) true) >>= fun l => l.run [.setMass (1 / 2)] >>= fun l =>
        l.step (.setGravity 1 0 10) >>= fun l' => pure (l, l')) = true := by
    set_option maxRecDepth 100000 in decide +kernel
  obtain ⟨r, h, hc⟩ := okAnd_true h
  obtain ⟨l₀, h0, h⟩ := bind_eq_ok.1 h
  obtain ⟨l, hl, h⟩ := bind_eq_ok.1 h
  obtain ⟨l', hl', h⟩ := bind_eq_ok.1 h
  obtain rfl := Except.ok.inj h
  obtain ⟨h1, h2⟩ := of_decide_eq_true hc
  exact ⟨l, l', ⟨l₀, h0, hl⟩, h1, h2, hl'⟩

end MPC
