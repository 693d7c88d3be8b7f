import Verif.Props.Zebulon

/-!
# Property C47: the tilt that `ZebulonWalkgen` predicts

`Zeb.tiltX` and `Zeb.tiltY` are the predictions whose squares the tilt objectives minimise, in terms of the members
`dynC_`, `dynB_`, `dynPsiX_`, `dynPsiY_` of the objective.
-/

set_option linter.unusedSectionVars false

namespace MPC

open Finset

variable {K : Type} [Field K] [LinearOrder K] [IsStrictOrderedRing K] [FloorRing K]

/-- `dynC_.U*X + dynB_.U*X + dynC_.S*com + dynB_.S*base + dynPsi_.S*tilt + dynPsi_.K` at sample `i`,
`/repo/src/function/zebulon_tilt_minimization_objective.cpp:36-59`: along X, where `X` are the jerks. -/
def Zeb.tiltX (w : Zeb K) (t : Tilt K) (X : ℕ → K) (i : ℕ) : K :=
  ∑ j ∈ range w.base.N, t.cU.get i j * X j + ∑ j ∈ range w.base.N, t.bU.get i j * X (2 * w.base.N + j)
    + (∑ j ∈ range 3, t.cS.get i j * w.lip.x.toVec.get j + ∑ j ∈ range 3, t.bS.get i j * w.base.x.toVec.get j
      + ∑ j ∈ range 2, t.psiXS.get i j * w.base.roll.toVec.get j + t.psiXK.get i)

/-- The same along Y. -/
def Zeb.tiltY (w : Zeb K) (t : Tilt K) (X : ℕ → K) (i : ℕ) : K :=
  ∑ j ∈ range w.base.N, t.cU.get i j * X (w.base.N + j) + ∑ j ∈ range w.base.N, t.bU.get i j * X (3 * w.base.N + j)
    + (∑ j ∈ range 3, t.cS.get i j * w.lip.y.toVec.get j + ∑ j ∈ range 3, t.bS.get i j * w.base.y.toVec.get j
      + ∑ j ∈ range 2, t.psiYS.get i j * w.base.pitch.toVec.get j + t.psiYK.get i)

variable {o : Oracle K} {tr : Trig K} {cx cy : K} {cs : List (ZebCall K)} {w : Zeb K} {fb : K}

theorem tiltX_eq {s : Spec.ZebSettings K} {L : K} {u ps : ℕ → ℕ → K} {t : Tilt K} (hu : ZUser s w)
    (ht : t.Is s L s.contactX s.contactY u ps) (X : ℕ → K) {i : ℕ} (hi : i < s.nbSamples) :
    w.tiltX t X i = zTilt s L u ps s.roll s.contactX (s.comX w.state X) (s.baseX w.state X) i := by
  have hN : w.base.N = s.nbSamples := hu.model.bN
  unfold Zeb.tiltX
  rw [hN, hu.roll]
  refine Eq.trans ?_ (zTilt_row u ps w.lip.x w.base.x s.roll s.contactX (Spec.jerkCX s.nbSamples X)
    (Spec.jerkBX s.nbSamples X))
  unfold tiltOff
  rw [ht.psiXK.2 i hi]
  congr 1
  · congr 1
    · exact sum_congr rfl fun j hj => by rw [ht.cU.2.2 i hi j (mem_range.1 hj)]; rfl
    · exact sum_congr rfl fun j hj => by rw [ht.bU.2.2 i hi j (mem_range.1 hj)]; rfl
  · congr 1
    congr 1
    · congr 1
      · exact sum_congr rfl fun j hj => by rw [ht.cS.2.2 i hi j (mem_range.1 hj)]
      · exact sum_congr rfl fun j hj => by rw [ht.bS.2.2 i hi j (mem_range.1 hj)]
    · exact sum_congr rfl fun j hj => by rw [ht.psiXS.2.2 i hi j (mem_range.1 hj)]

theorem tiltY_eq {s : Spec.ZebSettings K} {L : K} {u ps : ℕ → ℕ → K} {t : Tilt K} (hu : ZUser s w)
    (ht : t.Is s L s.contactX s.contactY u ps) (X : ℕ → K) {i : ℕ} (hi : i < s.nbSamples) :
    w.tiltY t X i = zTilt s L u ps s.pitch s.contactY (s.comY w.state X) (s.baseY w.state X) i := by
  have hN : w.base.N = s.nbSamples := hu.model.bN
  unfold Zeb.tiltY
  rw [hN, hu.pitch]
  refine Eq.trans ?_ (zTilt_row u ps w.lip.y w.base.y s.pitch s.contactY (Spec.jerkCY s.nbSamples X)
    (Spec.jerkBY s.nbSamples X))
  unfold tiltOff
  rw [ht.psiYK.2 i hi]
  congr 1
  · congr 1
    · exact sum_congr rfl fun j hj => by rw [ht.cU.2.2 i hi j (mem_range.1 hj)]; rfl
    · exact sum_congr rfl fun j hj => by rw [ht.bU.2.2 i hi j (mem_range.1 hj)]; rfl
  · congr 1
    congr 1
    · congr 1
      · exact sum_congr rfl fun j hj => by rw [ht.cS.2.2 i hi j (mem_range.1 hj)]
      · exact sum_congr rfl fun j hj => by rw [ht.bS.2.2 i hi j (mem_range.1 hj)]
    · exact sum_congr rfl fun j hj => by rw [ht.psiYS.2.2 i hi j (mem_range.1 hj)]

theorem predictsCodeTilt_congr {s : Spec.ZebSettings K} {L c : K} {com base : ℕ → State3 K} {τ : State3 K}
    {ψ ω ψ' ω' : ℕ → K} (h : s.PredictsCodeTilt L c com base τ ψ ω) (h1 : ∀ i < s.nbSamples, ψ' i = ψ i)
    (h2 : ∀ i < s.nbSamples, ω' i = ω i) : s.PredictsCodeTilt L c com base τ ψ' ω' := by
  obtain ⟨α, γ, a, b, c, d⟩ := h
  exact ⟨α, γ, a, b, c, fun i hi => by rw [h1 i hi, h2 i hi]; exact d i hi⟩

/-- **C47 as the code has it.** In every reachable state and for all jerks, the two tilt objectives predict, up to
the entries of an inverse below `10⁻¹⁵`, angle and angular velocity of the unique motion with
`g (m h + M L) ψ + M L c'' + m h d'' + M g db = m g (c - d) + (m h h + M L L) ψ''` at every sample, where `L` is the base
height when the objectives were last refreshed. (Sampling periods beyond `√(2/ε)`, some 141 seconds, are excluded.) -/
theorem C47_code_equation (hw : ZebReaches o tr cx cy cs w) (hE : (zebSettingsOf cx cy cs).period ^ 2 * EPS ≤ 2)
    (X : ℕ → K) :
    (zebSettingsOf cx cy cs).PredictsCodeTilt ((Spec.ZebSettings.init cx cy).tiltHeight 0 cs)
      (zebSettingsOf cx cy cs).contactX ((zebSettingsOf cx cy cs).comX w.state X)
      ((zebSettingsOf cx cy cs).baseX w.state X) (zebSettingsOf cx cy cs).roll (w.tiltX w.tiltObj X)
      (w.tiltX w.tiltVelObj X) ∧
    (zebSettingsOf cx cy cs).PredictsCodeTilt ((Spec.ZebSettings.init cx cy).tiltHeight 0 cs)
      (zebSettingsOf cx cy cs).contactY ((zebSettingsOf cx cy cs).comY w.state X)
      ((zebSettingsOf cx cy cs).baseY w.state X) (zebSettingsOf cx cy cs).pitch (w.tiltY w.tiltObj X)
      (w.tiltY w.tiltVelObj X) := by
  have h := zReachable_inv hw
  change ZInv tr (zebSettingsOf cx cy cs) _ _ w at h
  generalize zebSettingsOf cx cy cs = s at *
  generalize (Spec.ZebSettings.init cx cy).tiltHeight 0 cs = L at *
  have hT : 0 < s.period := h.part.user.model.T_pos
  obtain ⟨u, ps, ht, hts⟩ : ∃ u ps, w.tiltObj.Is s L s.contactX s.contactY u ps ∧ TiltSol s L u ps :=
    h.part.fresh .tilt trivial
  obtain ⟨v, qs, hv, hvs⟩ : ∃ u ps, w.tiltVelObj.Is s L s.contactX s.contactY u ps ∧ TiltVelSol s L u ps :=
    h.part.fresh .tiltVel trivial
  constructor
  · exact predictsCodeTilt_congr (zTilt_motion hT hE hts hvs _ _ _ _) (fun i hi => tiltX_eq h.part.user ht X hi)
      fun i hi => tiltX_eq h.part.user hv X hi
  · exact predictsCodeTilt_congr (zTilt_motion hT hE hts hvs _ _ _ _) (fun i hi => tiltY_eq h.part.user ht X hi)
      fun i hi => tiltY_eq h.part.user hv X hi

/-- The hypotheses of `C47_code_equation` are met by `zExampleHistory`. -/
example (o : Oracle ℚ) (tr : Trig ℚ) (cx cy : ℚ) : ∃ w, ZebReaches o tr cx cy zExampleHistory w ∧
    (zebSettingsOf cx cy zExampleHistory).period ^ 2 * EPS ≤ 2 := by
  obtain ⟨w, hw⟩ := C54_no_fault_partial o tr cx cy _ (zExample_legal cx cy).1 (zExample_legal cx cy).2
  refine ⟨w, hw, ?_⟩
  show (1 / 10 : ℚ) ^ 2 * EPS ≤ 2
  norm_num [EPS]

theorem tiltMotion_neg (s : Spec.ZebSettings K) (τ : State3 K) (α : ℕ → K) (i : ℕ) :
    s.tiltMotion ⟨-τ.p, -τ.v, -τ.a⟩ (fun i => -α i) i = ⟨-(s.tiltMotion τ α i).q, -(s.tiltMotion τ α i).w⟩ := by
  unfold Spec.ZebSettings.tiltMotion
  induction i with
  | zero =>
    simp only [Spec.accTrajectory, Spec.quadratic, Spec.State2.mk.injEq]
    constructor <;> ring
  | succ i ih =>
    simp only [Spec.accTrajectory] at ih ⊢
    rw [ih]
    simp only [Spec.quadratic, Spec.State2.mk.injEq]
    constructor <;> ring

/-- **C47 (partial).** When `m h = M L` and the contact point is the origin, the tilt predicted by the code is the
negation of the one of the documented equation from the negated initial tilt. Missing: other parameters, and the
sign (false, `C47_violated`). -/
theorem C47_negated_partial (s : Spec.ZebSettings K) (L : K) (hm : s.bodyMass * s.bodyHeight = s.baseMass * L)
    (com base : ℕ → State3 K) (τ : State3 K) (α : ℕ → K) :
    s.CodeTilt L 0 com base τ α ↔ s.DocumentedTilt L com base ⟨-τ.p, -τ.v, -τ.a⟩ fun i => -α i := by
  unfold Spec.ZebSettings.CodeTilt Spec.ZebSettings.DocumentedTilt
  refine forall_congr' fun i => imp_congr_right fun _ => ?_
  rw [tiltMotion_neg]
  unfold Spec.ZebSettings.tiltRhs
  dsimp only
  constructor
  · intro h; linear_combination -h - ((com i).a - (base i).a) * hm
  · intro h; linear_combination -h - ((com i).a - (base i).a) * hm

/-- The same for the generator: under the hypotheses of `C47_negated_partial` there is a solution of the documented
equation from the negated tilt whose angles and angular velocities are the negated predictions of the generator, up to
the entries of an inverse below `10⁻¹⁵`. -/
theorem C47_partial (hw : ZebReaches o tr cx cy cs w) (hE : (zebSettingsOf cx cy cs).period ^ 2 * EPS ≤ 2)
    (hm : (zebSettingsOf cx cy cs).bodyMass * (zebSettingsOf cx cy cs).bodyHeight
      = (zebSettingsOf cx cy cs).baseMass * (Spec.ZebSettings.init cx cy).tiltHeight 0 cs)
    (hc : (zebSettingsOf cx cy cs).contactX = 0) (X : ℕ → K) :
    ∃ α γ : ℕ → K,
      (zebSettingsOf cx cy cs).DocumentedTilt ((Spec.ZebSettings.init cx cy).tiltHeight 0 cs)
        ((zebSettingsOf cx cy cs).comX w.state X) ((zebSettingsOf cx cy cs).baseX w.state X)
        ⟨-(zebSettingsOf cx cy cs).roll.p, -(zebSettingsOf cx cy cs).roll.v, -(zebSettingsOf cx cy cs).roll.a⟩ α ∧
      (∀ i < (zebSettingsOf cx cy cs).nbSamples, ((zebSettingsOf cx cy cs).tiltMotion ⟨0, 0, 0⟩ γ i).q
        = ((zebSettingsOf cx cy cs).tiltMotion
          ⟨-(zebSettingsOf cx cy cs).roll.p, -(zebSettingsOf cx cy cs).roll.v, -(zebSettingsOf cx cy cs).roll.a⟩ α i).q) ∧
      ∀ i < (zebSettingsOf cx cy cs).nbSamples,
        |w.tiltX w.tiltObj X i + ((zebSettingsOf cx cy cs).tiltMotion
          ⟨-(zebSettingsOf cx cy cs).roll.p, -(zebSettingsOf cx cy cs).roll.v, -(zebSettingsOf cx cy cs).roll.a⟩ α i).q|
          ≤ 1 / 10 ^ 15 * ∑ j ∈ range (zebSettingsOf cx cy cs).nbSamples,
            |(zebSettingsOf cx cy cs).tiltStiffness ((Spec.ZebSettings.init cx cy).tiltHeight 0 cs)
                * ((zebSettingsOf cx cy cs).tiltMotion ⟨0, 0, 0⟩ γ j).q
              - (zebSettingsOf cx cy cs).tiltInertia ((Spec.ZebSettings.init cx cy).tiltHeight 0 cs) * γ j| := by
  obtain ⟨⟨α, γ, h1, -, h3, h4⟩, -⟩ := C47_code_equation hw hE X
  generalize zebSettingsOf cx cy cs = s at *
  generalize (Spec.ZebSettings.init cx cy).tiltHeight 0 cs = L at *
  rw [hc, C47_negated_partial s L hm] at h1
  have n0 : ∀ i, s.tiltMotion ⟨0, 0, 0⟩ (fun i => -γ i) i
      = ⟨-(s.tiltMotion ⟨0, 0, 0⟩ γ i).q, -(s.tiltMotion ⟨0, 0, 0⟩ γ i).w⟩ := fun i => by
    have := tiltMotion_neg s ⟨0, 0, 0⟩ γ i
    simpa only [neg_zero] using this
  refine ⟨_, fun i => -γ i, h1, fun i hi => ?_, fun i hi => ?_⟩
  · rw [n0, tiltMotion_neg]
    exact congrArg Neg.neg (h3 i hi)
  · rw [tiltMotion_neg]
    refine le_trans (le_of_eq ?_) (le_trans (h4 i hi).1 (le_of_eq ?_))
    · rw [← sub_eq_add_neg]
    · congr 1
      refine sum_congr rfl fun j hj => ?_
      rw [n0, ← h3 j (mem_range.1 hj), ← abs_neg]
      congr 1
      ring

/-- History of the violation of C47: the CoM starts with acceleration `1`. -/
def zTiltHistory : List (ZebCall ℚ) := [.setComX ⟨3, fun i => if i = 2 then 1 else 0⟩]

theorem zTilt_reaches (o : Oracle ℚ) : ∃ w, ZebReaches o trigZero 0 0 zTiltHistory w ∧
    w.lip.x = ⟨0, 0, 1⟩ ∧ w.base.x = ⟨0, 0, 0⟩ ∧ w.tiltX w.tiltObj (fun _ => 0) 0 = 4905 / 7810 := by
  have h : okAnd (fun w : Zeb ℚ => decide (w.lip.x.p = 0) && decide (w.lip.x.v = 0) && decide (w.lip.x.a = 1)
        && decide (w.base.x.p = 0) && decide (w.base.x.v = 0) && decide (w.base.x.a = 0)
        && decide (w.tiltX w.tiltObj (fun _ => 0) 0 = 4905 / 7810))
      (do Zeb.run (fun _ _ _ => (true, fun _ => 0)) trigZero (← Zeb.make trigZero (some 0, some 0)) zTiltHistory)
      = true := by
    decide +kernel
  obtain ⟨w, e, hw⟩ := okAnd_true h
  simp only [Bool.and_eq_true, decide_eq_true_eq] at hw
  obtain ⟨⟨⟨⟨⟨⟨h1, h2⟩, h3⟩, h4⟩, h5⟩, h6⟩, h7⟩ := hw
  rw [zReaches_setters _ _ (by decide) o] at e
  have k : ∀ {z : State3 ℚ} {a : ℚ}, z.p = 0 → z.v = 0 → z.a = a → z = ⟨0, 0, a⟩ := by
    rintro ⟨p, v, a⟩ _ rfl rfl rfl; rfl
  exact ⟨w, e, k h1 h2 h3, k h4 h5 h6, h7⟩

/-- **C47 is violated.** There is a reachable state where the tilt predicted for zero jerks is not the one of the
documented equation, not even up to its sign. -/
theorem C47_violated (o : Oracle ℚ) : ∃ w, ZebReaches o trigZero 0 0 zTiltHistory w ∧
    (∃ α, (zebSettingsOf 0 0 zTiltHistory).DocumentedTilt 0 ((zebSettingsOf 0 0 zTiltHistory).comX w.state fun _ => 0)
      ((zebSettingsOf 0 0 zTiltHistory).baseX w.state fun _ => 0) (zebSettingsOf 0 0 zTiltHistory).roll α) ∧
    ∀ α, (zebSettingsOf 0 0 zTiltHistory).DocumentedTilt 0 ((zebSettingsOf 0 0 zTiltHistory).comX w.state fun _ => 0)
        ((zebSettingsOf 0 0 zTiltHistory).baseX w.state fun _ => 0) (zebSettingsOf 0 0 zTiltHistory).roll α →
      |w.tiltX w.tiltObj (fun _ => 0) 0|
        ≠ |((zebSettingsOf 0 0 zTiltHistory).tiltMotion (zebSettingsOf 0 0 zTiltHistory).roll α 0).q| := by
  obtain ⟨w, hw, hx, hb, ht⟩ := zTilt_reaches o
  have hs : zebSettingsOf (0 : ℚ) 0 zTiltHistory = Spec.ZebSettings.init 0 0 := rfl
  have key : ∀ α, (zebSettingsOf 0 0 zTiltHistory).DocumentedTilt 0
      ((zebSettingsOf 0 0 zTiltHistory).comX w.state fun _ => 0)
      ((zebSettingsOf 0 0 zTiltHistory).baseX w.state fun _ => 0) (zebSettingsOf 0 0 zTiltHistory).roll α
      ↔ α 0 / 2 = -3905 / 7810 := by
    intro α
    unfold Spec.ZebSettings.DocumentedTilt
    rw [hs]
    have hf : Spec.comFirst (1 : ℚ) = 1 := by decide +kernel
    have c0 : (Spec.ZebSettings.init (0 : ℚ) 0).comX w.state (fun _ => 0) 0 = ⟨1 / 2, 1, 1⟩ := by
      show Spec.cubic w.lip.x 0 (Spec.comFirst 1) = _
      rw [hx, hf]; norm_num [Spec.cubic]
    have b0 : (Spec.ZebSettings.init (0 : ℚ) 0).baseX w.state (fun _ => 0) 0 = ⟨0, 0, 0⟩ := by
      show Spec.cubic w.base.x 0 1 = _
      rw [hb]; norm_num [Spec.cubic]
    have m0 : ((Spec.ZebSettings.init (0 : ℚ) 0).tiltMotion (Spec.ZebSettings.init (0 : ℚ) 0).roll α 0).q = α 0 / 2 := by
      show (Spec.quadratic (⟨0, 0⟩ : Spec.State2 ℚ) (α 0) 1).q = _
      norm_num [Spec.quadratic]
    constructor
    · intro h
      have := h 0 Nat.one_pos
      rw [c0, b0, m0] at this
      norm_num [Spec.ZebSettings.tiltStiffness, Spec.ZebSettings.tiltInertia, Spec.ZebSettings.init, GRAVITY_NORM] at this
      linarith
    · intro h i hi
      obtain rfl : i = 0 := by
        have hi : i < 1 := hi
        omega
      rw [c0, b0, m0]
      norm_num [Spec.ZebSettings.tiltStiffness, Spec.ZebSettings.tiltInertia, Spec.ZebSettings.init, GRAVITY_NORM]
      linarith
  refine ⟨w, hw, ⟨fun _ => -3905 / 3905, (key _).2 (by norm_num)⟩, fun α h => ?_⟩
  have m0 : ((zebSettingsOf (0 : ℚ) 0 zTiltHistory).tiltMotion (zebSettingsOf (0 : ℚ) 0 zTiltHistory).roll α 0).q
      = α 0 / 2 := by
    show (Spec.quadratic (⟨0, 0⟩ : Spec.State2 ℚ) (α 0) 1).q = _
    norm_num [Spec.quadratic]
  rw [m0, (key α).1 h, ht]
  norm_num [abs_of_neg, abs_of_pos]

end MPC
