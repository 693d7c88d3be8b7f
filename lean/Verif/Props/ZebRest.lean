import Verif.Lemmas.ZebShift

/-!
# Properties C66, C67: repeated solving of `ZebulonWalkgen`
-/

set_option linter.unusedSectionVars false

namespace MPC

open Finset

variable {K : Type} [Field K] [LinearOrder K] [IsStrictOrderedRing K] [FloorRing K]

variable {o : Oracle K} {tr : Trig K} {cx cy : K} {cs : List (ZebCall K)} {w : Zeb K} {fb : K}

/-! ### C66 -/

/-- **C66.** Whatever the solver answers, `solve(fb)` adds its answer to the jerks and moves CoM and base by the first
of the new jerks during `fb`. With the sampling period as feedback period this is the predicted first sample. -/
theorem C66_advance (hw : ZebReaches o tr cx cy cs w) (hr : (zebSettingsOf cx cy cs).RefsCurrent) (hfb : 0 < fb) :
    ∃ qp, ZebGives tr w fb qp ∧ ∀ (o' : Oracle K) b w', w.solve o' tr fb = .ok (b, w') →
      w'.X.size = 4 * (zebSettingsOf cx cy cs).nbSamples ∧
      (∀ i < 4 * (zebSettingsOf cx cy cs).nbSamples,
        w'.X.get i = w.X.get i + (o' w.solver.calls qp 10000).2 i) ∧
      w'.state = w.state.driven (Spec.jerkCX (zebSettingsOf cx cy cs).nbSamples w'.X.get 0)
        (Spec.jerkCY (zebSettingsOf cx cy cs).nbSamples w'.X.get 0)
        (Spec.jerkBX (zebSettingsOf cx cy cs).nbSamples w'.X.get 0)
        (Spec.jerkBY (zebSettingsOf cx cy cs).nbSamples w'.X.get 0) fb ∧
      (fb = (zebSettingsOf cx cy cs).period → EPS < fb → w'.state = ⟨(zebSettingsOf cx cy cs).comX w.state w'.X.get 0,
        (zebSettingsOf cx cy cs).comY w.state w'.X.get 0, (zebSettingsOf cx cy cs).baseX w.state w'.X.get 0,
        (zebSettingsOf cx cy cs).baseY w.state w'.X.get 0⟩) := by
  have h := zReachable_inv hw
  obtain ⟨qp, u, ps, v, qs, hg, hq, hs⟩ := zebGives_of_inv h hr hfb
  have hXs : w.X.size = 4 * (zebSettingsOf cx cy cs).nbSamples := h.part.user.X
  have hst : ∀ (o' : Oracle K), (zSolveResult o' (zebSettingsOf cx cy cs).nbSamples w qp fb).state
      = w.state.driven
        (Spec.jerkCX (zebSettingsOf cx cy cs).nbSamples (zSolveResult o' (zebSettingsOf cx cy cs).nbSamples w qp fb).X.get 0)
        (Spec.jerkCY (zebSettingsOf cx cy cs).nbSamples (zSolveResult o' (zebSettingsOf cx cy cs).nbSamples w qp fb).X.get 0)
        (Spec.jerkBX (zebSettingsOf cx cy cs).nbSamples (zSolveResult o' (zebSettingsOf cx cy cs).nbSamples w qp fb).X.get 0)
        (Spec.jerkBY (zebSettingsOf cx cy cs).nbSamples (zSolveResult o' (zebSettingsOf cx cy cs).nbSamples w qp fb).X.get 0)
        fb := by
    intro o'
    simp only [Spec.ZebState.driven, ← stateStep_cubic, Spec.jerkCX, Spec.jerkCY, Spec.jerkBX, Spec.jerkBY, add_zero]
    rfl
  refine ⟨qp, hg, fun o' b w' e => ?_⟩
  obtain ⟨b', w'', e', h1, h2⟩ := hg o'
  rw [e] at e'
  cases e'
  replace hs := hs o'
  rw [e] at hs
  cases hs
  refine ⟨h1.trans hXs, fun i hi => h2 i (by omega), hst o', fun hT hE => ?_⟩
  refine (hst o').trans ?_
  have hf : Spec.comFirst (zebSettingsOf cx cy cs).period = fb := by
    rw [← hT]
    have : ⌊(fb + EPS) / fb⌋ = 1 := by
      rw [Int.floor_eq_iff]
      push_cast
      rw [le_div_iff₀ hfb, div_lt_iff₀ hfb]
      have := EPS_pos (K := K)
      constructor <;> linarith
    unfold Spec.comFirst
    rw [this]; simp
  unfold Spec.ZebSettings.comX Spec.ZebSettings.comY Spec.ZebSettings.baseX Spec.ZebSettings.baseY
  rw [hf, ← hT]
  rfl

/-- **C66, steady motion.** If the motion without jerk attains all references in use, is allowed and, when a tilt
objective is in use, is in balance, then with a positive jerk weighting the QP has a solution, and every solver that
returns one makes `solve` continue this motion. -/
theorem C66_steady (hw : ZebReaches o tr cx cy cs w) (hr : (zebSettingsOf cx cy cs).RefsCurrent) (hfb : 0 < fb)
    (hj : 0 < (zebSettingsOf cx cy cs).weighting.jerkMinimization)
    (hm : (zebSettingsOf cx cy cs).Meets ((Spec.ZebSettings.init cx cy).usedShift (0, 0) cs) w.state fun _ => 0)
    (ha : (zebSettingsOf cx cy cs).Allowed (tr.cos (zebSettingsOf cx cy cs).yaw.p)
      (tr.sin (zebSettingsOf cx cy cs).yaw.p) w.state w.X.get fun _ => 0)
    (ht : 0 < (zebSettingsOf cx cy cs).weighting.tiltMinimization ∨
        0 < (zebSettingsOf cx cy cs).weighting.tiltVelMinimization →
      (zebSettingsOf cx cy cs).period ^ 2 * EPS ≤ 2 ∧
      (zebSettingsOf cx cy cs).Balanced ((Spec.ZebSettings.init cx cy).tiltHeight 0 cs) w.state fun _ => 0) :
    ∃ qp, ZebGives tr w fb qp ∧ (∃ d, Spec.IsSolution qp d) ∧
      ∀ (o' : Oracle K) b w', Spec.IsSolution qp (o' w.solver.calls qp 10000).2 → w.solve o' tr fb = .ok (b, w') →
      w'.state = w.state.driven 0 0 0 0 fb ∧ ∀ i < 4 * (zebSettingsOf cx cy cs).nbSamples, w'.X.get i = 0 := by
  have h := zReachable_inv hw
  obtain ⟨qp, hg, hadv⟩ := C66_advance hw hr hfb
  obtain ⟨qp1, hg1, c, hc, ψx, ψy, ωx, ωy, hψ, hcost⟩ := C57_cost hw hr hfb
  obtain rfl := hg.unique h hg1
  obtain ⟨qp2, hg2, hfeas⟩ := C57_constraints hw hr hfb
  obtain rfl := hg.unique h hg2
  obtain ⟨qp3, hg3, -, -, -, -, huniq⟩ := C57_convex hw hr hfb
  obtain rfl := hg.unique h hg3
  have hN : 0 < (zebSettingsOf cx cy cs).nbSamples := h.part.user.model.N_pos
  have hT : (zebSettingsOf cx cy cs).period ≠ 0 := h.part.user.model.T_pos.ne'
  have e0 : (fun i => w.X.get i + (0 - w.X.get i)) = fun _ => (0 : K) := by funext i; ring
  have htilt : (0 < (zebSettingsOf cx cy cs).weighting.tiltMinimization ∨
        0 < (zebSettingsOf cx cy cs).weighting.tiltVelMinimization) →
      (zebSettingsOf cx cy cs).tiltCost (ψx fun _ => 0) (ψy fun _ => 0) = 0 ∧
      (zebSettingsOf cx cy cs).tiltCost (ωx fun _ => 0) (ωy fun _ => 0) = 0 := by
    intro hp
    obtain ⟨hs, ⟨b1, b2⟩, ⟨b3, b4⟩, b5⟩ := ht hp
    obtain ⟨p1, p2⟩ := hψ hs fun _ => 0
    have q1 := PredictsCodeTilt.zero hT p1 b1 b2 fun i hi => (b5 i hi).1
    have q2 := PredictsCodeTilt.zero hT p2 b3 b4 fun i hi => (b5 i hi).2
    exact ⟨tiltCost_zero (fun i hi => (q1 i hi).1) fun i hi => (q2 i hi).1,
      tiltCost_zero (fun i hi => (q1 i hi).2) fun i hi => (q2 i hi).2⟩
  have hsol : Spec.IsSolution qp fun i => 0 - w.X.get i := by
    refine ⟨(hfeas _).2 (by rw [e0]; exact ha), fun d _ => ?_⟩
    rw [hcost, hcost, mul_le_mul_iff_right₀ hc, e0]
    refine sub_le_sub_right ?_ _
    rw [totalCost_zero (fun hp => (htilt (.inl hp)).1) (fun hp => (htilt (.inr hp)).2) hm]
    exact totalCost_nonneg _ _ (tiltCost_nonneg _ _ _) (tiltCost_nonneg _ _ _) _ _
  refine ⟨qp, hg, ⟨_, hsol⟩, fun o' b w' hso e => ?_⟩
  obtain ⟨-, hX, hst, -⟩ := hadv o' b w' e
  have hX0 : ∀ i < 4 * (zebSettingsOf cx cy cs).nbSamples, w'.X.get i = 0 := by
    intro i hi
    rw [hX i hi, (huniq hj).2 _ _ hso hsol i hi]; ring
  refine ⟨?_, hX0⟩
  rw [hst]
  simp only [Spec.jerkCX, Spec.jerkCY, Spec.jerkBX, Spec.jerkBY]
  rw [hX0 _ (by omega), hX0 _ (by omega), hX0 _ (by omega), hX0 _ (by omega)]

/-- **C66, forever.** A robot that rests on its references, without jerks, stays where it is over any number of calls
of `solve` if the jerk weighting is positive and the solver finds solutions. -/
theorem C66_rest (ho : Spec.FindsSolution o) (hw : ZebReaches o tr cx cy cs w)
    (hr : (zebSettingsOf cx cy cs).RefsCurrent)
    (hj : 0 < (zebSettingsOf cx cy cs).weighting.jerkMinimization)
    (h0 : (zebSettingsOf cx cy cs).Resting ((Spec.ZebSettings.init cx cy).tiltHeight 0 cs)
      ((Spec.ZebSettings.init cx cy).usedShift (0, 0) cs) w.state)
    (hX : ∀ i < 4 * (zebSettingsOf cx cy cs).nbSamples, w.X.get i = 0) (fbs : List K) (hfb : ∀ fb ∈ fbs, 0 < fb) :
    ∃ w', ZebReaches o tr cx cy (cs ++ fbs.map .solve) w' ∧ w'.state = w.state ∧
      ∀ i < 4 * (zebSettingsOf cx cy cs).nbSamples, w'.X.get i = 0 := by
  induction fbs generalizing cs w with
  | nil => exact ⟨w, by simpa using hw, rfl, hX⟩
  | cons fb fbs ih =>
    obtain ⟨hm, ha, ht⟩ := Resting.steady h0 (tr.cos (zebSettingsOf cx cy cs).yaw.p)
      (tr.sin (zebSettingsOf cx cy cs).yaw.p) w.X.get (zReachable_limits hw) hX
    obtain ⟨qp, hg, hex, hst⟩ := C66_steady hw hr (hfb fb (by simp)) hj hm ha ht
    obtain ⟨b, w1, e1, -⟩ := hg o
    obtain ⟨s1, x1⟩ := hst o b w1 (ho _ _ _ hex) e1
    obtain ⟨r1, r2, r3, r4⟩ := h0.rest
    have s1 : w1.state = w.state := by
      rw [s1]
      unfold Spec.ZebState.driven
      rw [cubic_still r1, cubic_still r2, cubic_still r3, cubic_still r4]
    have hw1 : ZebReaches o tr cx cy (cs ++ [.solve fb]) w1 := by
      rw [zReaches_append hw]; simp [Zeb.run, Zeb.step, e1, ok_bind]
    have es : zebSettingsOf cx cy (cs ++ [.solve fb]) = zebSettingsOf cx cy cs := by
      unfold zebSettingsOf; rw [after_append]; rfl
    have el : (Spec.ZebSettings.init cx cy).tiltHeight 0 (cs ++ [.solve fb])
        = (Spec.ZebSettings.init cx cy).tiltHeight 0 cs := by rw [tiltHeight_append]; rfl
    have ek : (Spec.ZebSettings.init cx cy).usedShift (0, 0) (cs ++ [.solve fb])
        = (Spec.ZebSettings.init cx cy).usedShift (0, 0) cs := by rw [usedShift_append]; rfl
    obtain ⟨w', g1, g2, g3⟩ := ih hw1 (by rw [es]; exact hr) (by rw [es]; exact hj)
      (by rw [es, el, ek, s1]; exact h0) (by rw [es]; exact x1) fun f hf => hfb f (by simp [hf])
    exact ⟨w', by simpa using g1, g2.trans s1, by rw [es] at g3; exact g3⟩

/-- A history that ends with base at `(3, -2)` and CoM ahead of it, all constraints and objectives on, references and
tilt contact point chosen for this posture. -/
def zRestHistory : List (ZebCall ℚ) :=
  [.setBaseMass 2, .setBodyHeight (4 / 5), .setBaseHeight (1 / 10),
    .setCopPolygon ⟨4, fun i => [⟨1, 1⟩, ⟨-1, 1⟩, ⟨-1, -1⟩, ⟨1, -1⟩].getD i ⟨0, 0⟩⟩,
    .setComPolygon ⟨4, fun i => [⟨1, 1⟩, ⟨-1, 1⟩, ⟨-1, -1⟩, ⟨1, -1⟩].getD i ⟨0, 0⟩⟩,
    .setWeightings ⟨1, 1, 1, 1, 1, 1, 1⟩, .setConfig ⟨true, true, true, true⟩,
    .setBaseX ⟨3, fun i => if i = 0 then 3 else 0⟩, .setBaseY ⟨3, fun i => if i = 0 then -2 else 0⟩,
    .setComX ⟨3, fun i => if i = 0 then 7 / 2 else 0⟩, .setComY ⟨3, fun i => if i = 0 then -2 else 0⟩,
    .setPosRef ⟨2, fun i => if i = 0 then 3 else -2⟩, .setComRef ⟨2, fun i => if i = 0 then 1 / 2 else 0⟩,
    .setCopRef ⟨2, fun i => if i = 0 then 1 / 6 else 0⟩, .setContactX (1 / 4), .setContactY 0]

theorem zRest_reaches (o : Oracle ℚ) : ∃ w, ZebReaches o trigZero 0 0 zRestHistory w ∧
    w.state = ⟨⟨7 / 2, 0, 0⟩, ⟨-2, 0, 0⟩, ⟨3, 0, 0⟩, ⟨-2, 0, 0⟩⟩ ∧ ∀ i < 4, w.X.get i = 0 := by
  have h : okAnd (fun w : Zeb ℚ => decide (w.lip.x.p = 7 / 2 ∧ w.lip.x.v = 0 ∧ w.lip.x.a = 0) &&
        decide (w.lip.y.p = -2 ∧ w.lip.y.v = 0 ∧ w.lip.y.a = 0) && decide (w.base.x.p = 3 ∧ w.base.x.v = 0 ∧ w.base.x.a = 0) &&
        decide (w.base.y.p = -2 ∧ w.base.y.v = 0 ∧ w.base.y.a = 0) && zNoJerk w)
      (do Zeb.run (fun _ _ _ => (true, fun _ => 0)) trigZero (← Zeb.make trigZero (some 0, some 0)) zRestHistory)
      = true := by
    decide +kernel
  obtain ⟨w, e, hc⟩ := okAnd_true h
  simp only [Bool.and_eq_true, decide_eq_true_eq] at hc
  obtain ⟨⟨⟨⟨⟨a1, a2, a3⟩, b1, b2, b3⟩, c1, c2, c3⟩, d1, d2, d3⟩, hX⟩ := hc
  refine ⟨w, ?_, ?_, zNoJerk_get hX⟩
  · rw [zReaches_setters _ _ (by decide) o] at e
    exact e
  · have ext : ∀ {x : State3 ℚ} {p : ℚ}, x.p = p → x.v = 0 → x.a = 0 → x = ⟨p, 0, 0⟩ := by
      rintro ⟨_, _, _⟩ _ rfl rfl rfl; rfl
    unfold Zeb.state
    rw [ext a1 a2 a3, ext b1 b2 b3, ext c1 c2 c3, ext d1 d2 d3]

theorem zRest_resting {z : Spec.ZebState ℚ} (hz : z = ⟨⟨7 / 2, 0, 0⟩, ⟨-2, 0, 0⟩, ⟨3, 0, 0⟩, ⟨-2, 0, 0⟩⟩) :
    (zebSettingsOf 0 0 zRestHistory).Resting ((Spec.ZebSettings.init 0 0).tiltHeight 0 zRestHistory)
      ((Spec.ZebSettings.init 0 0).usedShift (0, 0) zRestHistory) z := by
  rw [hz]
  refine ⟨⟨⟨rfl, rfl⟩, ⟨rfl, rfl⟩, ⟨rfl, rfl⟩, rfl, rfl⟩, fun _ => ?_, fun _ => ?_, fun _ => ?_, fun _ => ?_, fun _ => ?_,
    fun _ => ?_, fun _ => ?_⟩
  · show ∀ i < 2, _; decide +kernel
  · show ∀ i < 1, _; decide +kernel
  · show ∀ i < 1, _; decide +kernel
  · show ∀ i < 1, _; decide +kernel
  · decide +kernel
  · decide +kernel
  · decide +kernel

/-- The hypotheses of `C66_rest`, and with them those of `C66_steady`, are met with all constraints and objectives on
and the CoM ahead of the base. -/
example (o : Oracle ℚ) : ∃ w, ZebReaches o trigZero 0 0 zRestHistory w ∧
    (zebSettingsOf 0 0 zRestHistory).RefsCurrent ∧
    0 < (zebSettingsOf (0 : ℚ) 0 zRestHistory).weighting.jerkMinimization ∧
    (zebSettingsOf 0 0 zRestHistory).Resting ((Spec.ZebSettings.init 0 0).tiltHeight 0 zRestHistory)
      ((Spec.ZebSettings.init 0 0).usedShift (0, 0) zRestHistory) w.state ∧
    (∀ i < 4 * (zebSettingsOf (0 : ℚ) 0 zRestHistory).nbSamples, w.X.get i = 0) ∧
    0 < (zebSettingsOf (0 : ℚ) 0 zRestHistory).weighting.tiltMinimization ∧
    (zebSettingsOf (0 : ℚ) 0 zRestHistory).config = ⟨true, true, true, true⟩ := by
  obtain ⟨w, hw, hz, hX⟩ := zRest_reaches o
  exact ⟨w, hw, ⟨rfl, rfl, rfl⟩, by decide +kernel, zRest_resting hz, hX, by decide +kernel, rfl⟩

/-! ### C67 -/

/-- **C67.** Moving CoM, base and position references by `(a, b)` does not change what the generator does. In two
histories that led to the same settings, states and jerks up to this move, whatever else they did, both QPs have the
same feasible points and the same solutions, and equal answers give equal jerks and states that still differ by
`(a, b)`. A base mass that is positive but does not exceed `EPS` is excluded: the predicted CoP leaves it out. -/
theorem C67_translation {o₁ o₂ : Oracle K} {cx₁ cy₁ cx₂ cy₂ : K} {cs₁ cs₂ : List (ZebCall K)} {w₁ w₂ : Zeb K}
    (hw₁ : ZebReaches o₁ tr cx₁ cy₁ cs₁ w₁) (hw₂ : ZebReaches o₂ tr cx₂ cy₂ cs₂ w₂) (a b : K)
    (hs : { zebSettingsOf cx₁ cy₁ cs₁ with posRef := (zebSettingsOf cx₂ cy₂ cs₂).posRef } = zebSettingsOf cx₂ cy₂ cs₂)
    (hp : (zebSettingsOf cx₂ cy₂ cs₂).posRef.size = (zebSettingsOf cx₁ cy₁ cs₁).posRef.size ∧
      ∀ i < (zebSettingsOf cx₁ cy₁ cs₁).nbSamples,
        (zebSettingsOf cx₂ cy₂ cs₂).posRef.get i = (zebSettingsOf cx₁ cy₁ cs₁).posRef.get i + a ∧
        (zebSettingsOf cx₂ cy₂ cs₂).posRef.get ((zebSettingsOf cx₁ cy₁ cs₁).nbSamples + i)
          = (zebSettingsOf cx₁ cy₁ cs₁).posRef.get ((zebSettingsOf cx₁ cy₁ cs₁).nbSamples + i) + b)
    (hL : (Spec.ZebSettings.init cx₂ cy₂).tiltHeight 0 cs₂ = (Spec.ZebSettings.init cx₁ cy₁).tiltHeight 0 cs₁)
    (hk : (Spec.ZebSettings.init cx₂ cy₂).usedShift (0, 0) cs₂ = (Spec.ZebSettings.init cx₁ cy₁).usedShift (0, 0) cs₁)
    (hz : w₂.state = w₁.state.shift a b)
    (hX : ∀ i < 4 * (zebSettingsOf cx₁ cy₁ cs₁).nbSamples, w₂.X.get i = w₁.X.get i)
    (hM : (zebSettingsOf cx₁ cy₁ cs₁).baseMass = 0 ∨ EPS < (zebSettingsOf cx₁ cy₁ cs₁).baseMass)
    (hr : (zebSettingsOf cx₁ cy₁ cs₁).RefsCurrent) (hfb : 0 < fb) :
    ∃ qp₁ qp₂, ZebGives tr w₁ fb qp₁ ∧ ZebGives tr w₂ fb qp₂ ∧
      (∀ d, Spec.Feasible qp₂ d ↔ Spec.Feasible qp₁ d) ∧ (∀ d, Spec.IsSolution qp₂ d ↔ Spec.IsSolution qp₁ d) ∧
      ∀ (o₁' o₂' : Oracle K) b₁ b₂ w₁' w₂',
        (∀ i < 4 * (zebSettingsOf cx₁ cy₁ cs₁).nbSamples,
          (o₂' w₂.solver.calls qp₂ 10000).2 i = (o₁' w₁.solver.calls qp₁ 10000).2 i) →
        w₁.solve o₁' tr fb = .ok (b₁, w₁') → w₂.solve o₂' tr fb = .ok (b₂, w₂') →
        (∀ i < 4 * (zebSettingsOf cx₁ cy₁ cs₁).nbSamples, w₂'.X.get i = w₁'.X.get i) ∧
        w₂'.state = w₁'.state.shift a b := by
  have h₁ := zReachable_inv hw₁
  have h₂ := zReachable_inv hw₂
  have eN : (zebSettingsOf cx₂ cy₂ cs₂).nbSamples = (zebSettingsOf cx₁ cy₁ cs₁).nbSamples := by rw [← hs]
  have hr₂ : (zebSettingsOf cx₂ cy₂ cs₂).RefsCurrent := by
    refine ⟨?_, ?_, ?_⟩
    · rw [eN, ← hr.1, ← hs]
    · rw [hp.1, eN]; exact hr.2.1
    · rw [eN, ← hr.2.2, ← hs]
  obtain ⟨qp₁, g₁, adv₁⟩ := C66_advance hw₁ hr hfb
  obtain ⟨qp₂, g₂, adv₂⟩ := C66_advance hw₂ hr₂ hfb
  obtain ⟨q₁, u, ps, v, qs, g₁', hq₁, -⟩ := zebGives_of_inv h₁ hr hfb
  obtain rfl := g₁.unique h₁ g₁'
  obtain ⟨q₂, u', ps', v', qs', g₂', hq₂, -⟩ := zebGives_of_inv h₂ hr₂ hfb
  obtain rfl := g₂.unique h₂ g₂'
  obtain ⟨q₁, f₁', f₁⟩ := C57_constraints hw₁ hr hfb
  obtain rfl := g₁.unique h₁ f₁'
  obtain ⟨q₂, f₂', f₂⟩ := C57_constraints hw₂ hr₂ hfb
  obtain rfl := g₂.unique h₂ f₂'
  have ht : (zebSettingsOf cx₁ cy₁ cs₁).bodyMass + (zebSettingsOf cx₁ cy₁ cs₁).baseMass ≠ 0 :=
    h₁.part.user.model.total_pos.ne'
  have hN : 0 < (zebSettingsOf cx₁ cy₁ cs₁).nbSamples := h₁.part.user.model.N_pos
  change ZPrep tr (zebSettingsOf cx₁ cy₁ cs₁) _ _ w₁ u ps v qs qp₁ at hq₁
  change ZPrep tr (zebSettingsOf cx₂ cy₂ cs₂) _ _ w₂ u' ps' v' qs' qp₂ at hq₂
  rw [hL, hk] at hq₂
  generalize (Spec.ZebSettings.init cx₁ cy₁).tiltHeight 0 cs₁ = L at *
  generalize (Spec.ZebSettings.init cx₁ cy₁).usedShift (0, 0) cs₁ = k at *
  generalize zebSettingsOf cx₁ cy₁ cs₁ = s at *
  generalize zebSettingsOf cx₂ cy₂ cs₂ = s₂ at *
  generalize s₂.posRef = r at *
  subst hs
  obtain ⟨cu, cps⟩ := hq₁.sol.unique (⟨hq₂.sol.inv, hq₂.sol.ps⟩ : TiltSol s L u' ps')
  obtain ⟨cv, cqs⟩ := hq₁.velSol.unique (⟨hq₂.velSol.inv, hq₂.velSol.ps⟩ : TiltVelSol s L v' qs')
  have hd : ∀ d : ℕ → K, ∀ i < 4 * s.nbSamples, w₂.X.get i + d i = w₁.X.get i + d i := fun d i hi => by rw [hX i hi]
  have hfeas : ∀ d, Spec.Feasible qp₂ d ↔ Spec.Feasible qp₁ d := by
    intro d
    rw [f₁, f₂, hz]
    exact zAllowed_shift hM ht hX (hd d) _ _
  have hcost : ∀ d, w₁.invObj * Spec.cost qp₂ d = w₂.invObj * Spec.cost qp₁ d := by
    intro d
    rw [zCost hq₁, zCost hq₂, hz]
    have key : ∀ J J' : ℕ → K, (∀ i < 4 * s.nbSamples, J' i = J i) →
        ({ s with posRef := r } : Spec.ZebSettings K).totalCost k
          (({ s with posRef := r } : Spec.ZebSettings K).tiltCost
            (zTilt { s with posRef := r } L u' ps' s.roll s.contactX
              (({ s with posRef := r } : Spec.ZebSettings K).comX (w₁.state.shift a b) J')
              (({ s with posRef := r } : Spec.ZebSettings K).baseX (w₁.state.shift a b) J'))
            (zTilt { s with posRef := r } L u' ps' s.pitch s.contactY
              (({ s with posRef := r } : Spec.ZebSettings K).comY (w₁.state.shift a b) J')
              (({ s with posRef := r } : Spec.ZebSettings K).baseY (w₁.state.shift a b) J')))
          (({ s with posRef := r } : Spec.ZebSettings K).tiltCost
            (zTilt { s with posRef := r } L v' qs' s.roll s.contactX
              (({ s with posRef := r } : Spec.ZebSettings K).comX (w₁.state.shift a b) J')
              (({ s with posRef := r } : Spec.ZebSettings K).baseX (w₁.state.shift a b) J'))
            (zTilt { s with posRef := r } L v' qs' s.pitch s.contactY
              (({ s with posRef := r } : Spec.ZebSettings K).comY (w₁.state.shift a b) J')
              (({ s with posRef := r } : Spec.ZebSettings K).baseY (w₁.state.shift a b) J')))
          (w₁.state.shift a b) J'
        = s.totalCost k
          (s.tiltCost (zTilt s L u ps s.roll s.contactX (s.comX w₁.state J) (s.baseX w₁.state J))
            (zTilt s L u ps s.pitch s.contactY (s.comY w₁.state J) (s.baseY w₁.state J)))
          (s.tiltCost (zTilt s L v qs s.roll s.contactX (s.comX w₁.state J) (s.baseX w₁.state J))
            (zTilt s L v qs s.pitch s.contactY (s.comY w₁.state J) (s.baseY w₁.state J)))
          w₁.state J := by
      intro J J' hJ
      have e : ∀ i < s.nbSamples, _ := fun i hi => zPredict_shift (r := r) (z := w₁.state) (a := a) (b := b) hJ hi
      rw [totalCost_shift hM ht hp.2 hJ]
      congr 1
      · exact tiltCost_congr
          (fun i hi => zTilt_shift (fun i hi j hj => (cu i hi j hj).symm) (fun i hi j hj => (cps i hi j hj).symm) _ _ a
            (fun i hi => (e i hi).1) (fun i hi => (e i hi).2.2.1) hi)
          (fun i hi => zTilt_shift (fun i hi j hj => (cu i hi j hj).symm) (fun i hi j hj => (cps i hi j hj).symm) _ _ b
            (fun i hi => (e i hi).2.1) (fun i hi => (e i hi).2.2.2) hi)
      · exact tiltCost_congr
          (fun i hi => zTilt_shift (fun i hi j hj => (cv i hi j hj).symm) (fun i hi j hj => (cqs i hi j hj).symm) _ _ a
            (fun i hi => (e i hi).1) (fun i hi => (e i hi).2.2.1) hi)
          (fun i hi => zTilt_shift (fun i hi j hj => (cv i hi j hj).symm) (fun i hi j hj => (cqs i hi j hj).symm) _ _ b
            (fun i hi => (e i hi).2.1) (fun i hi => (e i hi).2.2.2) hi)
    dsimp only at key ⊢
    rw [key _ _ (hd d), key _ _ hX]
    ring
  have hle : ∀ x y, Spec.cost qp₂ x ≤ Spec.cost qp₂ y ↔ Spec.cost qp₁ x ≤ Spec.cost qp₁ y := by
    intro x y
    rw [← mul_le_mul_iff_right₀ hq₁.invObj_pos, hcost, hcost, mul_le_mul_iff_right₀ hq₂.invObj_pos]
  refine ⟨qp₁, qp₂, g₁, g₂, hfeas, fun d => ?_, fun o₁' o₂' b₁ b₂ w₁' w₂' ho e₁ e₂ => ?_⟩
  · unfold Spec.IsSolution
    refine and_congr (hfeas d) (forall_congr' fun y => ?_)
    rw [hfeas, hle]
  · obtain ⟨-, x₁, s₁, -⟩ := adv₁ o₁' b₁ w₁' e₁
    obtain ⟨-, x₂, s₂, -⟩ := adv₂ o₂' b₂ w₂' e₂
    have hX' : ∀ i < 4 * s.nbSamples, w₂'.X.get i = w₁'.X.get i := by
      intro i hi
      rw [x₁ i hi, x₂ i hi, hX i hi, ho i hi]
    refine ⟨hX', ?_⟩
    rw [s₁, s₂, hz]
    simp only [Spec.jerkCX, Spec.jerkCY, Spec.jerkBX, Spec.jerkBY]
    rw [hX' _ (by omega), hX' _ (by omega), hX' _ (by omega), hX' _ (by omega)]
    simp only [Spec.ZebState.driven, Spec.ZebState.shift, Spec.State3.shift, Spec.cubic, Spec.ZebState.mk.injEq,
      State3.mk.injEq, and_true]
    refine ⟨by ring, by ring, by ring, by ring⟩

/-- `zRestHistory` moved by `(7, -5)`. -/
def zMovedHistory : List (ZebCall ℚ) :=
  [.setBaseMass 2, .setBodyHeight (4 / 5), .setBaseHeight (1 / 10),
    .setCopPolygon ⟨4, fun i => [⟨1, 1⟩, ⟨-1, 1⟩, ⟨-1, -1⟩, ⟨1, -1⟩].getD i ⟨0, 0⟩⟩,
    .setComPolygon ⟨4, fun i => [⟨1, 1⟩, ⟨-1, 1⟩, ⟨-1, -1⟩, ⟨1, -1⟩].getD i ⟨0, 0⟩⟩,
    .setWeightings ⟨1, 1, 1, 1, 1, 1, 1⟩, .setConfig ⟨true, true, true, true⟩,
    .setBaseX ⟨3, fun i => if i = 0 then 10 else 0⟩, .setBaseY ⟨3, fun i => if i = 0 then -7 else 0⟩,
    .setComX ⟨3, fun i => if i = 0 then 21 / 2 else 0⟩, .setComY ⟨3, fun i => if i = 0 then -7 else 0⟩,
    .setPosRef ⟨2, fun i => if i = 0 then 10 else -7⟩, .setComRef ⟨2, fun i => if i = 0 then 1 / 2 else 0⟩,
    .setCopRef ⟨2, fun i => if i = 0 then 1 / 6 else 0⟩, .setContactX (1 / 4), .setContactY 0]

theorem zMoved_reaches (o : Oracle ℚ) : ∃ w, ZebReaches o trigZero 0 0 zMovedHistory w ∧
    w.state = ⟨⟨21 / 2, 0, 0⟩, ⟨-7, 0, 0⟩, ⟨10, 0, 0⟩, ⟨-7, 0, 0⟩⟩ ∧ ∀ i < 4, w.X.get i = 0 := by
  have h : okAnd (fun w : Zeb ℚ => decide (w.lip.x.p = 21 / 2 ∧ w.lip.x.v = 0 ∧ w.lip.x.a = 0) &&
        decide (w.lip.y.p = -7 ∧ w.lip.y.v = 0 ∧ w.lip.y.a = 0) && decide (w.base.x.p = 10 ∧ w.base.x.v = 0 ∧ w.base.x.a = 0) &&
        decide (w.base.y.p = -7 ∧ w.base.y.v = 0 ∧ w.base.y.a = 0) && zNoJerk w)
      (do Zeb.run (fun _ _ _ => (true, fun _ => 0)) trigZero (← Zeb.make trigZero (some 0, some 0)) zMovedHistory)
      = true := by
    decide +kernel
  obtain ⟨w, e, hc⟩ := okAnd_true h
  simp only [Bool.and_eq_true, decide_eq_true_eq] at hc
  obtain ⟨⟨⟨⟨⟨a1, a2, a3⟩, b1, b2, b3⟩, c1, c2, c3⟩, d1, d2, d3⟩, hX⟩ := hc
  refine ⟨w, ?_, ?_, zNoJerk_get hX⟩
  · rw [zReaches_setters _ _ (by decide) o] at e
    exact e
  · have ext : ∀ {x : State3 ℚ} {p : ℚ}, x.p = p → x.v = 0 → x.a = 0 → x = ⟨p, 0, 0⟩ := by
      rintro ⟨_, _, _⟩ _ rfl rfl rfl; rfl
    unfold Zeb.state
    rw [ext a1 a2 a3, ext b1 b2 b3, ext c1 c2 c3, ext d1 d2 d3]

/-- The hypotheses of `C67_translation` are met with all constraints and objectives on. -/
example (o₁ o₂ : Oracle ℚ) : ∃ w₁ w₂, ZebReaches o₁ trigZero 0 0 zRestHistory w₁ ∧
    ZebReaches o₂ trigZero 0 0 zMovedHistory w₂ ∧
    { zebSettingsOf 0 0 zRestHistory with posRef := (zebSettingsOf 0 0 zMovedHistory).posRef }
      = zebSettingsOf 0 0 zMovedHistory ∧
    ((zebSettingsOf (0 : ℚ) 0 zMovedHistory).posRef.size = (zebSettingsOf (0 : ℚ) 0 zRestHistory).posRef.size ∧
      ∀ i < (zebSettingsOf (0 : ℚ) 0 zRestHistory).nbSamples,
        (zebSettingsOf 0 0 zMovedHistory).posRef.get i = (zebSettingsOf 0 0 zRestHistory).posRef.get i + 7 ∧
        (zebSettingsOf 0 0 zMovedHistory).posRef.get ((zebSettingsOf (0 : ℚ) 0 zRestHistory).nbSamples + i)
          = (zebSettingsOf 0 0 zRestHistory).posRef.get ((zebSettingsOf (0 : ℚ) 0 zRestHistory).nbSamples + i) + -5) ∧
    (Spec.ZebSettings.init (0 : ℚ) 0).tiltHeight 0 zMovedHistory
      = (Spec.ZebSettings.init 0 0).tiltHeight 0 zRestHistory ∧
    (Spec.ZebSettings.init (0 : ℚ) 0).usedShift (0, 0) zMovedHistory
      = (Spec.ZebSettings.init 0 0).usedShift (0, 0) zRestHistory ∧
    w₂.state = w₁.state.shift 7 (-5) ∧
    (∀ i < 4 * (zebSettingsOf (0 : ℚ) 0 zRestHistory).nbSamples, w₂.X.get i = w₁.X.get i) ∧
    EPS < (zebSettingsOf (0 : ℚ) 0 zRestHistory).baseMass ∧ (zebSettingsOf (0 : ℚ) 0 zRestHistory).RefsCurrent := by
  obtain ⟨w₁, h₁, z₁, x₁⟩ := zRest_reaches o₁
  obtain ⟨w₂, h₂, z₂, x₂⟩ := zMoved_reaches o₂
  refine ⟨w₁, w₂, h₁, h₂, ?_, ⟨?_, ?_⟩, ?_, ?_, ?_, ?_, ?_, ?_⟩
  · simp only [zebSettingsOf, Spec.ZebSettings.after, zRestHistory, zMovedHistory, List.foldl, Spec.ZebSettings.apply]
  · rfl
  · show ∀ i < 1, _
    decide +kernel
  · decide +kernel
  · decide +kernel
  · rw [z₁, z₂]
    simp only [Spec.ZebState.shift, Spec.State3.shift, Spec.ZebState.mk.injEq, State3.mk.injEq]
    norm_num
  · intro i hi
    have hi : i < 4 := hi
    rw [x₁ i hi, x₂ i hi]
  · decide +kernel
  · exact ⟨rfl, rfl, rfl⟩

end MPC
