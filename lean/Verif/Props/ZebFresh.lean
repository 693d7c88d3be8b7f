import Verif.Props.ZebObjectives

/-!
# Property C49, and the parts of C15 and C43 on `ZebulonWalkgen`
-/

set_option linter.unusedSectionVars false

namespace MPC

open Finset

variable {K : Type} [Field K] [LinearOrder K] [IsStrictOrderedRing K] [FloorRing K]
variable {o : Oracle K} {tr : Trig K} {cx cy : K} {cs : List (ZebCall K)} {w w' : Zeb K} {fb : K}

/-! ### C49 -/

/-- Everything computed again from the current parameters: dynamics of both models, objectives, constraints and the
matrices of the QP, by the functions of the code. -/
def Zeb.recomputed (tr : Trig K) (w : Zeb K) : Res (Zeb K) := do
  let l ← w.lip.computeDynamics
  let b ← w.base.computeDynamics
  let w := { w with lip := l, base := b }
  let w ← w.refreshVel
  let w ← w.refreshPos
  let w ← w.refreshJerk
  let w ← w.refreshCop
  let w ← w.refreshCom
  let w ← w.refreshCopCtr
  let w ← w.refreshComCtr
  let w ← w.refreshBaseCtr
  let w ← w.refreshTiltCtr tr
  let w ← w.refreshTilt
  let w ← w.refreshTiltVel
  w.computeConstantPart

theorem zRecomputed_inv {s : Spec.ZebSettings K} {L : K} {k : K × K} (h : ZInv tr s L k w) :
    (s.TiltRegular → ∃ w', w.recomputed tr = .ok w') ∧
    ∀ w', w.recomputed tr = .ok w' → ZInv tr s s.baseHeight k w' := by
  have hu := h.part.user
  have hm := hu.model
  have hg := (hm.lf.pos hm.nb.2).2
  obtain ⟨l', el⟩ := Lip.refresh_ok hm.lf.auto hm.lf.N hm.lfbpos hm.lTpos hg.gz hg.le hg.total hg.mass
  obtain ⟨b', eb⟩ := Base.refresh_ok hm.bf.auto hm.bf.N hm.bf.T hm.bf.gz hm.bf.le hm.bf.total hm.bf.mass
  have hl := (Lip.refresh_fresh hm.lf.auto el).1
  obtain ⟨hb, hb'⟩ := Base.refresh_eq_ok hm.bf.auto eb
  obtain ⟨nb, vx, vy, p, v, a, j, hl'⟩ := Lip.refresh_eq_ok hm.lf.auto el
  have hm' : ZModel s l' b' := by
    subst hl' hb'
    exact ⟨hl, hb, hm.lN, hm.lT, hm.lfb, hm.lh, hm.lgx, hm.lgy, hm.lgz, hm.lm, hm.lt, hm.bN, hm.bT, hm.bh, hm.bgx,
      hm.bgy, hm.bgz, hm.bm, hm.bt⟩
  have h0 : ZPart tr s s.baseHeight k (fun o => o = .shift) { w with lip := l', base := b' } := by
    refine ⟨?_, ?_⟩
    · subst hb'
      exact { hu with model := hm' }
    · rintro o rfl
      exact h.part.fresh .shift trivial
  unfold Lip.refresh at el
  rw [if_pos hm.lf.auto] at el
  unfold Base.refresh at eb
  rw [if_pos hm.bf.auto] at eb
  unfold Zeb.recomputed
  rw [el, ok_bind, eb, ok_bind]
  dsimp only
  obtain ⟨w1, e1, h1, -, -⟩ := h0.refreshVel
  rw [e1, ok_bind]
  obtain ⟨w2, e2, h2, -, -⟩ := h1.refreshPos
  rw [e2, ok_bind]
  obtain ⟨w3, e3, h3, -, -⟩ := h2.refreshJerk
  rw [e3, ok_bind]
  obtain ⟨w4, e4, h4, -, -⟩ := h3.refreshCop
  rw [e4, ok_bind]
  obtain ⟨w5, e5, h5, -, -⟩ := h4.refreshCom
  rw [e5, ok_bind]
  obtain ⟨w6, e6, h6, -, -⟩ := h5.refreshCopCtr
  rw [e6, ok_bind]
  obtain ⟨w7, e7, h7, -, -⟩ := h6.refreshComCtr
  rw [e7, ok_bind]
  obtain ⟨w8, e8, h8, -, -⟩ := h7.refreshBaseCtr
  rw [e8, ok_bind]
  obtain ⟨w9, e9, h9, -, -⟩ := h8.refreshTiltCtr
  rw [e9, ok_bind]
  have key : s.TiltRegular → ∃ w', (do
      let w ← w9.refreshTilt
      let w ← w.refreshTiltVel
      w.computeConstantPart) = .ok w' ∧ ZInv tr s s.baseHeight k w' := by
    intro hr
    obtain ⟨w10, e10, h10, -, -⟩ := h9.refreshTilt hr
    rw [e10, ok_bind]
    obtain ⟨w11, e11, h11, -, -⟩ := h10.refreshTiltVel hr
    rw [e11, ok_bind]
    obtain ⟨w12, e12, h12, -⟩ := h11.computeConstantPart (fun o => by cases o <;> simp)
    exact ⟨w12, e12, h12⟩
  refine ⟨fun hr => ?_, fun w' e => ?_⟩
  · obtain ⟨w', e, -⟩ := key hr
    exact ⟨w', e⟩
  · obtain ⟨w'', e', h'⟩ := key (zRegular_of_tilt h9 e)
    rw [e] at e'
    cases e'
    exact h'

/-- **C49 (partial).** In every reachable state, all cached matrices except those of the two tilt objectives equal the
ones recomputed from the current parameters: the Hessians of the five other objectives, the gradients of the four
constraints, and the constraint matrix of the QP. Missing: the tilt objectives (false, `C49_violated`; see
`C49_tilt_partial`). -/
theorem C49_others_partial (hw : ZebReaches o tr cx cy cs w) (hr : w.recomputed tr = .ok w') :
    w.velObj.hessian.Same w'.velObj.hessian ∧ w.posObj.hessian.Same w'.posObj.hessian ∧ w.jerkH.Same w'.jerkH ∧
    w.copObj.hessian.Same w'.copObj.hessian ∧ w.comObj.hessian.Same w'.comObj.hessian ∧
    w.copCtr.gradient.Same w'.copCtr.gradient ∧ w.copCtr.A.Same w'.copCtr.A ∧ w.copCtr.b.Same w'.copCtr.b ∧
    w.comCtr.gradient.Same w'.comCtr.gradient ∧ w.comCtr.A.Same w'.comCtr.A ∧ w.comCtr.b.Same w'.comCtr.b ∧
    w.baseCtr.gradient.Same w'.baseCtr.gradient ∧ w.tiltCtr.Same w'.tiltCtr ∧ w.qp.A.Same w'.qp.A := by
  have h := zReachable_inv hw
  change ZInv tr (zebSettingsOf cx cy cs) _ _ w at h
  generalize zebSettingsOf cx cy cs = s at *
  have h' := (zRecomputed_inv h).2 w' hr
  have vs : ∀ {a b : Vec K} {n : ℕ} {f : ℕ → K}, a.Is n f → b.Is n f → a.Same b := by
    intro a b n f ha hb
    refine ⟨ha.1.trans hb.1.symm, fun i hi => ?_⟩
    rw [ha.1] at hi
    rw [ha.2 i hi, hb.2 i hi]
  have p := h.part.fresh
  have p' := h'.part.fresh
  have cop : w.copCtr.Is s.nbSamples s.copPolygon (zCopD s) := p .copCtr trivial
  have cop' : w'.copCtr.Is s.nbSamples s.copPolygon (zCopD s) := p' .copCtr trivial
  have com : w.comCtr.Is s.nbSamples s.comPolygon (zComD s) := p .comCtr trivial
  have com' : w'.comCtr.Is s.nbSamples s.comPolygon (zComD s) := p' .comCtr trivial
  obtain ⟨g, eg, hg⟩ : ∃ g, w.baseCtr = ⟨g, s.nbSamples⟩ ∧ g.Is (4 * s.nbSamples) (2 * s.nbSamples) (zBaseD s) :=
    p .baseCtr trivial
  obtain ⟨g', eg', hg'⟩ : ∃ g, w'.baseCtr = ⟨g, s.nbSamples⟩ ∧ g.Is (4 * s.nbSamples) (2 * s.nbSamples) (zBaseD s) :=
    p' .baseCtr trivial
  obtain ⟨A, eA, fA, hA⟩ := h.qp.A
  obtain ⟨A', eA', fA', hA'⟩ := h'.qp.A
  obtain ⟨B, eB, hB⟩ := zBuildA_ok h.part
  obtain ⟨B', eB', hB'⟩ := zBuildA_ok h'.part
  rw [eB] at eA; cases eA
  rw [eB'] at eA'; cases eA'
  have sB : A.Same A' := hB.same hB' fun _ _ _ _ => rfl
  rw [getNormalizationFactor_ok _ EPS EPS_pos.le] at fA fA'
  have fA := Except.ok.inj fA
  have fA' := Except.ok.inj fA'
  refine ⟨Mat.Is.same (p .vel trivial) (p' .vel trivial) fun _ _ _ _ => rfl,
    Mat.Is.same (p .pos trivial) (p' .pos trivial) fun _ _ _ _ => rfl, ?_,
    Mat.Is.same (p .cop trivial).1 (p' .cop trivial).1 fun _ _ _ _ => rfl,
    Mat.Is.same (p .com trivial) (p' .com trivial) fun _ _ _ _ => rfl,
    cop.gradient.same cop'.gradient fun _ _ _ _ => rfl, cop.A.same cop'.A fun _ _ _ _ => rfl, vs cop.b cop'.b,
    com.gradient.same com'.gradient fun _ _ _ _ => rfl, com.A.same com'.A fun _ _ _ _ => rfl, vs com.b com'.b, ?_,
    Mat.Is.same (p .tiltCtr trivial) (p' .tiltCtr trivial) fun _ _ _ _ => rfl, ?_⟩
  · have e : w.jerkH = Mat.one (4 * s.nbSamples) := p .jerk trivial
    have e' : w'.jerkH = Mat.one (4 * s.nbSamples) := p' .jerk trivial
    rw [e, e']
    exact ⟨rfl, rfl, fun _ _ _ _ => rfl⟩
  · rw [eg, eg']
    exact hg.same hg' fun _ _ _ _ => rfl
  · have e : w.invCtr = w'.invCtr := by rw [← fA, ← fA', smallestSignificant_congr sB]
    rw [hA, hA', e]
    refine (hB.smul _).same (hB'.smul _) fun _ _ _ _ => rfl

/-- **C49 (partial).** If the base height did not change since the tilt objectives were last refreshed, the matrices
of the tilt objectives and the objective matrix of the QP also equal the recomputed ones. In any case the matrices
kept by the QP solver for its next call are the current ones. Missing: a change of the base height (false,
`C49_violated`). -/
theorem C49_tilt_partial (hw : ZebReaches o tr cx cy cs w) (hr : w.recomputed tr = .ok w') :
    ((Spec.ZebSettings.init cx cy).tiltHeight 0 cs = (zebSettingsOf cx cy cs).baseHeight →
      w.tiltObj.hessian.Same w'.tiltObj.hessian ∧ w.tiltVelObj.hessian.Same w'.tiltVelObj.hessian ∧
      (∀ X, ∀ i < (zebSettingsOf cx cy cs).nbSamples, w.tiltX w.tiltObj X i = w.tiltX w'.tiltObj X i ∧
        w.tiltY w.tiltObj X i = w.tiltY w'.tiltObj X i ∧ w.tiltX w.tiltVelObj X i = w.tiltX w'.tiltVelObj X i ∧
        w.tiltY w.tiltVelObj X i = w.tiltY w'.tiltVelObj X i) ∧
      w.qp.Q.Same w'.qp.Q ∧ w.invObj = w'.invObj) ∧
    (w.solver.initialized = true → w.solver.Q = w.qp.Q ∧ w.solver.A = w.qp.A) := by
  have h := zReachable_inv hw
  change ZInv tr (zebSettingsOf cx cy cs) _ _ w at h
  generalize zebSettingsOf cx cy cs = s at *
  generalize (Spec.ZebSettings.init cx cy).tiltHeight 0 cs = L at *
  refine ⟨fun hL => ?_, h.qp.warm⟩
  subst hL
  have h' := (zRecomputed_inv h).2 w' hr
  obtain ⟨u, ps, ht, hts⟩ : ∃ u ps, w.tiltObj.Is s s.baseHeight s.contactX s.contactY u ps ∧ TiltSol s s.baseHeight u ps :=
    h.part.fresh .tilt trivial
  obtain ⟨v, qs, hv, hvs⟩ : ∃ u ps, w.tiltVelObj.Is s s.baseHeight s.contactX s.contactY u ps ∧
    TiltVelSol s s.baseHeight u ps := h.part.fresh .tiltVel trivial
  obtain ⟨u', ps', ht', hts'⟩ : ∃ u ps, w'.tiltObj.Is s s.baseHeight s.contactX s.contactY u ps ∧
    TiltSol s s.baseHeight u ps := h'.part.fresh .tilt trivial
  obtain ⟨v', qs', hv', hvs'⟩ : ∃ u ps, w'.tiltVelObj.Is s s.baseHeight s.contactX s.contactY u ps ∧
    TiltVelSol s s.baseHeight u ps := h'.part.fresh .tiltVel trivial
  obtain ⟨c1, c1'⟩ := hts.unique hts'
  obtain ⟨c2, c2'⟩ := hvs.unique hvs'
  have ze : ∀ {u u' ps ps' : ℕ → ℕ → K}, (∀ i < s.nbSamples, ∀ j < s.nbSamples, u i j = u' i j) →
      (∀ i < s.nbSamples, ∀ j < 2, ps i j = ps' i j) → ∀ tilt c (com base : ℕ → State3 K), ∀ i < s.nbSamples,
      zTilt s s.baseHeight u ps tilt c com base i = zTilt s s.baseHeight u' ps' tilt c com base i := by
    intro u u' ps ps' h h' tilt c com base i hi
    unfold zTilt
    rw [sum_congr rfl fun j hj => by rw [h i hi j (mem_range.1 hj)], h' i hi 0 (by omega), h' i hi 1 (by omega)]
  obtain ⟨i1, -, hQ, -⟩ := zMats_same h h' rfl
  refine ⟨ht.hessian.same ht'.hessian fun i _ j _ => gram_zTiltD_congr c1 i j,
    hv.hessian.same hv'.hessian fun i _ j _ => gram_zTiltD_congr c2 i j, fun X i hi => ⟨?_, ?_, ?_, ?_⟩, hQ, i1⟩
  · rw [tiltX_eq h.part.user ht X hi, tiltX_eq h.part.user ht' X hi]; exact ze c1 c1' _ _ _ _ i hi
  · rw [tiltY_eq h.part.user ht X hi, tiltY_eq h.part.user ht' X hi]; exact ze c1 c1' _ _ _ _ i hi
  · rw [tiltX_eq h.part.user hv X hi, tiltX_eq h.part.user hv' X hi]; exact ze c2 c2' _ _ _ _ i hi
  · rw [tiltY_eq h.part.user hv X hi, tiltY_eq h.part.user hv' X hi]; exact ze c2 c2' _ _ _ _ i hi

/-- History of the example of C49. -/
def zTiltCurrentHistory : List (ZebCall ℚ) :=
  [.setBaseMass 1, .setBaseHeight 1, .setBodyHeight 2, .setWeightings ⟨1, 1, 1, 1, 1, 1, 1⟩]

/-- A history of calls without `solve`, run in the kernel with its recomputation. -/
theorem zRecomputed_reaches {cs : List (ZebCall ℚ)} (P : Zeb ℚ → Zeb ℚ → Bool)
    (h : okAnd (fun r : Zeb ℚ × Zeb ℚ => P r.1 r.2)
      (do let w ← Zeb.run (fun _ _ _ => (true, fun _ => 0)) trigZero (← Zeb.make trigZero (some 0, some 0)) cs
          let w' ← w.recomputed trigZero
          pure (w, w')) = true)
    (hs : ∀ c ∈ cs, c.isSetter = true) (o : Oracle ℚ) :
    ∃ w w', ZebReaches o trigZero 0 0 cs w ∧ w.recomputed trigZero = .ok w' ∧ P w w' = true := by
  obtain ⟨⟨w, w'⟩, e, hP⟩ := okAnd_true h
  obtain ⟨w0, e0, e⟩ := bind_eq_ok.1 e
  obtain ⟨w1, e1, e⟩ := bind_eq_ok.1 e
  obtain ⟨w2, e2, e⟩ := bind_eq_ok.1 e
  cases e
  refine ⟨w, w', ?_, e2, hP⟩
  have e' : (do Zeb.run (fun _ _ _ => (true, fun _ => 0)) trigZero (← Zeb.make trigZero (some 0, some 0)) cs) = .ok w := by
    rw [e0, ok_bind, e1]
  rw [zReaches_setters _ _ hs o] at e'
  exact e'

/-- The hypotheses of the partial theorems of C49 are met by `zTiltCurrentHistory`. -/
example (o : Oracle ℚ) : ∃ w w', ZebReaches o trigZero 0 0 zTiltCurrentHistory w ∧ w.recomputed trigZero = .ok w' ∧
    (Spec.ZebSettings.init (0 : ℚ) 0).tiltHeight 0 zTiltCurrentHistory
      = (zebSettingsOf (0 : ℚ) 0 zTiltCurrentHistory).baseHeight := by
  obtain ⟨w, w', h, e, -⟩ := zRecomputed_reaches (fun _ _ => true) (cs := zTiltCurrentHistory) (by decide +kernel)
    (by decide) o
  exact ⟨w, w', h, e, rfl⟩

/-- History of the violation of C49: the base height is set last. -/
def zHeightHistory : List (ZebCall ℚ) :=
  [.setBaseMass 1, .setWeightings ⟨0, 0, 0, 0, 0, 1, 0⟩, .setBaseHeight 1]

/-- **C49 is violated.** After a change of the base height the generator solves with the matrix of a tilt objective, and
an objective matrix, that differ from the recomputed ones, even up to normalization. -/
theorem C49_violated (o : Oracle ℚ) : ∃ w w', ZebReaches o trigZero 0 0 zHeightHistory w ∧
    w.recomputed trigZero = .ok w' ∧ w.tiltObj.hessian.get 0 0 ≠ w'.tiltObj.hessian.get 0 0 ∧
    w.qp.Q.get 0 0 * w'.invObj ≠ w'.qp.Q.get 0 0 * w.invObj ∧ ∃ qp, ZebGives trigZero w 1 qp ∧ qp.Q = w.qp.Q := by
  obtain ⟨w, w', h, e, hP⟩ := zRecomputed_reaches (fun w w' =>
    decide (w.tiltObj.hessian.get 0 0 ≠ w'.tiltObj.hessian.get 0 0) &&
      decide (w.qp.Q.get 0 0 * w'.invObj ≠ w'.qp.Q.get 0 0 * w.invObj)) (cs := zHeightHistory) (by decide +kernel)
    (by decide) o
  simp only [Bool.and_eq_true, decide_eq_true_eq] at hP
  obtain ⟨qp, u, ps, v, qs, hg, hq, -⟩ := zebGives_of_inv (zReachable_inv h) (by exact ⟨rfl, rfl, rfl⟩)
    (fb := 1) one_pos
  exact ⟨w, w', h, e, hP.1, hP.2, qp, hg, hq.Q0⟩

/-! ### C15 and C43 for this generator -/

/-- **C15 is violated at the level of the generator**: `solve` returns `true` whatever qpOASES reports. -/
theorem C15_zebulon_hides_failure (o' : Oracle K) (hw : ZebReaches o tr cx cy cs w)
    (hr : (zebSettingsOf cx cy cs).RefsCurrent) (hfb : 0 < fb) : ∃ w', w.solve o' tr fb = .ok (true, w') := by
  obtain ⟨_, _, _, _, _, _, _, e⟩ := zebGives_of_inv (zReachable_inv hw) hr hfb
  exact ⟨_, e o'⟩

/-- **C43 is violated**: `setWeightings` accepts negative weightings of the position tracking (it checks the velocity
weighting twice) and of the tilt velocity (it does not check it) in every reachable state. -/
theorem C43_zebulon_accepts_negative (o' : Oracle K) (hw : ZebReaches o tr cx cy cs w) (wp wv : K) (_ : wp < 0)
    (_ : wv < 0) : ∃ b w', w.step o' tr (.setWeightings
        { velocityTracking := 0, positionTracking := wp, copCentering := 0, comCentering := 0, jerkMinimization := 0
          tiltMinimization := 0, tiltVelMinimization := wv }) = .ok (b, w') ∧
      w'.weighting.positionTracking = wp ∧ w'.weighting.tiltVelMinimization = wv := by
  obtain ⟨b, w', e, h'⟩ := zStep_ok (zReachable_inv hw) o' (.setWeightings
        { velocityTracking := 0, positionTracking := wp, copCentering := 0, comCentering := 0, jerkMinimization := 0
          tiltMinimization := 0, tiltVelMinimization := wv }) ⟨le_rfl, le_rfl, le_rfl, le_rfl, le_rfl⟩
  refine ⟨b, w', e, ?_, ?_⟩ <;> rw [h'.part.user.weighting] <;> rfl

/-- **C43 (partial).** The five other weightings are checked, and so is the vertical component of the gravity. -/
theorem C43_zebulon_partial (o' : Oracle K) (hw : ZebReaches o tr cx cy cs w) :
    (∀ wt, (∃ r, w.step o' tr (.setWeightings wt) = .ok r) ↔ 0 ≤ wt.copCentering ∧ 0 ≤ wt.comCentering ∧
      0 ≤ wt.velocityTracking ∧ 0 ≤ wt.jerkMinimization ∧ 0 ≤ wt.tiltMinimization) ∧
    ∀ gx gy gz, (∃ r, w.step o' tr (.setGravity gx gy gz) = .ok r) ↔ EPS < |gz| := by
  have h := zReachable_inv hw
  refine ⟨fun wt => ⟨?_, fun hp => ?_⟩, fun gx gy gz => ⟨?_, fun hp => ?_⟩⟩
  · rintro ⟨r, e⟩; exact zCodePre_of_ok h o' _ e
  · obtain ⟨_, _, e, _⟩ := zStep_ok h o' (.setWeightings wt) hp
    exact ⟨_, e⟩
  · rintro ⟨r, e⟩; exact zCodePre_of_ok h o' _ e
  · obtain ⟨_, _, e, _⟩ := zStep_ok h o' (.setGravity gx gy gz) hp
    exact ⟨_, e⟩

/-- The hypotheses of the theorems on C15 and C43 are met by `zExampleHistory`. -/
example (o : Oracle ℚ) (tr : Trig ℚ) (cx cy : ℚ) : ∃ w, ZebReaches o tr cx cy zExampleHistory w ∧
    (zebSettingsOf cx cy zExampleHistory).RefsCurrent := by
  obtain ⟨w, hw⟩ := C54_no_fault_partial o tr cx cy _ (zExample_legal cx cy).1 (zExample_legal cx cy).2
  exact ⟨w, hw, rfl, rfl, rfl⟩

/-- **C43 (partial): base model.** When the model recomputes its dynamics by itself, gravity vectors accepted by its
`setGravity` have a non zero vertical component, although its assertion reads the old gravity. -/
theorem C43_base_partial {b b' : Base K} (ha : b.auto = true) {gx gy gz : K} (e : b.setGravity gx gy gz = .ok b') :
    EPS < |gz| ∧ b'.gz = gz := by
  obtain ⟨_, -, e⟩ := bind_eq_ok.1 e
  unfold Base.refreshCop at e
  rw [if_pos ha] at e
  obtain ⟨b1, e1, e2⟩ := bind_eq_ok.1 e
  obtain ⟨d1, f1, r1⟩ := bind_eq_ok.1 e1
  obtain ⟨d2, f2, r2⟩ := bind_eq_ok.1 e2
  cases r1
  cases r2
  refine ⟨?_, rfl⟩
  unfold computeCopDynamic at f1
  obtain ⟨_, -, f1⟩ := bind_eq_ok.1 f1
  obtain ⟨_, -, f1⟩ := bind_eq_ok.1 f1
  obtain ⟨_, -, f1⟩ := bind_eq_ok.1 f1
  obtain ⟨_, f1, -⟩ := bind_eq_ok.1 f1
  exact require_eq_ok.1 f1

/-- The hypotheses of `C43_base_partial` are met by a new model. -/
example : ∃ b b' : Base ℚ, Base.make 2 1 true = .ok b ∧ b.auto = true ∧ b.setGravity 1 0 10 = .ok b' := by
  have h : okAnd (fun r : Base ℚ × Base ℚ => r.1.auto)
      (do let b ← Base.make 2 (1 : ℚ) true
          let b' ← b.setGravity 1 0 10
          pure (b, b')) = true := by decide +kernel
  obtain ⟨⟨b, b'⟩, e, ha⟩ := okAnd_true h
  obtain ⟨b1, e1, e⟩ := bind_eq_ok.1 e
  obtain ⟨b2, e2, e⟩ := bind_eq_ok.1 e
  cases e
  exact ⟨b, b', e1, ha, e2⟩

/-- **C43 is violated: base model.** A model that does not recompute its dynamics by itself accepts every gravity
vector, also with a zero vertical component, because the assertion reads the old gravity. -/
theorem C43_base_accepts_zero (N : ℕ) (T : K) (hN : 0 < N) (hT : 0 < T) (gx gy gz : K) :
    ∃ b b', Base.make N T false = .ok b ∧ b.setGravity gx gy gz = .ok b' ∧ b'.gz = gz := by
  have hg : EPS < |(Base.raw N T false (some 0) (some 0)).gz| := by
    show EPS < |(981 / 100 : K)|
    rw [abs_of_pos (by norm_num)]
    norm_num [EPS]
  refine ⟨Base.raw N T false (some 0) (some 0),
    { Base.raw N T false (some 0) (some 0) with gx := gx, gy := gy, gz := gz }, ?_, ?_, rfl⟩
  · unfold Base.make
    rw [require_pos hT, require_pos hN]
    rfl
  · unfold Base.setGravity
    rw [require_pos hg]
    rfl

end MPC
