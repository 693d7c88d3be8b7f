import Verif.Lemmas.ZebBoost
import Verif.Props.ZebRest
import Verif.Props.Line

/-!
# C101: `ZebulonWalkgen` does the same in a frame that moves at a constant velocity

Statements: `Verif.Spec.ZebBoost`.
-/

set_option linter.unusedSectionVars false

namespace MPC

open Finset

variable {K : Type} [Field K] [LinearOrder K] [IsStrictOrderedRing K] [FloorRing K]

variable {o : Oracle K} {tr : Trig K} {cx cy : K} {cs : List (ZebCall K)} {w : Zeb K} {fb : K}

/-- **C101, one call.** Two generators, after whatever histories, with the same settings and planned jerks, whose states and
references are those seen from two frames, one of which moves at a constant velocity with respect to the other: both QPs have
the same feasible points and the same solutions, and equal answers give equal jerks and states that are again those seen
from the two frames. The base motion constraint, which limits the absolute velocity, is off; with the heading constraint the
velocity of the frame is along the heading. -/
theorem C101_frame {o₁ o₂ : Oracle K} {cx₁ cy₁ cx₂ cy₂ : K} {cs₁ cs₂ : List (ZebCall K)} {w₁ w₂ : Zeb K}
    (hw₁ : ZebReaches o₁ tr cx₁ cy₁ cs₁ w₁) (hw₂ : ZebReaches o₂ tr cx₂ cy₂ cs₂ w₂) (ux uy a b : K)
    (hs : { zebSettingsOf cx₁ cy₁ cs₁ with
        velRef := (zebSettingsOf cx₂ cy₂ cs₂).velRef
        posRef := (zebSettingsOf cx₂ cy₂ cs₂).posRef } = zebSettingsOf cx₂ cy₂ cs₂)
    (hv : (zebSettingsOf cx₂ cy₂ cs₂).velRef.size = (zebSettingsOf cx₁ cy₁ cs₁).velRef.size ∧
      ∀ i < (zebSettingsOf cx₁ cy₁ cs₁).nbSamples,
        (zebSettingsOf cx₂ cy₂ cs₂).velRef.get i = (zebSettingsOf cx₁ cy₁ cs₁).velRef.get i + ux ∧
        (zebSettingsOf cx₂ cy₂ cs₂).velRef.get ((zebSettingsOf cx₁ cy₁ cs₁).nbSamples + i)
          = (zebSettingsOf cx₁ cy₁ cs₁).velRef.get ((zebSettingsOf cx₁ cy₁ cs₁).nbSamples + i) + uy)
    (hp : (zebSettingsOf cx₂ cy₂ cs₂).posRef.size = (zebSettingsOf cx₁ cy₁ cs₁).posRef.size ∧
      ∀ i < (zebSettingsOf cx₁ cy₁ cs₁).nbSamples,
        (zebSettingsOf cx₂ cy₂ cs₂).posRef.get i = (zebSettingsOf cx₁ cy₁ cs₁).posRef.get i
          + (a + ux * ((i + 1) * (zebSettingsOf cx₁ cy₁ cs₁).period)) ∧
        (zebSettingsOf cx₂ cy₂ cs₂).posRef.get ((zebSettingsOf cx₁ cy₁ cs₁).nbSamples + i)
          = (zebSettingsOf cx₁ cy₁ cs₁).posRef.get ((zebSettingsOf cx₁ cy₁ cs₁).nbSamples + i)
          + (b + uy * ((i + 1) * (zebSettingsOf cx₁ cy₁ cs₁).period)))
    (hL : (Spec.ZebSettings.init cx₂ cy₂).tiltHeight 0 cs₂ = (Spec.ZebSettings.init cx₁ cy₁).tiltHeight 0 cs₁)
    (hk : (Spec.ZebSettings.init cx₂ cy₂).usedShift (0, 0) cs₂ = (Spec.ZebSettings.init cx₁ cy₁).usedShift (0, 0) cs₁)
    (hz : w₂.state = w₁.state.boost ux uy a b)
    (hX : ∀ i < 4 * (zebSettingsOf cx₁ cy₁ cs₁).nbSamples, w₂.X.get i = w₁.X.get i)
    (hM : (zebSettingsOf cx₁ cy₁ cs₁).baseMass = 0 ∨ EPS < (zebSettingsOf cx₁ cy₁ cs₁).baseMass)
    (hT : EPS < (zebSettingsOf cx₁ cy₁ cs₁).period) (hb : (zebSettingsOf cx₁ cy₁ cs₁).config.base = false)
    (hh : (zebSettingsOf cx₁ cy₁ cs₁).config.tilt = true → 
      tr.sin (zebSettingsOf cx₁ cy₁ cs₁).yaw.p * ux - tr.cos (zebSettingsOf cx₁ cy₁ cs₁).yaw.p * uy = 0)
    (hr : (zebSettingsOf cx₁ cy₁ cs₁).RefsCurrent) (hfb : 0 < fb) :
    ∃ qp₁ qp₂, ZebGives tr w₁ fb qp₁ ∧ ZebGives tr w₂ fb qp₂ ∧
      (∀ d, Spec.Feasible qp₂ d ↔ Spec.Feasible qp₁ d) ∧ (∀ d, Spec.IsSolution qp₂ d ↔ Spec.IsSolution qp₁ d) ∧
      ∀ (o₁' o₂' : Oracle K) b₁ b₂ w₁' w₂',
        (∀ i < 4 * (zebSettingsOf cx₁ cy₁ cs₁).nbSamples,
          (o₂' w₂.solver.calls qp₂ 10000).2 i = (o₁' w₁.solver.calls qp₁ 10000).2 i) →
        w₁.solve o₁' tr fb = .ok (b₁, w₁') → w₂.solve o₂' tr fb = .ok (b₂, w₂') →
        (∀ i < 4 * (zebSettingsOf cx₁ cy₁ cs₁).nbSamples, w₂'.X.get i = w₁'.X.get i) ∧
        w₂'.state = w₁'.state.boost ux uy (a + ux * fb) (b + uy * fb) := by
  have h₁ := zReachable_inv hw₁
  have h₂ := zReachable_inv hw₂
  have eN : (zebSettingsOf cx₂ cy₂ cs₂).nbSamples = (zebSettingsOf cx₁ cy₁ cs₁).nbSamples := by rw [← hs]
  have hr₂ : (zebSettingsOf cx₂ cy₂ cs₂).RefsCurrent := by
    refine ⟨?_, ?_, ?_⟩
    · rw [hv.1, eN]; exact hr.1
    · rw [hp.1, eN]; exact hr.2.1
    · rw [eN, ← hr.2.2, ← hs]
  obtain ⟨qp₁, g₁, adv₁⟩ := C66_advance hw₁ hr hfb
  obtain ⟨qp₂, g₂, adv₂⟩ := C66_advance hw₂ hr₂ hfb
  obtain ⟨q₁, u, ps, v, qs, g₁', hq₁, -⟩ := zebGives_of_inv h₁ hr hfb
  obtain rfl := g₁.unique h₁ g₁'
  obtain ⟨q₂, u', ps', v', qs', g₂', hq₂, -⟩ := zebGives_of_inv h₂ hr₂ hfb
  obtain rfl := g₂.unique h₂ g₂'
  obtain ⟨q₁, f₁', f₁⟩ := C57_constraints hw₁ hr hfb
  obtain rfl := g₁.unique h₁ f₁'
  obtain ⟨q₂, f₂', f₂⟩ := C57_constraints hw₂ hr₂ hfb
  obtain rfl := g₂.unique h₂ f₂'
  have ht : (zebSettingsOf cx₁ cy₁ cs₁).bodyMass + (zebSettingsOf cx₁ cy₁ cs₁).baseMass ≠ 0 :=
    h₁.part.user.model.total_pos.ne'
  have hN : 0 < (zebSettingsOf cx₁ cy₁ cs₁).nbSamples := h₁.part.user.model.N_pos
  change ZPrep tr (zebSettingsOf cx₁ cy₁ cs₁) _ _ w₁ u ps v qs qp₁ at hq₁
  change ZPrep tr (zebSettingsOf cx₂ cy₂ cs₂) _ _ w₂ u' ps' v' qs' qp₂ at hq₂
  rw [hL, hk] at hq₂
  generalize (Spec.ZebSettings.init cx₁ cy₁).tiltHeight 0 cs₁ = L at *
  generalize (Spec.ZebSettings.init cx₁ cy₁).usedShift (0, 0) cs₁ = k at *
  generalize zebSettingsOf cx₁ cy₁ cs₁ = s at *
  generalize zebSettingsOf cx₂ cy₂ cs₂ = s₂ at *
  generalize s₂.posRef = r at *
  generalize s₂.velRef = rv at *
  subst hs
  obtain ⟨cu, cps⟩ := hq₁.sol.unique (⟨hq₂.sol.inv, hq₂.sol.ps⟩ : TiltSol s L u' ps')
  obtain ⟨cv, cqs⟩ := hq₁.velSol.unique (⟨hq₂.velSol.inv, hq₂.velSol.ps⟩ : TiltVelSol s L v' qs')
  have hd : ∀ d : ℕ → K, ∀ i < 4 * s.nbSamples, w₂.X.get i + d i = w₁.X.get i + d i := fun d i hi => by rw [hX i hi]
  have hfeas : ∀ d, Spec.Feasible qp₂ d ↔ Spec.Feasible qp₁ d := by
    intro d
    rw [f₁, f₂, hz]
    exact zAllowed_boost hT hM ht hX (hd d) _ _ hb hh
  have hcost : ∀ d, w₁.invObj * Spec.cost qp₂ d = w₂.invObj * Spec.cost qp₁ d := by
    intro d
    rw [zCost hq₁, zCost hq₂, hz]
    have key : ∀ J J' : ℕ → K, (∀ i < 4 * s.nbSamples, J' i = J i) →
        ({ s with velRef := rv, posRef := r } : Spec.ZebSettings K).totalCost k
          (({ s with velRef := rv, posRef := r } : Spec.ZebSettings K).tiltCost
            (zTilt { s with velRef := rv, posRef := r } L u' ps' s.roll s.contactX
              (({ s with velRef := rv, posRef := r } : Spec.ZebSettings K).comX (w₁.state.boost ux uy a b) J')
              (({ s with velRef := rv, posRef := r } : Spec.ZebSettings K).baseX (w₁.state.boost ux uy a b) J'))
            (zTilt { s with velRef := rv, posRef := r } L u' ps' s.pitch s.contactY
              (({ s with velRef := rv, posRef := r } : Spec.ZebSettings K).comY (w₁.state.boost ux uy a b) J')
              (({ s with velRef := rv, posRef := r } : Spec.ZebSettings K).baseY (w₁.state.boost ux uy a b) J')))
          (({ s with velRef := rv, posRef := r } : Spec.ZebSettings K).tiltCost
            (zTilt { s with velRef := rv, posRef := r } L v' qs' s.roll s.contactX
              (({ s with velRef := rv, posRef := r } : Spec.ZebSettings K).comX (w₁.state.boost ux uy a b) J')
              (({ s with velRef := rv, posRef := r } : Spec.ZebSettings K).baseX (w₁.state.boost ux uy a b) J'))
            (zTilt { s with velRef := rv, posRef := r } L v' qs' s.pitch s.contactY
              (({ s with velRef := rv, posRef := r } : Spec.ZebSettings K).comY (w₁.state.boost ux uy a b) J')
              (({ s with velRef := rv, posRef := r } : Spec.ZebSettings K).baseY (w₁.state.boost ux uy a b) J')))
          (w₁.state.boost ux uy a b) J'
        = s.totalCost k
          (s.tiltCost (zTilt s L u ps s.roll s.contactX (s.comX w₁.state J) (s.baseX w₁.state J))
            (zTilt s L u ps s.pitch s.contactY (s.comY w₁.state J) (s.baseY w₁.state J)))
          (s.tiltCost (zTilt s L v qs s.roll s.contactX (s.comX w₁.state J) (s.baseX w₁.state J))
            (zTilt s L v qs s.pitch s.contactY (s.comY w₁.state J) (s.baseY w₁.state J)))
          w₁.state J := by
      intro J J' hJ
      have e : ∀ i < s.nbSamples, _ := fun i hi => zPredict_boost (rv := rv) (r := r) (z := w₁.state) (ux := ux) (uy := uy) (a := a) (b := b) hT hJ hi
      rw [totalCost_boost hT hM ht hv.2 hp.2 hJ]
      congr 1
      · exact tiltCost_congr₂
          (fun i hi => zTilt_boost (fun i hi j hj => (cu i hi j hj).symm) (fun i hi j hj => (cps i hi j hj).symm) _ _ ux _
            (fun i hi => (e i hi).1) (fun i hi => (e i hi).2.2.1) hi)
          (fun i hi => zTilt_boost (fun i hi j hj => (cu i hi j hj).symm) (fun i hi j hj => (cps i hi j hj).symm) _ _ uy _
            (fun i hi => (e i hi).2.1) (fun i hi => (e i hi).2.2.2) hi)
      · exact tiltCost_congr₂
          (fun i hi => zTilt_boost (fun i hi j hj => (cv i hi j hj).symm) (fun i hi j hj => (cqs i hi j hj).symm) _ _ ux _
            (fun i hi => (e i hi).1) (fun i hi => (e i hi).2.2.1) hi)
          (fun i hi => zTilt_boost (fun i hi j hj => (cv i hi j hj).symm) (fun i hi j hj => (cqs i hi j hj).symm) _ _ uy _
            (fun i hi => (e i hi).2.1) (fun i hi => (e i hi).2.2.2) hi)
    dsimp only at key ⊢
    rw [key _ _ (hd d), key _ _ hX]
    ring
  have hle : ∀ x y, Spec.cost qp₂ x ≤ Spec.cost qp₂ y ↔ Spec.cost qp₁ x ≤ Spec.cost qp₁ y := by
    intro x y
    rw [← mul_le_mul_iff_right₀ hq₁.invObj_pos, hcost, hcost, mul_le_mul_iff_right₀ hq₂.invObj_pos]
  refine ⟨qp₁, qp₂, g₁, g₂, hfeas, fun d => ?_, fun o₁' o₂' b₁ b₂ w₁' w₂' ho e₁ e₂ => ?_⟩
  · unfold Spec.IsSolution
    refine and_congr (hfeas d) (forall_congr' fun y => ?_)
    rw [hfeas, hle]
  · obtain ⟨-, x₁, s₁, -⟩ := adv₁ o₁' b₁ w₁' e₁
    obtain ⟨-, x₂, s₂, -⟩ := adv₂ o₂' b₂ w₂' e₂
    have hX' : ∀ i < 4 * s.nbSamples, w₂'.X.get i = w₁'.X.get i := by
      intro i hi
      rw [x₁ i hi, x₂ i hi, hX i hi, ho i hi]
    refine ⟨hX', ?_⟩
    rw [s₁, s₂, hz]
    simp only [Spec.jerkCX, Spec.jerkCY, Spec.jerkBX, Spec.jerkBY]
    rw [hX' _ (by omega), hX' _ (by omega), hX' _ (by omega), hX' _ (by omega)]
    simp only [Spec.ZebState.driven, Spec.ZebState.boost, Spec.State3.boost, Spec.cubic, Spec.ZebState.mk.injEq,
      State3.mk.injEq, and_true]
    refine ⟨⟨by ring, by ring⟩, ⟨by ring, by ring⟩, ⟨by ring, by ring⟩, by ring, by ring⟩


/-- A robot with the base at `(px, -2)` and the velocity `(vx, 0)`, and references for it; polygons and heading are used. -/
def zRollHistory (px vx : ℚ) : List (ZebCall ℚ) :=
  [.setBaseMass 2, .setBodyHeight (4 / 5), .setBaseHeight (1 / 10),
    .setCopPolygon ⟨4, fun i => [⟨1, 1⟩, ⟨-1, 1⟩, ⟨-1, -1⟩, ⟨1, -1⟩].getD i ⟨0, 0⟩⟩,
    .setComPolygon ⟨4, fun i => [⟨1, 1⟩, ⟨-1, 1⟩, ⟨-1, -1⟩, ⟨1, -1⟩].getD i ⟨0, 0⟩⟩,
    .setWeightings ⟨1, 1, 1, 1, 1, 1, 1⟩, .setConfig ⟨true, true, false, true⟩,
    .setBaseX ⟨3, fun i => if i = 0 then px else if i = 1 then vx else 0⟩, .setBaseY ⟨3, fun i => if i = 0 then -2 else 0⟩,
    .setComX ⟨3, fun i => if i = 0 then px + 1 / 2 else if i = 1 then vx else 0⟩, .setComY ⟨3, fun i => if i = 0 then -2 else 0⟩,
    .setVelRef ⟨2, fun i => if i = 0 then vx + 1 else 0⟩, .setPosRef ⟨2, fun i => if i = 0 then px + vx else -2⟩,
    .setComRef ⟨2, fun i => if i = 0 then 1 / 2 else 0⟩,
    .setCopRef ⟨2, fun i => if i = 0 then 1 / 6 else 0⟩, .setContactX (1 / 4), .setContactY 0]

theorem zRoll_reaches (o : Oracle ℚ) (px vx : ℚ) (hpv : (px, vx) = (3, 0) ∨ (px, vx) = (10, 2) ∨ (px, vx) = (13 / 2, 1)) :
    ∃ w, ZebReaches o trigZero 0 0 (zRollHistory px vx) w ∧
      w.state = ⟨⟨px + 1 / 2, vx, 0⟩, ⟨-2, 0, 0⟩, ⟨px, vx, 0⟩, ⟨-2, 0, 0⟩⟩ ∧ ∀ i < 4, w.X.get i = 0 := by
  have h : okAnd (fun w : Zeb ℚ => decide (w.lip.x.p = px + 1 / 2 ∧ w.lip.x.v = vx ∧ w.lip.x.a = 0) &&
        decide (w.lip.y.p = -2 ∧ w.lip.y.v = 0 ∧ w.lip.y.a = 0) && decide (w.base.x.p = px ∧ w.base.x.v = vx ∧ w.base.x.a = 0) &&
        decide (w.base.y.p = -2 ∧ w.base.y.v = 0 ∧ w.base.y.a = 0) && zNoJerk w)
      (do Zeb.run (fun _ _ _ => (true, fun _ => 0)) trigZero (← Zeb.make trigZero (some 0, some 0)) (zRollHistory px vx))
      = true := by
    rcases hpv with e | e | e <;> cases e <;> decide +kernel
  obtain ⟨w, e, hc⟩ := okAnd_true h
  simp only [Bool.and_eq_true, decide_eq_true_eq] at hc
  obtain ⟨⟨⟨⟨⟨a1, a2, a3⟩, b1, b2, b3⟩, c1, c2, c3⟩, d1, d2, d3⟩, hX⟩ := hc
  refine ⟨w, ?_, ?_, zNoJerk_get hX⟩
  · rw [zReaches_setters _ _ (by intro c hc; simp [zRollHistory] at hc; rcases hc with h | h | h | h | h | h | h | h | h | h | h | h | h | h | h | h | h <;> rw [h] <;> rfl) o] at e
    exact e
  · have ext : ∀ {x : State3 ℚ} {p v : ℚ}, x.p = p → x.v = v → x.a = 0 → x = ⟨p, v, 0⟩ := by
      rintro ⟨_, _, _⟩ _ _ rfl rfl rfl; rfl
    unfold Zeb.state
    rw [ext a1 a2 a3, ext b1 b2 b3, ext c1 c2 c3, ext d1 d2 d3]

/-- The hypotheses of `C101_frame` are met with both polygons, the heading and all objectives on, by a robot at rest and one that
moves at the velocity 2. -/
example (o₁ o₂ : Oracle ℚ) : ∃ w₁ w₂ qp₁ qp₂, ZebReaches o₁ trigZero 0 0 (zRollHistory 3 0) w₁ ∧
    ZebReaches o₂ trigZero 0 0 (zRollHistory 10 2) w₂ ∧ ZebGives trigZero w₁ (1 / 10) qp₁ ∧ ZebGives trigZero w₂ (1 / 10) qp₂ ∧
    ∀ d, Spec.IsSolution qp₂ d ↔ Spec.IsSolution qp₁ d := by
  obtain ⟨w₁, h₁, z₁, x₁⟩ := zRoll_reaches o₁ 3 0 (.inl rfl)
  obtain ⟨w₂, h₂, z₂, x₂⟩ := zRoll_reaches o₂ 10 2 (.inr (.inl rfl))
  obtain ⟨qp₁, qp₂, g₁, g₂, -, hs, -⟩ := C101_frame h₁ h₂ 2 0 7 0
    (by simp only [zebSettingsOf, Spec.ZebSettings.after, zRollHistory, List.foldl, Spec.ZebSettings.apply])
    ⟨rfl, by show ∀ i < 1, _; decide +kernel⟩ ⟨rfl, by show ∀ i < 1, _; decide +kernel⟩ (by decide +kernel) (by decide +kernel)
    (by rw [z₁, z₂]; simp only [Spec.ZebState.boost, Spec.State3.boost, Spec.ZebState.mk.injEq, State3.mk.injEq]; norm_num)
    (fun i hi => by rw [x₁ i hi, x₂ i hi]) (.inr (by decide +kernel)) (by decide +kernel) rfl (fun _ => by decide +kernel)
    ⟨rfl, rfl, rfl⟩ (fb := 1 / 10) (by norm_num)
  exact ⟨w₁, w₂, qp₁, qp₂, h₁, h₂, g₁, g₂, hs⟩

theorem zRefs_run {w : Zeb K} {s : Spec.ZebSettings K} {L : K} {k : K × K} (h : ZInv tr s L k w) (o : Oracle K) {v p : Vec K}
    (hv : v.size = 2 * s.nbSamples) (hp : p.size = 2 * s.nbSamples) :
    ∃ w', w.run o tr [.setVelRef v, .setPosRef p] = .ok w' ∧ w'.state = w.state ∧ w'.X = w.X := by
  obtain ⟨b, w1, e1, h1⟩ := zStep_ok h o (.setVelRef v) hv
  obtain ⟨b2, w2, e2, -⟩ := zStep_ok h1 o (.setPosRef p) hp
  refine ⟨w2, by simp [Zeb.run, e1, e2, ok_bind], ?_⟩
  simp only [Zeb.step, bind_eq_ok, res_pure, Except.ok.injEq, Prod.mk.injEq] at e1 e2
  obtain ⟨_, -, -, rfl⟩ := e1
  obtain ⟨_, -, -, rfl⟩ := e2
  exact ⟨rfl, rfl⟩

/-- **C101.** Two generators, after whatever histories, with the same settings and planned jerks, and with states that are those
seen from two frames, one of which moves at a constant velocity with respect to the other. New references of the base are given
before each call of `solve`, those seen from the two frames at that time. If the QPs of the first one have solutions, then all
calls succeed, the planned jerks are the same and the states are those seen from the two frames, at all times, for all
solvers that find solutions. -/
theorem C101_frames {o₁ o₂ : Oracle K} (ho₁ : Spec.FindsSolution o₁) (ho₂ : Spec.FindsSolution o₂)
    {cx₁ cy₁ cx₂ cy₂ : K} {cs₁ cs₂ : List (ZebCall K)} {w₁ w₂ : Zeb K}
    (hw₁ : ZebReaches o₁ tr cx₁ cy₁ cs₁ w₁) (hw₂ : ZebReaches o₂ tr cx₂ cy₂ cs₂ w₂) (ux uy a b : K)
    (hs : { zebSettingsOf cx₁ cy₁ cs₁ with
        velRef := (zebSettingsOf cx₂ cy₂ cs₂).velRef
        posRef := (zebSettingsOf cx₂ cy₂ cs₂).posRef } = zebSettingsOf cx₂ cy₂ cs₂)
    (hL : (Spec.ZebSettings.init cx₂ cy₂).tiltHeight 0 cs₂ = (Spec.ZebSettings.init cx₁ cy₁).tiltHeight 0 cs₁)
    (hk : (Spec.ZebSettings.init cx₂ cy₂).usedShift (0, 0) cs₂ = (Spec.ZebSettings.init cx₁ cy₁).usedShift (0, 0) cs₁)
    (hz : w₂.state = w₁.state.boost ux uy a b)
    (hX : ∀ i < 4 * (zebSettingsOf cx₁ cy₁ cs₁).nbSamples, w₂.X.get i = w₁.X.get i)
    (hM : (zebSettingsOf cx₁ cy₁ cs₁).baseMass = 0 ∨ EPS < (zebSettingsOf cx₁ cy₁ cs₁).baseMass)
    (hT : EPS < (zebSettingsOf cx₁ cy₁ cs₁).period) (hb : (zebSettingsOf cx₁ cy₁ cs₁).config.base = false)
    (hh : (zebSettingsOf cx₁ cy₁ cs₁).config.tilt = true →
      tr.sin (zebSettingsOf cx₁ cy₁ cs₁).yaw.p * ux - tr.cos (zebSettingsOf cx₁ cy₁ cs₁).yaw.p * uy = 0)
    (hj : 0 < (zebSettingsOf cx₁ cy₁ cs₁).weighting.jerkMinimization)
    (hc : (zebSettingsOf cx₁ cy₁ cs₁).copRef.size = 2 * (zebSettingsOf cx₁ cy₁ cs₁).nbSamples) (rs : List (Spec.Round K))
    (hrs : ∀ r ∈ rs, r.velRef.size = 2 * (zebSettingsOf cx₁ cy₁ cs₁).nbSamples ∧
      r.posRef.size = 2 * (zebSettingsOf cx₁ cy₁ cs₁).nbSamples ∧ 0 < r.period)
    (hsol : ∀ ds r es w qp, rs = ds ++ r :: es →
      ZebReaches o₁ tr cx₁ cy₁ (cs₁ ++ Spec.zRoundCalls ds ++ [.setVelRef r.velRef, .setPosRef r.posRef]) w →
      ZebGives tr w r.period qp → ∃ d, Spec.IsSolution qp d) :
    ∃ w₁' w₂', ZebReaches o₁ tr cx₁ cy₁ (cs₁ ++ Spec.zRoundCalls rs) w₁' ∧
      ZebReaches o₂ tr cx₂ cy₂ (cs₂ ++ Spec.zRoundCalls (Spec.zBoostRounds ux uy (zebSettingsOf cx₁ cy₁ cs₁).period
        (zebSettingsOf cx₁ cy₁ cs₁).nbSamples a b rs)) w₂' ∧
      w₂'.state = w₁'.state.boost ux uy (a + ux * Spec.roundTime rs) (b + uy * Spec.roundTime rs) ∧
      ∀ i < 4 * (zebSettingsOf cx₁ cy₁ cs₁).nbSamples, w₂'.X.get i = w₁'.X.get i := by
  induction rs generalizing cs₁ cs₂ w₁ w₂ a b with
  | nil =>
    refine ⟨w₁, w₂, by simpa [Spec.zRoundCalls] using hw₁, by simpa [Spec.zRoundCalls, Spec.zBoostRounds] using hw₂, ?_, hX⟩
    simpa [Spec.roundTime] using hz
  | cons r rs ih =>
    obtain ⟨hv, hp, hfb⟩ := hrs r (by simp)
    have eN : (zebSettingsOf cx₂ cy₂ cs₂).nbSamples = (zebSettingsOf cx₁ cy₁ cs₁).nbSamples := by rw [← hs]
    set N := (zebSettingsOf cx₁ cy₁ cs₁).nbSamples with hN
    set T := (zebSettingsOf cx₁ cy₁ cs₁).period with hT'
    set v' := Spec.zBoostVel ux uy N r.velRef with hv'
    set p' := Spec.zBoostPos ux uy a b T N r.posRef with hp'
    obtain ⟨y1, f1, st1, pl1⟩ := zRefs_run (zReachable_inv hw₁) o₁ (v := r.velRef) (p := r.posRef) hv hp
    obtain ⟨y2, f2, st2, pl2⟩ := zRefs_run (zReachable_inv hw₂) o₂ (v := v') (p := p') (by
      change r.velRef.size = 2 * (zebSettingsOf cx₂ cy₂ cs₂).nbSamples; rw [eN]; exact hv) (by
      change r.posRef.size = 2 * (zebSettingsOf cx₂ cy₂ cs₂).nbSamples; rw [eN]; exact hp)
    have gy1 := (zReaches_append hw₁).2 f1
    have gy2 := (zReaches_append hw₂).2 f2
    set ds₁ := cs₁ ++ [ZebCall.setVelRef r.velRef, .setPosRef r.posRef] with hds₁
    set ds₂ := cs₂ ++ [ZebCall.setVelRef v', .setPosRef p'] with hds₂
    have q1 : zebSettingsOf cx₁ cy₁ ds₁ = { zebSettingsOf cx₁ cy₁ cs₁ with
        velRef := r.velRef
        posRef := r.posRef } := by
      unfold zebSettingsOf; rw [hds₁, after_append]; rfl
    have q2 : zebSettingsOf cx₂ cy₂ ds₂ = { zebSettingsOf cx₁ cy₁ cs₁ with
        velRef := v'
        posRef := p' } := by
      have : zebSettingsOf cx₂ cy₂ ds₂ = { zebSettingsOf cx₂ cy₂ cs₂ with
        velRef := v'
        posRef := p' } := by
        unfold zebSettingsOf; rw [hds₂, after_append]; rfl
      rw [this, ← hs]
    have l1 : (Spec.ZebSettings.init cx₁ cy₁).tiltHeight 0 ds₁ = (Spec.ZebSettings.init cx₁ cy₁).tiltHeight 0 cs₁ := by
      rw [hds₁, tiltHeight_append]; rfl
    have l2 : (Spec.ZebSettings.init cx₂ cy₂).tiltHeight 0 ds₂ = (Spec.ZebSettings.init cx₂ cy₂).tiltHeight 0 cs₂ := by
      rw [hds₂, tiltHeight_append]; rfl
    have k1 : (Spec.ZebSettings.init cx₁ cy₁).usedShift (0, 0) ds₁ = (Spec.ZebSettings.init cx₁ cy₁).usedShift (0, 0) cs₁ := by
      rw [hds₁, usedShift_append]; rfl
    have k2 : (Spec.ZebSettings.init cx₂ cy₂).usedShift (0, 0) ds₂ = (Spec.ZebSettings.init cx₂ cy₂).usedShift (0, 0) cs₂ := by
      rw [hds₂, usedShift_append]; rfl
    have hr₁ : (zebSettingsOf cx₁ cy₁ ds₁).RefsCurrent := by rw [q1]; exact ⟨hv, hp, hc⟩
    have hNi : ∀ i : ℕ, ¬ N + i < N := fun i => by omega
    -- the call
    obtain ⟨qp₁, qp₂, g₁, g₂, hfe, hso, hmain⟩ := C101_frame (fb := r.period) gy1 gy2 ux uy a b (by rw [q1, q2])
      (by
        rw [q1, q2]
        refine ⟨rfl, fun i hi => ⟨?_, ?_⟩⟩
        · simp only [hv', Spec.zBoostVel]; rw [if_pos hi]
        · simp only [hv', Spec.zBoostVel]; rw [if_neg (hNi i)])
      (by
        rw [q1, q2]
        refine ⟨rfl, fun i hi => ⟨?_, ?_⟩⟩
        · simp only [hp', Spec.zBoostPos]; rw [if_pos hi]
        · simp only [hp', Spec.zBoostPos]; rw [if_neg (hNi i), Nat.add_sub_cancel_left])
      (by rw [l1, l2, hL]) (by rw [k1, k2, hk]) (by rw [st1, st2, hz]) (by rw [q1, pl1, pl2]; exact hX) (by rw [q1]; exact hM)
      (by rw [q1]; exact hT) (by rw [q1]; exact hb) (by rw [q1]; exact hh) hr₁ hfb
    obtain ⟨c1, z1, m1, -⟩ := g₁ o₁
    obtain ⟨c2, z2, m2, -⟩ := g₂ o₂
    obtain ⟨qp', g', -, -, -, -, huniq⟩ := C57_convex gy1 hr₁ hfb
    obtain rfl := g₁.unique (zReachable_inv gy1) g'
    have hex := hsol [] r rs y1 qp₁ rfl (by simpa [Spec.zRoundCalls] using gy1) g₁
    have a₁ := ho₁ y1.solver.calls qp₁ 10000 hex
    have a₂ := (hso _).1 (ho₂ y2.solver.calls qp₂ 10000 (hex.imp fun d hd => (hso d).2 hd))
    obtain ⟨t1, t2⟩ := hmain o₁ o₂ _ _ _ _ (fun i hi => (huniq (by rw [q1]; exact hj)).2 _ _ a₂ a₁ i hi) m1 m2
    have gz1 : ZebReaches o₁ tr cx₁ cy₁ (ds₁ ++ [.solve r.period]) z1 := by
      rw [zReaches_append gy1]; simp [Zeb.run, Zeb.step, m1, ok_bind]
    have gz2 : ZebReaches o₂ tr cx₂ cy₂ (ds₂ ++ [.solve r.period]) z2 := by
      rw [zReaches_append gy2]; simp [Zeb.run, Zeb.step, m2, ok_bind]
    have P1 : zebSettingsOf cx₁ cy₁ (ds₁ ++ [.solve r.period]) = _ := (by
      unfold zebSettingsOf; rw [after_append]; rfl : _ = zebSettingsOf cx₁ cy₁ ds₁).trans q1
    have P2 : zebSettingsOf cx₂ cy₂ (ds₂ ++ [.solve r.period]) = _ := (by
      unfold zebSettingsOf; rw [after_append]; rfl : _ = zebSettingsOf cx₂ cy₂ ds₂).trans q2
    have L1 : (Spec.ZebSettings.init cx₁ cy₁).tiltHeight 0 (ds₁ ++ [.solve r.period])
        = (Spec.ZebSettings.init cx₁ cy₁).tiltHeight 0 ds₁ := by rw [tiltHeight_append _ _ ds₁]; rfl
    have L2 : (Spec.ZebSettings.init cx₂ cy₂).tiltHeight 0 (ds₂ ++ [.solve r.period])
        = (Spec.ZebSettings.init cx₂ cy₂).tiltHeight 0 ds₂ := by rw [tiltHeight_append _ _ ds₂]; rfl
    have K1 : (Spec.ZebSettings.init cx₁ cy₁).usedShift (0, 0) (ds₁ ++ [.solve r.period])
        = (Spec.ZebSettings.init cx₁ cy₁).usedShift (0, 0) ds₁ := by rw [usedShift_append _ _ ds₁]; rfl
    have K2 : (Spec.ZebSettings.init cx₂ cy₂).usedShift (0, 0) (ds₂ ++ [.solve r.period])
        = (Spec.ZebSettings.init cx₂ cy₂).usedShift (0, 0) ds₂ := by rw [usedShift_append _ _ ds₂]; rfl
    rw [q1] at t1
    obtain ⟨w₁', w₂', r1, r2, r3, r4⟩ := ih gz1 gz2 (a + ux * r.period) (b + uy * r.period)
      (by rw [P1, P2])
      (by rw [L1, L2, l1, l2, hL]) (by rw [K1, K2, k1, k2, hk])
      t2 (by rw [P1]; exact t1) (by rw [P1]; exact hM) (by rw [P1]; exact hT) (by rw [P1]; exact hb) (by rw [P1]; exact hh)
      (by rw [P1]; exact hj) (by rw [P1]; exact hc) (by rw [P1]; exact fun r' hr' => hrs r' (by simp [hr']))
      (fun ds r' es w qp e hw hg => hsol (r :: ds) r' es w qp (by simp [e])
        (by simpa [Spec.zRoundCalls, hds₁] using hw) hg)
    refine ⟨w₁', w₂', ?_, ?_, ?_, ?_⟩
    · simpa [Spec.zRoundCalls, hds₁] using r1
    · rw [P1] at r2
      simpa [Spec.zRoundCalls, Spec.zBoostRounds, hds₂] using r2
    · rw [r3]; congr 1 <;> · simp only [Spec.roundTime]; ring
    · rw [P1] at r4; exact r4

theorem zRounds_config {s : Spec.ZebSettings K} (rs : List (Spec.Round K)) : (s.after (Spec.zRoundCalls rs)).config = s.config := by
  induction rs generalizing s with
  | nil => rfl
  | cons r rs ih => exact (ih (s := ((s.apply (.setVelRef r.velRef)).apply (.setPosRef r.posRef)).apply (.solve r.period))).trans rfl

/-- **C101, without constraints** over the real numbers: the QPs have solutions. -/
theorem C101_free {tr : Trig ℝ} {o₁ o₂ : Oracle ℝ} (ho₁ : Spec.FindsSolution o₁) (ho₂ : Spec.FindsSolution o₂)
    {cx₁ cy₁ cx₂ cy₂ : ℝ} {cs₁ cs₂ : List (ZebCall ℝ)} {w₁ w₂ : Zeb ℝ}
    (hw₁ : ZebReaches o₁ tr cx₁ cy₁ cs₁ w₁) (hw₂ : ZebReaches o₂ tr cx₂ cy₂ cs₂ w₂) (ux uy a b : ℝ)
    (hs : { zebSettingsOf cx₁ cy₁ cs₁ with
        velRef := (zebSettingsOf cx₂ cy₂ cs₂).velRef
        posRef := (zebSettingsOf cx₂ cy₂ cs₂).posRef } = zebSettingsOf cx₂ cy₂ cs₂)
    (hL : (Spec.ZebSettings.init cx₂ cy₂).tiltHeight 0 cs₂ = (Spec.ZebSettings.init cx₁ cy₁).tiltHeight 0 cs₁)
    (hk : (Spec.ZebSettings.init cx₂ cy₂).usedShift (0, 0) cs₂ = (Spec.ZebSettings.init cx₁ cy₁).usedShift (0, 0) cs₁)
    (hz : w₂.state = w₁.state.boost ux uy a b)
    (hX : ∀ i < 4 * (zebSettingsOf cx₁ cy₁ cs₁).nbSamples, w₂.X.get i = w₁.X.get i)
    (hM : (zebSettingsOf cx₁ cy₁ cs₁).baseMass = 0 ∨ EPS < (zebSettingsOf cx₁ cy₁ cs₁).baseMass)
    (hT : EPS < (zebSettingsOf cx₁ cy₁ cs₁).period) (hf : (zebSettingsOf cx₁ cy₁ cs₁).config = ⟨false, false, false, false⟩)
    (hj : 0 < (zebSettingsOf cx₁ cy₁ cs₁).weighting.jerkMinimization)
    (hc : (zebSettingsOf cx₁ cy₁ cs₁).copRef.size = 2 * (zebSettingsOf cx₁ cy₁ cs₁).nbSamples) (rs : List (Spec.Round ℝ))
    (hrs : ∀ r ∈ rs, r.velRef.size = 2 * (zebSettingsOf cx₁ cy₁ cs₁).nbSamples ∧
      r.posRef.size = 2 * (zebSettingsOf cx₁ cy₁ cs₁).nbSamples ∧ 0 < r.period) :
    ∃ w₁' w₂', ZebReaches o₁ tr cx₁ cy₁ (cs₁ ++ Spec.zRoundCalls rs) w₁' ∧
      ZebReaches o₂ tr cx₂ cy₂ (cs₂ ++ Spec.zRoundCalls (Spec.zBoostRounds ux uy (zebSettingsOf cx₁ cy₁ cs₁).period
        (zebSettingsOf cx₁ cy₁ cs₁).nbSamples a b rs)) w₂' ∧
      w₂'.state = w₁'.state.boost ux uy (a + ux * Spec.roundTime rs) (b + uy * Spec.roundTime rs) ∧
      ∀ i < 4 * (zebSettingsOf cx₁ cy₁ cs₁).nbSamples, w₂'.X.get i = w₁'.X.get i := by
  refine C101_frames ho₁ ho₂ hw₁ hw₂ ux uy a b hs hL hk hz hX hM hT (by rw [hf]) (by rw [hf]; simp) hj hc rs hrs ?_
  intro ds r es w qp e hw hg
  have h := zReachable_inv hw
  obtain ⟨b', w', e', -⟩ := hg o₁
  have hp := zCodePre_of_ok h o₁ (.solve r.period) (r := (b', w')) (by simpa [Zeb.step] using e')
  obtain ⟨qp', hg', hfe⟩ := C57_constraints hw hp.2 hp.1
  obtain rfl := hg.unique h hg'
  have hcfg : (zebSettingsOf cx₁ cy₁ (cs₁ ++ Spec.zRoundCalls ds ++ [.setVelRef r.velRef, .setPosRef r.posRef])).config
      = ⟨false, false, false, false⟩ := by
    rw [← hf]
    unfold zebSettingsOf
    rw [after_append, after_append]
    exact (rfl : _ = (Spec.ZebSettings.after _ (Spec.zRoundCalls ds)).config).trans (zRounds_config ds)
  obtain ⟨_, _, hcon⟩ := hg.consistent h
  refine solution_exists hcon ⟨fun _ => 0, (hfe _).2 ?_⟩
  refine ⟨by rw [hcfg]; simp, by rw [hcfg]; simp, by rw [hcfg]; simp, by rw [hcfg]; simp, fun i _ _ => ?_⟩
  simp only [add_zero, sub_self, abs_zero]
  norm_num [MAXBOUND]

/-- The hypotheses of `C101_free`, and with them those of `C101_frames`, are met by a robot at rest and one that moves at the velocity
`(3, -1)`. -/
example (o : Oracle ℝ) (ho : Spec.FindsSolution o) (tr : Trig ℝ) : ∃ w₁ w₂ : Zeb ℝ,
    ZebReaches o tr 0 0 (zVelCalls ++ zPlaceCalls ⟨0, 0, 0⟩ ⟨0, 0, 0⟩ ⟨0, 0, 0⟩ ⟨0, 0, 0⟩ ++
      Spec.zRoundCalls (List.replicate 5 ⟨⟨2, fun _ => 1⟩, ⟨2, fun _ => 1⟩, 1 / 10⟩)) w₁ ∧
    ZebReaches o tr 0 0 (zVelCalls ++ zPlaceCalls ⟨7, 3, 0⟩ ⟨0, -1, 0⟩ ⟨7, 3, 0⟩ ⟨0, -1, 0⟩ ++
      Spec.zRoundCalls (Spec.zBoostRounds 3 (-1) 1 1 7 0 (List.replicate 5 ⟨⟨2, fun _ => 1⟩, ⟨2, fun _ => 1⟩, 1 / 10⟩))) w₂ ∧
    w₂.state = w₁.state.boost 3 (-1) (7 + 3 * (1 / 2)) (0 + -1 * (1 / 2)) := by
  obtain ⟨w0, hw0⟩ := C54_no_fault_partial o tr 0 0 zVelCalls
    (by simp [zVelCalls, Spec.ZebSettings.Legal, Spec.ZebSettings.Pre, Spec.ZebSettings.apply, Spec.ZebSettings.init, Vec.const])
    (by simp [zVelCalls, Spec.ZebSettings.RefsCurrentAtSolves])
  obtain ⟨w₁, r₁, s₁⟩ := zPlace_run o tr w0 ⟨0, 0, 0⟩ ⟨0, 0, 0⟩ ⟨0, 0, 0⟩ ⟨0, 0, 0⟩
  obtain ⟨w₂, r₂, s₂⟩ := zPlace_run o tr w0 ⟨7, 3, 0⟩ ⟨0, -1, 0⟩ ⟨7, 3, 0⟩ ⟨0, -1, 0⟩
  have h₁ := (zReaches_append hw0).2 r₁
  have h₂ := (zReaches_append hw0).2 r₂
  have x : ∀ (bx by_ cx cy : State3 ℝ) fb, ZebCall.solve fb ∉ zVelCalls ++ zPlaceCalls bx by_ cx cy := by
    intro bx by_ cx cy fb; simp [zVelCalls, zPlaceCalls]
  obtain ⟨w₁', w₂', g₁, g₂, g₃, -⟩ := C101_free ho ho h₁ h₂ 3 (-1) 7 0 rfl rfl rfl
    (by rw [s₁, s₂]; simp [Spec.ZebState.boost, Spec.State3.boost]) (fun i _ => by rw [zReaches_X h₁ (x _ _ _ _), zReaches_X h₂ (x _ _ _ _)])
    (.inl rfl) (by change (EPS : ℝ) < 1; norm_num [EPS]) rfl (by change (0 : ℝ) < 1 / 10; norm_num) rfl
    (List.replicate 5 ⟨⟨2, fun _ => 1⟩, ⟨2, fun _ => 1⟩, 1 / 10⟩) (by
      intro r hr; rw [List.eq_of_mem_replicate hr]; exact ⟨rfl, rfl, by norm_num⟩)
  refine ⟨w₁', w₂', g₁, g₂, ?_⟩
  rw [g₃]
  norm_num [Spec.roundTime, List.replicate]

end MPC
