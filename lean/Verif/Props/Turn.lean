import Verif.Lemmas.Turn
import Verif.Props.ZebRest
/-!
# C89: `ZebulonWalkgen` treats its axes alike

Statements: `Verif.Spec.Turn`.
-/
set_option linter.unusedSectionVars false
namespace MPC
open Finset
variable {K : Type} [Field K] [LinearOrder K] [IsStrictOrderedRing K] [FloorRing K]
variable {tr : Trig K} {fb : K}

/-- **C89, one call.** Two robots in turned or mirrored situations, after whatever histories: the QP of the second one has a
solution if the one of the first has, and if both solvers return solutions the new jerks and states are again turned. -/
theorem C89_solve (g : Spec.Turn K) (hg : g.Good) {o₁ o₂ : Oracle K} {cx₁ cy₁ cx₂ cy₂ : K} {cs₁ cs₂ : List (ZebCall K)}
    {w₁ w₂ : Zeb K} (hw₁ : ZebReaches o₁ tr cx₁ cy₁ cs₁ w₁) (hw₂ : ZebReaches o₂ tr cx₂ cy₂ cs₂ w₂)
    (hs : g.Settings tr (zebSettingsOf cx₁ cy₁ cs₁) (zebSettingsOf cx₂ cy₂ cs₂))
    (hL : (Spec.ZebSettings.init cx₂ cy₂).tiltHeight 0 cs₂ = (Spec.ZebSettings.init cx₁ cy₁).tiltHeight 0 cs₁)
    (hk : (Spec.ZebSettings.init cx₂ cy₂).usedShift (0, 0) cs₂
      = (g.x ((Spec.ZebSettings.init cx₁ cy₁).usedShift (0, 0) cs₁).1 ((Spec.ZebSettings.init cx₁ cy₁).usedShift (0, 0) cs₁).2,
        g.y ((Spec.ZebSettings.init cx₁ cy₁).usedShift (0, 0) cs₁).1 ((Spec.ZebSettings.init cx₁ cy₁).usedShift (0, 0) cs₁).2))
    (hz : w₂.state = g.state w₁.state) (hX : g.Jerks (zebSettingsOf cx₁ cy₁ cs₁).nbSamples w₁.X.get w₂.X.get)
    (hr : (zebSettingsOf cx₁ cy₁ cs₁).RefsCurrent) (hj : 0 < (zebSettingsOf cx₁ cy₁ cs₁).weighting.jerkMinimization)
    (hfb : 0 < fb) :
    ∃ qp₁ qp₂, ZebGives tr w₁ fb qp₁ ∧ ZebGives tr w₂ fb qp₂ ∧
      ((∃ d, Spec.IsSolution qp₁ d) → ∃ d, Spec.IsSolution qp₂ d) ∧
      ∀ (o₁' o₂' : Oracle K) b₁ b₂ w₁' w₂', Spec.IsSolution qp₁ (o₁' w₁.solver.calls qp₁ 10000).2 →
        Spec.IsSolution qp₂ (o₂' w₂.solver.calls qp₂ 10000).2 →
        w₁.solve o₁' tr fb = .ok (b₁, w₁') → w₂.solve o₂' tr fb = .ok (b₂, w₂') →
        g.Jerks (zebSettingsOf cx₁ cy₁ cs₁).nbSamples w₁'.X.get w₂'.X.get ∧ w₂'.state = g.state w₁'.state := by
  have h₁ := zReachable_inv hw₁
  have h₂ := zReachable_inv hw₂
  have eN := turn_nbSamples hs
  have hr₂ : (zebSettingsOf cx₂ cy₂ cs₂).RefsCurrent := (turn_pre hs (.solve fb) ⟨hfb, hr⟩).2
  obtain ⟨qp₁, g₁, adv₁⟩ := C66_advance hw₁ hr hfb
  obtain ⟨qp₂, g₂, adv₂⟩ := C66_advance hw₂ hr₂ hfb
  obtain ⟨q₁, u, ps, v, qs, g₁', hq₁, -⟩ := zebGives_of_inv h₁ hr hfb
  obtain rfl := g₁.unique h₁ g₁'
  obtain ⟨q₂, u', ps', v', qs', g₂', hq₂, -⟩ := zebGives_of_inv h₂ hr₂ hfb
  obtain rfl := g₂.unique h₂ g₂'
  obtain ⟨q₁, f₁', f₁⟩ := C57_constraints hw₁ hr hfb
  obtain rfl := g₁.unique h₁ f₁'
  obtain ⟨q₂, f₂', f₂⟩ := C57_constraints hw₂ hr₂ hfb
  obtain rfl := g₂.unique h₂ f₂'
  obtain ⟨q₂, u₂', -, -, -, -, huniq⟩ := C57_convex hw₂ hr₂ hfb
  obtain rfl := g₂.unique h₂ u₂'
  have hN : 0 < (zebSettingsOf cx₁ cy₁ cs₁).nbSamples := h₁.part.user.model.N_pos
  change ZPrep tr (zebSettingsOf cx₁ cy₁ cs₁) _ _ w₁ u ps v qs qp₁ at hq₁
  change ZPrep tr (zebSettingsOf cx₂ cy₂ cs₂) _ _ w₂ u' ps' v' qs' qp₂ at hq₂
  rw [hL, hk] at hq₂
  generalize (Spec.ZebSettings.init cx₁ cy₁).tiltHeight 0 cs₁ = L at *
  generalize (Spec.ZebSettings.init cx₁ cy₁).usedShift (0, 0) cs₁ = k at *
  generalize zebSettingsOf cx₁ cy₁ cs₁ = s at *
  generalize zebSettingsOf cx₂ cy₂ cs₂ = s₂ at *
  have sol₂ : TiltSol s L u' ps' := by
    have h := hq₂.sol
    rw [hs.same] at h
    exact ⟨h.inv, h.ps⟩
  have velSol₂ : TiltVelSol s L v' qs' := by
    have h := hq₂.velSol
    rw [hs.same] at h
    exact ⟨h.inv, h.ps⟩
  obtain ⟨cu, cps⟩ := sol₂.unique hq₁.sol
  obtain ⟨cv, cqs⟩ := velSol₂.unique hq₁.velSol
  have hfeas : ∀ d d' : ℕ → K, g.Jerks s.nbSamples d d' → (Spec.Feasible qp₂ d' ↔ Spec.Feasible qp₁ d) := by
    intro d d' hd
    rw [f₁, f₂, hz]
    exact turn_allowed hg hs hX (turnJerks_add hX hd)
  have hcost : ∀ d d' : ℕ → K, g.Jerks s.nbSamples d d' → w₁.invObj * Spec.cost qp₂ d' = w₂.invObj * Spec.cost qp₁ d := by
    intro d d' hd
    have hd := turnJerks_add hX hd
    rw [zCost hq₁, zCost hq₂, hz]
    rw [turn_tilt hg hs hd cu cps, turn_tilt hg hs hd cv cqs, turn_tilt hg hs hX cu cps, turn_tilt hg hs hX cv cqs,
      turn_total hg hs hd rfl, turn_total hg hs hX rfl]
    ring
  have hsol : ∀ d d' : ℕ → K, g.Jerks s.nbSamples d d' → Spec.IsSolution qp₁ d → Spec.IsSolution qp₂ d' := by
    intro d d' hd h
    refine ⟨(hfeas d d' hd).2 h.1, fun y hy => ?_⟩
    have hi := turnJerks_inv hg s.nbSamples y
    have h1 := h.2 _ ((hfeas _ _ hi).1 hy)
    rw [← mul_le_mul_iff_right₀ hq₁.invObj_pos, hcost _ _ hd, hcost _ _ hi, mul_le_mul_iff_right₀ hq₂.invObj_pos]
    exact h1
  refine ⟨qp₁, qp₂, g₁, g₂, fun ⟨d, hd⟩ => ⟨_, hsol d _ (turnJerks_rel g _ d) hd⟩, fun o₁' o₂' b₁ b₂ w₁' w₂' k₁ k₂ e₁ e₂ => ?_⟩
  obtain ⟨-, x₁, s₁, -⟩ := adv₁ o₁' b₁ w₁' e₁
  obtain ⟨-, x₂, s₂', -⟩ := adv₂ o₂' b₂ w₂' e₂
  have hw : s₂.weighting = s.weighting := by rw [hs.same]
  have hu := (huniq (by rw [hw]; exact hj)).2 _ _ k₂ (hsol _ _ (turnJerks_rel g _ _) k₁)
  rw [eN] at hu x₂ s₂'
  have hX' : g.Jerks s.nbSamples w₁'.X.get w₂'.X.get := by
    refine turnJerks_congr (turnJerks_add hX (turnJerks_rel g s.nbSamples (o₁' w₁.solver.calls qp₁ 10000).2)) x₁ fun i hi => ?_
    rw [x₂ i hi, hu i hi]
  refine ⟨hX', ?_⟩
  rw [s₁, s₂', hz, hX'.cx 0 hN, hX'.cy 0 hN, hX'.bx 0 hN, hX'.by_ 0 hN]
  simp only [Spec.ZebState.driven, Spec.Turn.state, Spec.Turn.sx, Spec.Turn.sy, Spec.Turn.x, Spec.Turn.y, Spec.cubic,
    Spec.ZebState.mk.injEq, State3.mk.injEq]
  refine ⟨⟨?_, ?_, ?_⟩, ⟨?_, ?_, ?_⟩, ⟨?_, ?_, ?_⟩, ?_, ?_, ?_⟩ <;> ring

/-- **C89.** Two robots in turned or mirrored situations stay so during any calls, turned for the second one, when both
solvers find solutions; at each `solve` the weighting of the jerks has to be positive and the QP of the first robot solvable. -/
theorem C89_turn (g : Spec.Turn K) (hg : g.Good) {o₁ o₂ : Oracle K} (ho₁ : Spec.FindsSolution o₁)
    (ho₂ : Spec.FindsSolution o₂) {cx₁ cy₁ cx₂ cy₂ : K} {cs₁ cs₂ : List (ZebCall K)}
    {w₁ w₂ : Zeb K} (hw₁ : ZebReaches o₁ tr cx₁ cy₁ cs₁ w₁) (hw₂ : ZebReaches o₂ tr cx₂ cy₂ cs₂ w₂)
    (hs : g.Settings tr (zebSettingsOf cx₁ cy₁ cs₁) (zebSettingsOf cx₂ cy₂ cs₂))
    (hL : (Spec.ZebSettings.init cx₂ cy₂).tiltHeight 0 cs₂ = (Spec.ZebSettings.init cx₁ cy₁).tiltHeight 0 cs₁)
    (hk : (Spec.ZebSettings.init cx₂ cy₂).usedShift (0, 0) cs₂
      = (g.x ((Spec.ZebSettings.init cx₁ cy₁).usedShift (0, 0) cs₁).1 ((Spec.ZebSettings.init cx₁ cy₁).usedShift (0, 0) cs₁).2,
        g.y ((Spec.ZebSettings.init cx₁ cy₁).usedShift (0, 0) cs₁).1 ((Spec.ZebSettings.init cx₁ cy₁).usedShift (0, 0) cs₁).2))
    (hz : w₂.state = g.state w₁.state) (hX : g.Jerks (zebSettingsOf cx₁ cy₁ cs₁).nbSamples w₁.X.get w₂.X.get)
    (ds₁ ds₂ : List (ZebCall K)) (hd : List.Forall₂ (g.Call (zebSettingsOf cx₁ cy₁ cs₁).nbSamples) ds₁ ds₂)
    (hsol : ∀ es fb fs, ds₁ = es ++ .solve fb :: fs →
      0 < (zebSettingsOf cx₁ cy₁ (cs₁ ++ es)).weighting.jerkMinimization ∧
      ∀ w qp, ZebReaches o₁ tr cx₁ cy₁ (cs₁ ++ es) w → ZebGives tr w fb qp → ∃ d, Spec.IsSolution qp d)
    (w₁' : Zeb K) (hw₁' : ZebReaches o₁ tr cx₁ cy₁ (cs₁ ++ ds₁) w₁') :
    ∃ w₂', ZebReaches o₂ tr cx₂ cy₂ (cs₂ ++ ds₂) w₂' ∧ w₂'.state = g.state w₁'.state ∧
      g.Jerks (zebSettingsOf cx₁ cy₁ cs₁).nbSamples w₁'.X.get w₂'.X.get := by
  obtain ⟨N, hN⟩ : ∃ N, (zebSettingsOf cx₁ cy₁ cs₁).nbSamples = N := ⟨_, rfl⟩
  rw [hN] at hd hX ⊢
  induction hd generalizing cs₁ cs₂ w₁ w₂ with
  | nil =>
    rw [List.append_nil] at hw₁' ⊢
    obtain rfl : w₁ = w₁' := Except.ok.inj (hw₁.symm.trans hw₁')
    exact ⟨w₂, hw₂, hz, hX⟩
  | @cons c₁ c₂ ds₁ ds₂ hc hd ih =>
    rw [← hN] at hc hX
    have i₁ := zReachable_inv hw₁
    have i₂ := zReachable_inv hw₂
    have e := (zReaches_append hw₁).1 hw₁'
    obtain ⟨⟨b, v₁⟩, e₁, -⟩ := bind_eq_ok.1 e
    have hp := zCodePre_of_ok i₁ o₁ c₁ e₁
    have hp₂ := turn_pre hs hc hp
    obtain ⟨b₂, v₂, e₂, -⟩ := zStep_ok i₂ o₂ c₂ hp₂
    have r₁ : ZebReaches o₁ tr cx₁ cy₁ (cs₁ ++ [c₁]) v₁ := (zReaches_append hw₁).2 (by simp [Zeb.run, e₁, ok_bind])
    have r₂ : ZebReaches o₂ tr cx₂ cy₂ (cs₂ ++ [c₂]) v₂ := (zReaches_append hw₂).2 (by simp [Zeb.run, e₂, ok_bind])
    have a₁ : zebSettingsOf cx₁ cy₁ (cs₁ ++ [c₁]) = (zebSettingsOf cx₁ cy₁ cs₁).apply c₁ := after_append _ _ _
    have a₂ : zebSettingsOf cx₂ cy₂ (cs₂ ++ [c₂]) = (zebSettingsOf cx₂ cy₂ cs₂).apply c₂ := after_append _ _ _
    obtain ⟨t1, t2, t3, t4⟩ := turn_apply hs hc
    have hst : v₂.state = g.state v₁.state ∧ g.Jerks (zebSettingsOf cx₁ cy₁ cs₁).nbSamples v₁.X.get v₂.X.get := by
      by_cases hsv : ∃ fb, c₁ = .solve fb
      · obtain ⟨fb, rfl⟩ := hsv
        obtain ⟨hj, hq⟩ := hsol [] fb ds₁ rfl
        rw [List.append_nil] at hj hq
        cases hc
        obtain ⟨qp₁, qp₂, g₁, g₂, hex, hmain⟩ := C89_solve g hg hw₁ hw₂ hs hL hk hz hX hp.2 hj hp.1
        have k₁ := hq w₁ qp₁ hw₁ g₁
        exact (hmain o₁ o₂ _ _ _ _ (ho₁ _ _ _ k₁) (ho₂ _ _ _ (hex k₁)) e₁ e₂).symm
      · push Not at hsv
        obtain ⟨u1, u2⟩ := (turn_setter hc hsv).1 e₁
        obtain ⟨v1, v2⟩ := (turn_setter hc hsv).2 e₂
        rw [u1, u2, v1, v2]
        exact ⟨hz, hX⟩
    have hap : ∀ (as : List (ZebCall K)) c ds, as ++ c :: ds = as ++ [c] ++ ds := by intro as c ds; simp
    have hN' : (zebSettingsOf cx₁ cy₁ (cs₁ ++ [c₁])).nbSamples = N := by rw [a₁, t2, hN]
    rw [hap] at hw₁' ⊢
    exact ih r₁ r₂ (by rw [a₁, a₂]; exact t1)
      (by
        rw [tiltHeight_append, tiltHeight_append]
        exact ((t3 _).2.trans hL).trans (t3 _).1.symm)
      (by
        have l₁ : (Spec.ZebSettings.init cx₁ cy₁).usedShift (0, 0) (cs₁ ++ [c₁])
            = (Spec.ZebSettings.init cx₁ cy₁).usedShift (0, 0) cs₁ := by rw [usedShift_append]; exact (t4 _).1
        have l₂ : (Spec.ZebSettings.init cx₂ cy₂).usedShift (0, 0) (cs₂ ++ [c₂])
            = (Spec.ZebSettings.init cx₂ cy₂).usedShift (0, 0) cs₂ := by rw [usedShift_append]; exact (t4 _).2
        rw [l₁, l₂, hk])
      hst.1
      (fun es fb fs h => by
        have := hsol (c₁ :: es) fb fs (by rw [h]; rfl)
        rwa [hap] at this)
      hw₁' (by rw [← hN]; exact hst.2) hN'

/-! ### A robot and the same robot after a quarter turn -/

/-- `sin` and `cos` of 0 and of a quarter turn, which is 1 here. -/
def trigQuarter : Trig ℚ := ⟨fun y => if y = 0 then 0 else 1, fun y => if y = 0 then 1 else 0⟩

def quarterTurn : Spec.Turn ℚ := ⟨0, -1, 1, 0⟩

/-- `zRestHistory` after a quarter turn. -/
def zTurnedHistory : List (ZebCall ℚ) :=
  [.setBaseMass 2, .setBodyHeight (4 / 5), .setBaseHeight (1 / 10),
    .setCopPolygon ⟨4, fun i => [⟨-1, 1⟩, ⟨-1, -1⟩, ⟨1, -1⟩, ⟨1, 1⟩].getD i ⟨0, 0⟩⟩,
    .setComPolygon ⟨4, fun i => [⟨-1, 1⟩, ⟨-1, -1⟩, ⟨1, -1⟩, ⟨1, 1⟩].getD i ⟨0, 0⟩⟩,
    .setWeightings ⟨1, 1, 1, 1, 1, 1, 1⟩, .setConfig ⟨true, true, true, true⟩, .setYaw ⟨3, fun i => if i = 0 then 1 else 0⟩,
    .setBaseX ⟨3, fun i => if i = 0 then 2 else 0⟩, .setBaseY ⟨3, fun i => if i = 0 then 3 else 0⟩,
    .setComX ⟨3, fun i => if i = 0 then 2 else 0⟩, .setComY ⟨3, fun i => if i = 0 then 7 / 2 else 0⟩,
    .setPosRef ⟨2, fun i => if i = 0 then 2 else 3⟩, .setComRef ⟨2, fun i => if i = 0 then 0 else 1 / 2⟩,
    .setCopRef ⟨2, fun i => if i = 0 then 0 else 1 / 6⟩, .setContactX 0, .setContactY (1 / 4)]

theorem zQuarter_reaches (o : Oracle ℚ) (cs : List (ZebCall ℚ)) (hc : ∀ c ∈ cs, c.isSetter = true) (p q u v : ℚ)
    (h : okAnd (fun w : Zeb ℚ => decide (w.lip.x.p = p ∧ w.lip.x.v = 0 ∧ w.lip.x.a = 0) &&
        decide (w.lip.y.p = q ∧ w.lip.y.v = 0 ∧ w.lip.y.a = 0) && decide (w.base.x.p = u ∧ w.base.x.v = 0 ∧ w.base.x.a = 0) &&
        decide (w.base.y.p = v ∧ w.base.y.v = 0 ∧ w.base.y.a = 0) && zNoJerk w)
      (do Zeb.run (fun _ _ _ => (true, fun _ => 0)) trigQuarter (← Zeb.make trigQuarter (some 0, some 0)) cs) = true) :
    ∃ w, ZebReaches o trigQuarter 0 0 cs w ∧
      w.state = ⟨⟨p, 0, 0⟩, ⟨q, 0, 0⟩, ⟨u, 0, 0⟩, ⟨v, 0, 0⟩⟩ ∧ ∀ i < 4, w.X.get i = 0 := by
  obtain ⟨w, e, hc'⟩ := okAnd_true h
  simp only [Bool.and_eq_true, decide_eq_true_eq] at hc'
  obtain ⟨⟨⟨⟨⟨a1, a2, a3⟩, b1, b2, b3⟩, c1, c2, c3⟩, d1, d2, d3⟩, hX⟩ := hc'
  refine ⟨w, ?_, ?_, zNoJerk_get hX⟩
  · rw [zReaches_setters _ _ hc o] at e
    exact e
  · have ext : ∀ {x : State3 ℚ} {p : ℚ}, x.p = p → x.v = 0 → x.a = 0 → x = ⟨p, 0, 0⟩ := by
      rintro ⟨_, _, _⟩ _ rfl rfl rfl; rfl
    unfold Zeb.state
    rw [ext a1 a2 a3, ext b1 b2 b3, ext c1 c2 c3, ext d1 d2 d3]

theorem zTurned_settings : quarterTurn.Settings trigQuarter (zebSettingsOf 0 0 zRestHistory) (zebSettingsOf 0 0 zTurnedHistory) := by
  have refs : ∀ {v v' : Vec ℚ}, v'.size = v.size → v'.get 0 = quarterTurn.x (v.get 0) (v.get 1) →
      v'.get 1 = quarterTurn.y (v.get 0) (v.get 1) → quarterTurn.Refs 1 v v' := by
    intro v v' h0 h1 h2
    refine ⟨h0, fun i hi => ?_, fun i hi => ?_⟩ <;> obtain rfl : i = 0 := by omega
    · exact h1
    · exact h2
  refine ⟨?_, ?_, ?_, ⟨rfl, Or.inl ⟨by decide +kernel, ?_⟩⟩, ⟨rfl, Or.inl ⟨by decide +kernel, ?_⟩⟩, refs rfl ?_ ?_, refs rfl ?_ ?_,
    refs rfl ?_ ?_, refs rfl ?_ ?_, ?_, ?_, ?_, ?_, ?_, ?_⟩
  · simp only [zebSettingsOf, Spec.ZebSettings.after, zRestHistory, zTurnedHistory, List.foldl, Spec.ZebSettings.apply]
  · decide +kernel
  · decide +kernel
  · show ∀ i < 4, _
    decide +kernel
  · show ∀ i < 4, _
    decide +kernel
  all_goals first | decide +kernel | rfl

/-- `C89_turn` applies to these two robots, with all constraints and objectives on. -/
example (o₁ o₂ : Oracle ℚ) (ho₁ : Spec.FindsSolution o₁) (ho₂ : Spec.FindsSolution o₂) :
    ∃ w₁ w₂, ZebReaches o₁ trigQuarter 0 0 (zRestHistory ++ [.solve 1]) w₁ ∧
      ZebReaches o₂ trigQuarter 0 0 (zTurnedHistory ++ [.solve 1]) w₂ ∧ w₂.state = quarterTurn.state w₁.state := by
  obtain ⟨w₁, h₁, z₁, x₁⟩ := zQuarter_reaches o₁ zRestHistory (by decide) (7 / 2) (-2) 3 (-2) (by decide +kernel)
  obtain ⟨w₂, h₂, z₂, x₂⟩ := zQuarter_reaches o₂ zTurnedHistory (by decide) 2 (7 / 2) 2 3 (by decide +kernel)
  have hj : 0 < (zebSettingsOf (0 : ℚ) 0 zRestHistory).weighting.jerkMinimization := by decide +kernel
  have hr : (zebSettingsOf (0 : ℚ) 0 zRestHistory).RefsCurrent := ⟨rfl, rfl, rfl⟩
  obtain ⟨hm, ha, ht⟩ := Resting.steady (zRest_resting z₁) (trigQuarter.cos (zebSettingsOf 0 0 zRestHistory).yaw.p)
    (trigQuarter.sin (zebSettingsOf 0 0 zRestHistory).yaw.p) w₁.X.get (zReachable_limits h₁) x₁
  obtain ⟨qp, hgv, hex, -⟩ := C66_steady h₁ hr one_pos hj hm ha ht
  obtain ⟨b, w₁', e₁, -⟩ := hgv o₁
  have hw₁' : ZebReaches o₁ trigQuarter 0 0 (zRestHistory ++ [.solve 1]) w₁' := by
    rw [zReaches_append h₁]; simp [Zeb.run, Zeb.step, e₁, ok_bind]
  obtain ⟨w₂', a, c, -⟩ := C89_turn quarterTurn (Or.inr ⟨rfl, rfl, by simp [quarterTurn], by simp [quarterTurn]⟩) ho₁ ho₂ h₁ h₂
    zTurned_settings (by decide +kernel) (by decide +kernel)
    (by rw [z₁, z₂]; simp only [Spec.Turn.state, Spec.Turn.sx, Spec.Turn.sy, Spec.Turn.x, Spec.Turn.y, quarterTurn]; norm_num)
    (by
      refine ⟨fun i hi => ?_, fun i hi => ?_, fun i hi => ?_, fun i hi => ?_⟩ <;>
      · obtain rfl : i = 0 := by
          have : i < 1 := hi
          omega
        simp only [Spec.jerkCX, Spec.jerkCY, Spec.jerkBX, Spec.jerkBY]
        have e : (zebSettingsOf (0 : ℚ) 0 zRestHistory).nbSamples = 1 := rfl
        rw [e]
        norm_num [x₁ 0, x₁ 1, x₁ 2, x₁ 3, x₂ 0, x₂ 1, x₂ 2, x₂ 3, Spec.Turn.x, Spec.Turn.y])
    [.solve 1] [.solve 1] (.cons (.solve 1) .nil) (fun es fb fs h => by
      obtain rfl : es = [] := by
        cases es with
        | nil => rfl
        | cons c es => simp at h
      obtain rfl : fb = 1 := (by simpa using h.symm : fb = 1 ∧ fs = []).1
      refine ⟨by rw [List.append_nil]; exact hj, fun w qp' hw hg' => ?_⟩
      rw [List.append_nil] at hw
      obtain rfl : w₁ = w := Except.ok.inj (h₁.symm.trans hw)
      obtain rfl := hgv.unique (zReachable_inv h₁) hg'
      exact hex) w₁' hw₁'
  exact ⟨w₁', w₂', hw₁', a, c⟩

end MPC
