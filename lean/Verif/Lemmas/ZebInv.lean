import Verif.Lemmas.ZebPrep

/-! # Invariant of `ZebulonWalkgen` along histories of calls -/

set_option linter.unusedSectionVars false
set_option linter.unusedTactic false
set_option linter.unreachableTactic false

namespace MPC

open Finset

variable {K : Type} [Field K] [LinearOrder K] [IsStrictOrderedRing K] [FloorRing K]

variable {tr : Trig K} {s : Spec.ZebSettings K} {L : K} {k : K × K} {w : Zeb K}

/-! ### Setters that refresh objectives -/

theorem zRegular_of_tilt {F : ZO → Prop} {α : Type} {f : Zeb K → Res α} {r : α} (h : ZPart tr s L k F w)
    (e : (w.refreshTilt >>= f) = .ok r) : s.TiltRegular := by
  obtain ⟨_, e, -⟩ := bind_eq_ok.1 e
  obtain ⟨t, e, -⟩ := bind_eq_ok.1 e
  exact (Tilt.compute_iff h.user.model h.user.dbx h.user.dby).1 ⟨t, e⟩

/-- The tilt objectives depend on five settings only. -/
theorem zTilt_move {s' : Spec.ZebSettings K} {cx cy : K} {t : Tilt K}
    (h : ∃ u ps, t.Is s L cx cy u ps ∧ TiltSol s L u ps) (h1 : s.nbSamples = s'.nbSamples)
    (h2 : s.period = s'.period) (h3 : s.bodyMass = s'.bodyMass) (h4 : s.baseMass = s'.baseMass)
    (h5 : s.bodyHeight = s'.bodyHeight) : ∃ u ps, t.Is s' L cx cy u ps ∧ TiltSol s' L u ps := by
  cases s; cases s'
  dsimp only at h1 h2 h3 h4 h5
  subst h1 h2 h3 h4 h5
  obtain ⟨u, ps, a, b⟩ := h
  exact ⟨u, ps, ⟨a.uInv, a.psiXK, a.psiYK, a.psiXS, a.psiYS, a.cU, a.cUT, a.cS, a.bU, a.bUT, a.bS, a.hessian⟩,
    ⟨b.inv, b.ps⟩⟩

theorem zTiltVel_move {s' : Spec.ZebSettings K} {cx cy : K} {t : Tilt K}
    (h : ∃ u ps, t.Is s L cx cy u ps ∧ TiltVelSol s L u ps) (h1 : s.nbSamples = s'.nbSamples)
    (h2 : s.period = s'.period) (h3 : s.bodyMass = s'.bodyMass) (h4 : s.baseMass = s'.baseMass)
    (h5 : s.bodyHeight = s'.bodyHeight) : ∃ u ps, t.Is s' L cx cy u ps ∧ TiltVelSol s' L u ps := by
  cases s; cases s'
  dsimp only at h1 h2 h3 h4 h5
  subst h1 h2 h3 h4 h5
  obtain ⟨u, ps, a, b⟩ := h
  exact ⟨u, ps, ⟨a.uInv, a.psiXK, a.psiYK, a.psiXS, a.psiYS, a.cU, a.cUT, a.cS, a.bU, a.bUT, a.bS, a.hessian⟩,
    ⟨b.inv, b.ps⟩⟩

/-- The settings `s'` and the models `l'`, `b'` replace the current ones, where `b'` differs from the current base
model in its dynamics only. -/
theorem ZUser.models (h : ZUser s w) {s' : Spec.ZebSettings K} {l' : Lip K} {b' : Base K} (hm : ZModel s' l' b')
    (hb : ∃ N T p v a j cx cy t tv ch gx gy gz m tm, b' = { w.base with
      N := N, T := T, pos := p, vel := v, acc := a, jerk := j, copX := cx, copY := cy, tilt := t, tiltVel := tv
      comHeight := ch, gx := gx, gy := gy, gz := gz, mass := m, totalMass := tm })
    (hs : ∃ T gx gy gz bh Bh m M, s' = { s with
      period := T, gx := gx, gy := gy, gz := gz, bodyHeight := bh, baseHeight := Bh, bodyMass := m, baseMass := M }) :
    ZUser s' { w with lip := l', base := b' } := by
  obtain ⟨_, _, _, _, _, _, _, _, _, _, _, _, _, _, _, _, rfl⟩ := hb
  obtain ⟨_, _, _, _, _, _, _, _, rfl⟩ := hs
  exact { h with model := hm }

theorem zSetNbSamples (h : ZInv tr s L k w) {n : ℕ} (hn : 0 < n) :
    (s.TiltRegular → ∃ w', w.setNbSamples tr n = .ok w' ∧
      ZInv tr { s with nbSamples := n, comRef := Vec.const (2 * n) 0 } s.baseHeight (0, 0) w') ∧
    ((∃ w', w.setNbSamples tr n = .ok w') → s.TiltRegular) := by
  have hu := h.part.user
  obtain ⟨l', b', el, eb⟩ := hu.model.setNbSamplesOk hn
  obtain ⟨hm, -, ⟨_, _, _, _, _, _, _, _, hb⟩⟩ := hu.model.setNbSamples (Vec.const (2 * n) 0) el eb
  have h0 : ZPart tr { s with nbSamples := n, comRef := Vec.const (2 * n) 0 } s.baseHeight (0, 0)
      (fun o => o = .shift) { w with
        lip := l', base := b'
        comObj := { w.comObj with ref := Vec.const (2 * n) 0, shift := Vec.const (2 * n) 0
                                  gravityShift := Vec.const (2 * n) 0 }
        dX := Vec.const (4 * n) 0, X := Vec.const (4 * n) 0 } := by
    refine ⟨?_, ?_⟩
    · subst hb
      exact { hu with model := hm, X := rfl, dX := rfl, comRef := ⟨rfl, fun _ _ => rfl⟩, comSize := rfl }
    · rintro o rfl
      have z : ∀ i, zStack n (fun _ => (0 : K)) (fun _ => 0) i = 0 := fun i => by unfold zStack; split_ifs <;> rfl
      exact ⟨⟨rfl, fun i _ => (z i).symm⟩, ⟨rfl, fun i _ => by
        show (0 : K) = 0 + zStack n (fun _ => (0 : K)) (fun _ => 0) i
        rw [z, add_zero]⟩⟩
  unfold Zeb.setNbSamples ComCentering.setNbSamples
  rw [require_pos hn, ok_bind, el, ok_bind, eb, ok_bind, ok_bind]
  simp only [res_pure, ok_bind]
  obtain ⟨w1, e1, h1, -, -⟩ := h0.refreshJerk
  rw [e1, ok_bind]
  refine ⟨fun hr => ?_, fun ⟨_, e⟩ => by
    have := zRegular_of_tilt h1 e
    exact this⟩
  obtain ⟨w2, e2, h2, -, -⟩ := h1.refreshTilt hr
  rw [e2, ok_bind]
  obtain ⟨w3, e3, h3, -, -⟩ := h2.refreshTiltVel hr
  rw [e3, ok_bind]
  obtain ⟨w4, e4, h4, -, -⟩ := h3.refreshCopCtr
  rw [e4, ok_bind]
  obtain ⟨w5, e5, h5, -, -⟩ := h4.refreshComCtr
  rw [e5, ok_bind]
  obtain ⟨w6, e6, h6, -, -⟩ := h5.refreshCop
  rw [e6, ok_bind]
  obtain ⟨w7, e7, h7, -, -⟩ := h6.refreshCom
  rw [e7, ok_bind]
  obtain ⟨w8, e8, h8, -, -⟩ := h7.refreshVel
  rw [e8, ok_bind]
  obtain ⟨w9, e9, h9, -, -⟩ := h8.refreshPos
  rw [e9, ok_bind]
  obtain ⟨w10, e10, h10, -, -⟩ := h9.refreshBaseCtr
  rw [e10, ok_bind]
  obtain ⟨w11, e11, h11, -, -⟩ := h10.refreshTiltCtr
  rw [e11, ok_bind]
  obtain ⟨w12, e12, h12, -⟩ := h11.computeConstantPart (fun o => by cases o <;> simp)
  exact ⟨w12, e12, h12⟩

theorem zSetSamplingPeriod (h : ZInv tr s L k w) {T : K} (hT : 0 < T) :
    (({ s with period := T } : Spec.ZebSettings K).TiltRegular → ∃ w', w.setSamplingPeriod tr T = .ok w' ∧
      ZInv tr { s with period := T } s.baseHeight k w') ∧
    ((∃ w', w.setSamplingPeriod tr T = .ok w') → ({ s with period := T } : Spec.ZebSettings K).TiltRegular) := by
  have hu := h.part.user
  obtain ⟨l', b', el, eb⟩ := hu.model.setSamplingPeriodOk hT
  obtain ⟨hm, -, ⟨_, _, _, _, _, _, _, _, hb⟩⟩ := hu.model.setSamplingPeriod el eb
  have h0 : ZPart tr { s with period := T } s.baseHeight k (fun o => o = .shift ∨ o = .jerk)
      { w with lip := l', base := b' } := by
    refine ⟨hu.models hm ⟨_, _, _, _, _, _, _, _, _, _, _, _, _, _, _, _, hb⟩ ⟨_, _, _, _, _, _, _, _, rfl⟩, ?_⟩
    rintro o (rfl | rfl)
    · exact h.part.fresh .shift trivial
    · exact h.part.fresh .jerk trivial
  unfold Zeb.setSamplingPeriod
  rw [require_pos hT, ok_bind, el, ok_bind, eb, ok_bind]
  dsimp only
  obtain ⟨w1, e1, h1, -, -⟩ := h0.refreshCopCtr
  rw [e1, ok_bind]
  obtain ⟨w2, e2, h2, -, -⟩ := h1.refreshComCtr
  rw [e2, ok_bind]
  obtain ⟨w3, e3, h3, -, -⟩ := h2.refreshCop
  rw [e3, ok_bind]
  obtain ⟨w4, e4, h4, -, -⟩ := h3.refreshCom
  rw [e4, ok_bind]
  obtain ⟨w5, e5, h5, -, -⟩ := h4.refreshVel
  rw [e5, ok_bind]
  obtain ⟨w6, e6, h6, -, -⟩ := h5.refreshPos
  rw [e6, ok_bind]
  obtain ⟨w7, e7, h7, -, -⟩ := h6.refreshBaseCtr
  rw [e7, ok_bind]
  obtain ⟨w8, e8, h8, -, -⟩ := h7.refreshTiltCtr
  rw [e8, ok_bind]
  refine ⟨fun hr => ?_, fun ⟨_, e⟩ => zRegular_of_tilt h8 e⟩
  obtain ⟨w9, e9, h9, -, -⟩ := h8.refreshTilt hr
  rw [e9, ok_bind]
  obtain ⟨w10, e10, h10, -, -⟩ := h9.refreshTiltVel hr
  rw [e10, ok_bind]
  obtain ⟨w11, e11, h11, -⟩ := h10.computeConstantPart (fun o => by cases o <;> simp)
  exact ⟨w11, e11, h11⟩

theorem zSetGravity (h : ZInv tr s L k w) (gx gy : K) {gz : K} (hg : EPS < |gz|) :
    ∃ w', w.setGravity gx gy gz = .ok w' ∧
      ZInv tr { s with gx := gx, gy := gy, gz := gz } L (s.nextShift k (.setGravity gx gy gz)) w' := by
  have hu := h.part.user
  obtain ⟨l', b', el, eb⟩ := hu.model.setGravityOk gx gy hg
  obtain ⟨hm, -, ⟨_, _, hb⟩⟩ := hu.model.setGravity el eb
  have h0 : ZPart tr { s with gx := gx, gy := gy, gz := gz } L (s.nextShift k (.setGravity gx gy gz))
      (fun o => o ≠ .copCtr ∧ o ≠ .cop ∧ o ≠ .shift) { w with lip := l', base := b' } := by
    refine ⟨hu.models hm ⟨_, _, _, _, _, _, _, _, _, _, _, _, _, _, _, _, hb⟩ ⟨_, _, _, _, _, _, _, _, rfl⟩, ?_⟩
    intro o ho
    have hf := h.part.fresh o trivial
    cases o <;> first | exact hf | exact zTilt_move hf rfl rfl rfl rfl rfl | exact zTiltVel_move hf rfl rfl rfl rfl rfl | exact absurd rfl ho.1 | exact absurd rfl ho.2.1 | exact absurd rfl ho.2.2.1 | exact absurd rfl ho.2.2.2.1 | exact absurd rfl ho.2.2.2.2 | exact absurd rfl ho.2.2 | exact absurd rfl ho.2
  unfold Zeb.setGravity
  rw [require_pos hg, ok_bind, el, ok_bind, eb, ok_bind]
  dsimp only
  obtain ⟨w1, e1, h1, -, -⟩ := h0.refreshCopCtr
  rw [e1, ok_bind]
  obtain ⟨w2, e2, h2, -, -⟩ := h1.refreshCop
  rw [e2, ok_bind]
  obtain ⟨w3, e3, h3, -, -⟩ := h2.refreshShift rfl
  rw [e3, ok_bind]
  obtain ⟨w4, e4, h4, -⟩ := h3.computeConstantPart (fun o => by cases o <;> simp)
  exact ⟨w4, e4, h4⟩

theorem zSetCopPolygon (h : ZInv tr s L k w) {p : Vec (Pt K)} (hp : 3 ≤ p.size) :
    ∃ w', w.setCopPolygon p = .ok w' ∧ ZInv tr { s with copPolygon := p } L k w' := by
  have hu := h.part.user
  have h0 : ZPart tr { s with copPolygon := p } L k (fun o => o ≠ .copCtr)
      { w with base := { w.base with copPoly := p } } := by
    refine ⟨{ hu with model := ?_, copPoly := rfl }, ?_⟩
    · have hm := hu.model.withState w.lip.x w.lip.y w.base.x w.base.y w.base.roll w.base.pitch w.base.yaw w.base.velLimit
        w.base.accLimit w.base.jerkLimit p w.base.comPoly w.base.dbx w.base.dby
      exact { hm with }
    intro o ho
    have hf := h.part.fresh o trivial
    cases o <;> first | exact hf | exact zTilt_move hf rfl rfl rfl rfl rfl | exact zTiltVel_move hf rfl rfl rfl rfl rfl | exact absurd rfl ho
  unfold Zeb.setCopPolygon
  rw [require_pos hp, ok_bind]
  dsimp only
  obtain ⟨w1, e1, h1, -, -⟩ := h0.refreshCopCtr
  rw [e1, ok_bind]
  obtain ⟨w2, e2, h2, -⟩ := h1.computeConstantPart (fun o => by cases o <;> simp)
  exact ⟨w2, e2, h2⟩

theorem zSetComPolygon (h : ZInv tr s L k w) {p : Vec (Pt K)} (hp : 3 ≤ p.size) :
    ∃ w', w.setComPolygon p = .ok w' ∧ ZInv tr { s with comPolygon := p } L k w' := by
  have hu := h.part.user
  have h0 : ZPart tr { s with comPolygon := p } L k (fun o => o ≠ .comCtr)
      { w with base := { w.base with comPoly := p } } := by
    refine ⟨{ hu with model := ?_, comPoly := rfl }, ?_⟩
    · have hm := hu.model.withState w.lip.x w.lip.y w.base.x w.base.y w.base.roll w.base.pitch w.base.yaw w.base.velLimit
        w.base.accLimit w.base.jerkLimit w.base.copPoly p w.base.dbx w.base.dby
      exact { hm with }
    intro o ho
    have hf := h.part.fresh o trivial
    cases o <;> first | exact hf | exact zTilt_move hf rfl rfl rfl rfl rfl | exact zTiltVel_move hf rfl rfl rfl rfl rfl | exact absurd rfl ho
  unfold Zeb.setComPolygon
  rw [require_pos hp, ok_bind]
  dsimp only
  obtain ⟨w1, e1, h1, -, -⟩ := h0.refreshComCtr
  rw [e1, ok_bind]
  obtain ⟨w2, e2, h2, -⟩ := h1.computeConstantPart (fun o => by cases o <;> simp)
  exact ⟨w2, e2, h2⟩

theorem zSetBodyHeight (h : ZInv tr s L k w) (x : K) :
    (({ s with bodyHeight := x } : Spec.ZebSettings K).TiltRegular → ∃ w', w.setBodyHeight x = .ok w' ∧
      ZInv tr { s with bodyHeight := x } s.baseHeight (s.nextShift k (.setBodyHeight x)) w') ∧
    ((∃ w', w.setBodyHeight x = .ok w') → ({ s with bodyHeight := x } : Spec.ZebSettings K).TiltRegular) := by
  have hu := h.part.user
  obtain ⟨l', el⟩ := hu.model.setBodyHeightOk x
  obtain ⟨hm, -⟩ := hu.model.setBodyHeight el
  have h0 : ZPart tr { s with bodyHeight := x } s.baseHeight (s.nextShift k (.setBodyHeight x))
      (fun o => o ≠ .copCtr ∧ o ≠ .cop ∧ o ≠ .shift ∧ o ≠ .tilt ∧ o ≠ .tiltVel) { w with lip := l' } := by
    refine ⟨hu.models (b' := w.base) hm ⟨_, _, _, _, _, _, _, _, _, _, _, _, _, _, _, _, rfl⟩ ⟨_, _, _, _, _, _, _, _, rfl⟩, ?_⟩
    intro o ho
    have hf := h.part.fresh o trivial
    cases o <;> first | exact hf | exact zTilt_move hf rfl rfl rfl rfl rfl | exact zTiltVel_move hf rfl rfl rfl rfl rfl | exact absurd rfl ho.1 | exact absurd rfl ho.2.1 | exact absurd rfl ho.2.2.1 | exact absurd rfl ho.2.2.2.1 | exact absurd rfl ho.2.2.2.2 | exact absurd rfl ho.2.2 | exact absurd rfl ho.2
  unfold Zeb.setBodyHeight
  rw [el, ok_bind]
  dsimp only
  obtain ⟨w1, e1, h1, -, -⟩ := h0.refreshCopCtr
  rw [e1, ok_bind]
  obtain ⟨w2, e2, h2, -, -⟩ := h1.refreshCop
  rw [e2, ok_bind]
  obtain ⟨w3, e3, h3, -, -⟩ := h2.refreshShift rfl
  rw [e3, ok_bind]
  refine ⟨fun hr => ?_, fun ⟨_, e⟩ => zRegular_of_tilt h3 e⟩
  obtain ⟨w4, e4, h4, -, -⟩ := h3.refreshTilt hr
  rw [e4, ok_bind]
  obtain ⟨w5, e5, h5, -, -⟩ := h4.refreshTiltVel hr
  rw [e5, ok_bind]
  obtain ⟨w6, e6, h6, -⟩ := h5.computeConstantPart (fun o => by cases o <;> simp)
  exact ⟨w6, e6, h6⟩

theorem zSetBaseHeight (h : ZInv tr s L k w) (x : K) :
    ∃ w', w.setBaseHeight x = .ok w' ∧
      ZInv tr { s with baseHeight := x } L (s.nextShift k (.setBaseHeight x)) w' := by
  have hu := h.part.user
  obtain ⟨b', eb⟩ := hu.model.setBaseHeightOk x
  obtain ⟨hm, ⟨_, _, hb⟩⟩ := hu.model.setBaseHeight eb
  have h0 : ZPart tr { s with baseHeight := x } L (s.nextShift k (.setBaseHeight x))
      (fun o => o ≠ .copCtr ∧ o ≠ .cop ∧ o ≠ .shift) { w with base := b' } := by
    refine ⟨hu.models hm ⟨_, _, _, _, _, _, _, _, _, _, _, _, _, _, _, _, hb⟩ ⟨_, _, _, _, _, _, _, _, rfl⟩, ?_⟩
    intro o ho
    have hf := h.part.fresh o trivial
    cases o <;> first | exact hf | exact zTilt_move hf rfl rfl rfl rfl rfl | exact zTiltVel_move hf rfl rfl rfl rfl rfl | exact absurd rfl ho.1 | exact absurd rfl ho.2.1 | exact absurd rfl ho.2.2.1 | exact absurd rfl ho.2.2.2.1 | exact absurd rfl ho.2.2.2.2 | exact absurd rfl ho.2.2 | exact absurd rfl ho.2
  unfold Zeb.setBaseHeight
  rw [eb, ok_bind]
  dsimp only
  obtain ⟨w1, e1, h1, -, -⟩ := h0.refreshCopCtr
  rw [e1, ok_bind]
  obtain ⟨w2, e2, h2, -, -⟩ := h1.refreshCop
  rw [e2, ok_bind]
  obtain ⟨w3, e3, h3, -, -⟩ := h2.refreshShift rfl
  rw [e3, ok_bind]
  obtain ⟨w4, e4, h4, -⟩ := h3.computeConstantPart (fun o => by cases o <;> simp)
  exact ⟨w4, e4, h4⟩

theorem zSetBodyMass (h : ZInv tr s L k w) {m : K} (hm0 : 0 ≤ m) (ht : EPS < m + s.baseMass)
    (hle : s.bodyMass ≤ m + s.baseMass) :
    (({ s with bodyMass := m } : Spec.ZebSettings K).TiltRegular → ∃ w', w.setBodyMass m = .ok w' ∧
      ZInv tr { s with bodyMass := m } s.baseHeight (s.nextShift k (.setBodyMass m)) w') ∧
    ((∃ w', w.setBodyMass m = .ok w') → ({ s with bodyMass := m } : Spec.ZebSettings K).TiltRegular) := by
  have hu := h.part.user
  obtain ⟨l₁, l', b', el, eb, el'⟩ := hu.model.setBodyMassOk hm0 ht hle
  obtain ⟨hm, -, ⟨_, _, _, hb⟩⟩ := hu.model.setBodyMass el eb el'
  have h0 : ZPart tr { s with bodyMass := m } s.baseHeight (s.nextShift k (.setBodyMass m))
      (fun o => o ≠ .copCtr ∧ o ≠ .cop ∧ o ≠ .shift ∧ o ≠ .tilt ∧ o ≠ .tiltVel) { w with lip := l', base := b' } := by
    refine ⟨hu.models hm ⟨_, _, _, _, _, _, _, _, _, _, _, _, _, _, _, _, hb⟩ ⟨_, _, _, _, _, _, _, _, rfl⟩, ?_⟩
    intro o ho
    have hf := h.part.fresh o trivial
    cases o <;> first | exact hf | exact zTilt_move hf rfl rfl rfl rfl rfl | exact zTiltVel_move hf rfl rfl rfl rfl rfl | exact absurd rfl ho.1 | exact absurd rfl ho.2.1 | exact absurd rfl ho.2.2.1 | exact absurd rfl ho.2.2.2.1 | exact absurd rfl ho.2.2.2.2 | exact absurd rfl ho.2.2 | exact absurd rfl ho.2
  unfold Zeb.setBodyMass
  dsimp only
  rw [el, ok_bind, eb, ok_bind, el', ok_bind]
  obtain ⟨w1, e1, h1, -, -⟩ := h0.refreshCopCtr
  rw [e1, ok_bind]
  obtain ⟨w2, e2, h2, -, -⟩ := h1.refreshCop
  rw [e2, ok_bind]
  obtain ⟨w3, e3, h3, -, -⟩ := h2.refreshShift rfl
  rw [e3, ok_bind]
  refine ⟨fun hr => ?_, fun ⟨_, e⟩ => zRegular_of_tilt h3 e⟩
  obtain ⟨w4, e4, h4, -, -⟩ := h3.refreshTilt hr
  rw [e4, ok_bind]
  obtain ⟨w5, e5, h5, -, -⟩ := h4.refreshTiltVel hr
  rw [e5, ok_bind]
  obtain ⟨w6, e6, h6, -⟩ := h5.computeConstantPart (fun o => by cases o <;> simp)
  exact ⟨w6, e6, h6⟩

theorem zSetBaseMass (h : ZInv tr s L k w) {m : K} (hm0 : 0 < m) (ht : EPS < s.bodyMass + m)
    (hle : s.baseMass ≤ s.bodyMass + m) :
    (({ s with baseMass := m } : Spec.ZebSettings K).TiltRegular → ∃ w', w.setBaseMass m = .ok w' ∧
      ZInv tr { s with baseMass := m } s.baseHeight (s.nextShift k (.setBaseMass m)) w') ∧
    ((∃ w', w.setBaseMass m = .ok w') → ({ s with baseMass := m } : Spec.ZebSettings K).TiltRegular) := by
  have hu := h.part.user
  obtain ⟨l', b₁, b', el, eb, eb'⟩ := hu.model.setBaseMassOk hm0 ht hle
  obtain ⟨hm, -, ⟨_, _, _, hb⟩⟩ := hu.model.setBaseMass el eb eb'
  have h0 : ZPart tr { s with baseMass := m } s.baseHeight (s.nextShift k (.setBaseMass m))
      (fun o => o ≠ .copCtr ∧ o ≠ .cop ∧ o ≠ .shift ∧ o ≠ .tilt ∧ o ≠ .tiltVel) { w with lip := l', base := b' } := by
    refine ⟨hu.models hm ⟨_, _, _, _, _, _, _, _, _, _, _, _, _, _, _, _, hb⟩ ⟨_, _, _, _, _, _, _, _, rfl⟩, ?_⟩
    intro o ho
    have hf := h.part.fresh o trivial
    cases o <;> first | exact hf | exact zTilt_move hf rfl rfl rfl rfl rfl | exact zTiltVel_move hf rfl rfl rfl rfl rfl | exact absurd rfl ho.1 | exact absurd rfl ho.2.1 | exact absurd rfl ho.2.2.1 | exact absurd rfl ho.2.2.2.1 | exact absurd rfl ho.2.2.2.2 | exact absurd rfl ho.2.2 | exact absurd rfl ho.2
  unfold Zeb.setBaseMass
  dsimp only
  rw [el, ok_bind, eb, ok_bind, eb', ok_bind]
  obtain ⟨w1, e1, h1, -, -⟩ := h0.refreshCopCtr
  rw [e1, ok_bind]
  obtain ⟨w2, e2, h2, -, -⟩ := h1.refreshCop
  rw [e2, ok_bind]
  obtain ⟨w3, e3, h3, -, -⟩ := h2.refreshShift rfl
  rw [e3, ok_bind]
  refine ⟨fun hr => ?_, fun ⟨_, e⟩ => zRegular_of_tilt h3 e⟩
  obtain ⟨w4, e4, h4, -, -⟩ := h3.refreshTilt hr
  rw [e4, ok_bind]
  obtain ⟨w5, e5, h5, -, -⟩ := h4.refreshTiltVel hr
  rw [e5, ok_bind]
  obtain ⟨w6, e6, h6, -⟩ := h5.computeConstantPart (fun o => by cases o <;> simp)
  exact ⟨w6, e6, h6⟩

end MPC
