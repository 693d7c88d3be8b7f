import Verif.Lemmas.ZebInv

/-! # Invariant of `ZebulonWalkgen`: all calls, histories, construction -/

set_option linter.unusedSectionVars false
set_option linter.unusedTactic false
set_option linter.unreachableTactic false

namespace MPC

open Finset

variable {K : Type} [Field K] [LinearOrder K] [IsStrictOrderedRing K] [FloorRing K]

variable {tr : Trig K} {s : Spec.ZebSettings K} {L : K} {k : K × K} {w : Zeb K}

/-! ### Setters that keep the matrices -/

theorem zSetVelRef (h : ZInv tr s L k w) (v : Vec K) :
    ZInv tr { s with velRef := v } L k { w with velObj := { w.velObj with ref := v } } := by
  refine ⟨⟨{ h.part.user with model := { h.part.user.model with }, velRef := rfl }, ?_⟩, ⟨h.qp.Q, h.qp.A, h.qp.p, h.qp.bl, h.qp.bu, h.qp.xl,
    h.qp.xu, h.qp.nbVar, h.qp.nbCtr, h.qp.warm⟩⟩
  intro o _
  have hf := h.part.fresh o trivial
  cases o <;> first | exact hf | exact zTilt_move hf rfl rfl rfl rfl rfl | exact zTiltVel_move hf rfl rfl rfl rfl rfl

theorem zSetPosRef (h : ZInv tr s L k w) (v : Vec K) :
    ZInv tr { s with posRef := v } L k { w with posObj := { w.posObj with ref := v } } := by
  refine ⟨⟨{ h.part.user with model := { h.part.user.model with }, posRef := rfl }, ?_⟩, ⟨h.qp.Q, h.qp.A, h.qp.p, h.qp.bl, h.qp.bu, h.qp.xl,
    h.qp.xu, h.qp.nbVar, h.qp.nbCtr, h.qp.warm⟩⟩
  intro o _
  have hf := h.part.fresh o trivial
  cases o <;> first | exact hf | exact zTilt_move hf rfl rfl rfl rfl rfl | exact zTiltVel_move hf rfl rfl rfl rfl rfl

theorem zSetCopRef (h : ZInv tr s L k w) {v r : Vec K} (hr : r.Is v.size v.get) :
    ZInv tr { s with copRef := v } L k { w with copObj := { w.copObj with ref := r } } := by
  refine ⟨⟨{ h.part.user with model := { h.part.user.model with }, copRef := hr }, ?_⟩, ⟨h.qp.Q, h.qp.A, h.qp.p, h.qp.bl, h.qp.bu, h.qp.xl,
    h.qp.xu, h.qp.nbVar, h.qp.nbCtr, h.qp.warm⟩⟩
  intro o _
  have hf := h.part.fresh o trivial
  cases o <;> first | exact hf | exact zTilt_move hf rfl rfl rfl rfl rfl | exact zTiltVel_move hf rfl rfl rfl rfl rfl

theorem zSetComRef (h : ZInv tr s L k w) {v r : Vec K} (hv : v.size = 2 * s.nbSamples)
    (hr : r.Is (2 * s.nbSamples) v.get) :
    ∃ c, w.comObj.setRef w.lip w.base r = .ok c ∧ ZInv tr { s with comRef := v } L k { w with comObj := c } := by
  have hu := h.part.user
  obtain ⟨g1, -⟩ : w.comObj.gravityShift.Is _ _ ∧ w.comObj.shift.Is _ _ := h.part.fresh .shift trivial
  obtain ⟨sh, e, hs⟩ := hr.add g1
  refine ⟨{ w.comObj with ref := r, shift := sh }, ?_, ⟨⟨{ h.part.user with model := { h.part.user.model with }, comRef := hr, comSize := hv }, ?_⟩,
    ⟨h.qp.Q, h.qp.A, h.qp.p, h.qp.bl, h.qp.bu, h.qp.xl, h.qp.xu, h.qp.nbVar, h.qp.nbCtr, h.qp.warm⟩⟩⟩
  · unfold ComCentering.setRef
    rw [require_pos (by rw [hr.1, hu.model.lN]; omega), ok_bind, hu.model.same, ok_bind, e]; rfl
  intro o _
  have hf := h.part.fresh o trivial
  cases o <;> first | exact hf | exact zTilt_move hf rfl rfl rfl rfl rfl | exact zTiltVel_move hf rfl rfl rfl rfl rfl |
    exact ⟨g1, hs⟩

theorem zSetComAndCopRef (h : ZInv tr s L k w) {a b c d : Vec K} (ha : a.size = 2 * s.nbSamples)
    (hb : b.size = 2 * s.nbSamples) (hc : c.size = 2 * s.nbSamples) (hd : d.size = 2 * s.nbSamples)
    (hg : 1 / 1000000 < |(s.baseMass + s.bodyMass) * s.gz|) :
    ∃ w', w.setComAndCopRef a b c d = .ok w' ∧ ZInv tr (s.apply (.setComAndCopRef a b c d)) L k w' := by
  have hu := h.part.user
  have hm := hu.model
  obtain ⟨r, er, hr⟩ := (a.is ha).sub (c.is hc)
  obtain ⟨co, eco, h1⟩ := zSetComRef h (v := ⟨2 * s.nbSamples, fun i => a.get i - c.get i⟩) rfl hr
  have hcg : w.copObj.cgSize = 2 * s.nbSamples := (h.part.fresh .cop trivial).2
  obtain ⟨c1, e1, k1⟩ := (Vec.Is.of (2 * s.nbSamples) fun _ => (0 : K)).setSeg
    (Vec.Is.of s.nbSamples fun _ => s.gx) (s := 0) (by omega)
  obtain ⟨c2, e2, k2⟩ := k1.setSeg (Vec.Is.of s.nbSamples fun _ => s.gy) (s := s.nbSamples) (by omega)
  obtain ⟨v1, f1, m1⟩ := ((c.is hc).smul (s.baseMass * s.gz)).sub ((d.is hd).smul (s.baseMass * s.baseHeight))
  obtain ⟨v2, f2, m2⟩ := m1.add ((a.is ha).smul (s.bodyMass * s.gz))
  obtain ⟨v3, f3, m3⟩ := m2.sub ((b.is hb).smul (s.bodyMass * s.bodyHeight))
  obtain ⟨v4, f4, m4⟩ := m3.add (k2.smul (s.baseMass * s.baseHeight + s.bodyMass * s.bodyHeight))
  obtain ⟨v5, f5, m5⟩ := (m4.smul (((s.baseMass + s.bodyMass) * s.gz)⁻¹)).sub (c.is hc)
  have hv5 : v5.Is (s.copRefOf a b c d).size (s.copRefOf a b c d).get := m5.congr fun i hi => by
    unfold Spec.ZebSettings.copRefOf
    dsimp only
    by_cases hi2 : i < s.nbSamples
    · rw [if_neg (by omega : ¬ (s.nbSamples ≤ i ∧ i < s.nbSamples + s.nbSamples)), if_pos (by omega), if_pos hi2]
    · rw [if_pos (by omega : s.nbSamples ≤ i ∧ i < s.nbSamples + s.nbSamples), if_neg hi2]
  refine ⟨_, ?_, zSetCopRef h1 hv5⟩
  unfold Zeb.setComAndCopRef
  rw [hm.lN, require_pos ha, ok_bind, require_pos hc, ok_bind, require_pos hb, ok_bind, require_pos hd, ok_bind,
    er, ok_bind, eco, ok_bind]
  unfold CopCentering.setRefWorld
  rw [hm.lN, hm.bN, hm.lT, hm.bT, hm.bm, hm.lm, hm.lgz, hm.lgx, hm.lgy, hm.bh, hm.lh, hcg]
  dsimp only
  rw [require_pos ha, ok_bind, require_pos hb, ok_bind, require_pos hc, ok_bind, require_pos hd, ok_bind,
    require_pos rfl, ok_bind, require_pos rfl, ok_bind]
  unfold Vec.const
  rw [e1, ok_bind, e2, ok_bind, require_pos hg, ok_bind, f1, ok_bind, f2, ok_bind, f3, ok_bind, f4, ok_bind, f5]
  rw [hcg]
  rfl

/-- Changes of the states and limits of the base and of the state of the CoM. -/
theorem zWithState (h : ZInv tr s L k w) (cx cy bx by_ roll pitch : State3 K) (vl al jl : K) :
    ZInv tr { s with roll := roll, pitch := pitch, velLimit := vl, accLimit := al, jerkLimit := jl } L k
      { w with lip := { w.lip with x := cx, y := cy }
               base := { w.base with x := bx, y := by_, roll := roll, pitch := pitch, velLimit := vl, accLimit := al
                                     jerkLimit := jl } } := by
  refine ⟨⟨{ h.part.user with model := ?_, roll := rfl, pitch := rfl, velLimit := rfl, accLimit := rfl, jerkLimit := rfl }, ?_⟩,
    ⟨h.qp.Q, h.qp.A, h.qp.p, h.qp.bl, h.qp.bu, h.qp.xl, h.qp.xu, h.qp.nbVar, h.qp.nbCtr, h.qp.warm⟩⟩
  · have hm := h.part.user.model.withState cx cy bx by_ roll pitch w.base.yaw vl al jl w.base.copPoly w.base.comPoly
      w.base.dbx w.base.dby
    exact { hm with }
  intro o _
  have hf := h.part.fresh o trivial
  cases o <;> first | exact hf | exact zTilt_move hf rfl rfl rfl rfl rfl | exact zTiltVel_move hf rfl rfl rfl rfl rfl

/-! ### Contact point, orientation, weights, configuration -/

theorem Tilt.updateContact_hessian {t t' : Tilt K} {l : Lip K} {b : Base K} (e : t.updateContact l b = .ok t') :
    t'.hessian = t.hessian := by
  unfold Tilt.updateContact at e
  obtain ⟨_, -, e⟩ := bind_eq_ok.1 e
  obtain ⟨_, -, e⟩ := bind_eq_ok.1 e
  obtain ⟨_, -, e⟩ := bind_eq_ok.1 e
  obtain ⟨_, -, e⟩ := bind_eq_ok.1 e
  obtain ⟨_, -, e⟩ := bind_eq_ok.1 e
  cases e
  rfl

theorem zSetContact (h : ZInv tr s L k w) (px py : K) :
    ∃ w', Zeb.updateContact { w with base := { w.base with dbx := some px, dby := some py } } = .ok w' ∧
      ZInv tr { s with contactX := px, contactY := py } L k w' := by
  obtain ⟨u, ps, ht, hts⟩ : ∃ u ps, w.tiltObj.Is s L s.contactX s.contactY u ps ∧ TiltSol s L u ps :=
    h.part.fresh .tilt trivial
  obtain ⟨v, qs, hv, hvs⟩ : ∃ u ps, w.tiltVelObj.Is s L s.contactX s.contactY u ps ∧ TiltVelSol s L u ps :=
    h.part.fresh .tiltVel trivial
  have hm := h.part.user.model.withState w.lip.x w.lip.y w.base.x w.base.y w.base.roll w.base.pitch w.base.yaw
    w.base.velLimit w.base.accLimit w.base.jerkLimit w.base.copPoly w.base.comPoly (some px) (some py)
  obtain ⟨t', et, ht'⟩ := Tilt.updateContact_ok hm rfl rfl ht
  obtain ⟨v', ev, hv'⟩ := Tilt.updateContact_ok hm rfl rfl hv
  have t1 := Tilt.updateContact_hessian et
  have v1 := Tilt.updateContact_hessian ev
  refine ⟨{ w with base := { w.base with dbx := some px, dby := some py }, tiltObj := t', tiltVelObj := v' }, ?_,
    ⟨⟨{ h.part.user with model := { hm with }, dbx := rfl, dby := rfl }, ?_⟩,
    ⟨?_, h.qp.A, h.qp.p, h.qp.bl, h.qp.bu, h.qp.xl, h.qp.xu, h.qp.nbVar, h.qp.nbCtr, h.qp.warm⟩⟩⟩
  · unfold Zeb.updateContact
    rw [show w.tiltObj.updateContact w.lip { w.base with dbx := some px, dby := some py } = _ from et, ok_bind,
      show w.tiltVelObj.updateContact w.lip { w.base with dbx := some px, dby := some py } = _ from ev]
    rfl
  · intro o _
    have hf := h.part.fresh o trivial
    cases o <;> first | exact hf | exact zTilt_move ⟨u, ps, ht', hts⟩ rfl rfl rfl rfl rfl |
      exact zTiltVel_move ⟨v, qs, hv', hvs⟩ rfl rfl rfl rfl rfl
  · obtain ⟨Q, e, hQ⟩ := h.qp.Q
    refine ⟨Q, ?_, hQ⟩
    unfold Zeb.buildQ at e ⊢
    dsimp only at e ⊢
    rw [t1, v1]
    exact e

theorem zSetYaw (h : ZInv tr s L k w) (y : State3 K) :
    ∃ w', (do Zeb.computeConstantPart (← Zeb.refreshTiltCtr tr { w with base := { w.base with yaw := y } })) = .ok w' ∧
      ZInv tr { s with yaw := y } L k w' := by
  have hm := h.part.user.model.withState w.lip.x w.lip.y w.base.x w.base.y w.base.roll w.base.pitch y
    w.base.velLimit w.base.accLimit w.base.jerkLimit w.base.copPoly w.base.comPoly w.base.dbx w.base.dby
  have h0 : ZPart tr { s with yaw := y } L k (fun o => o ≠ .tiltCtr) { w with base := { w.base with yaw := y } } := by
    refine ⟨{ h.part.user with model := { hm with }, yaw := rfl }, ?_⟩
    intro o ho
    have hf := h.part.fresh o trivial
    cases o <;> first | exact hf | exact zTilt_move hf rfl rfl rfl rfl rfl | exact zTiltVel_move hf rfl rfl rfl rfl rfl |
      exact absurd rfl ho
  obtain ⟨w1, e1, h1, -, -⟩ := h0.refreshTiltCtr
  rw [e1, ok_bind]
  obtain ⟨w2, e2, h2, -⟩ := h1.computeConstantPart (fun o => by cases o <;> simp)
  exact ⟨w2, e2, h2⟩

theorem zSetWeighting (h : ZInv tr s L k w) (wt : ZWeighting K) :
    ∃ w', Zeb.computeConstantPart { w with weighting := wt } = .ok w' ∧ ZInv tr { s with weighting := wt } L k w' := by
  have h0 : ZPart tr { s with weighting := wt } L k (fun _ => True) { w with weighting := wt } := by
    refine ⟨{ h.part.user with model := { h.part.user.model with }, weighting := rfl }, ?_⟩
    intro o ho
    have hf := h.part.fresh o trivial
    cases o <;> first | exact hf | exact zTilt_move hf rfl rfl rfl rfl rfl | exact zTiltVel_move hf rfl rfl rfl rfl rfl
  obtain ⟨w2, e2, h2, -⟩ := h0.computeConstantPart fun _ => trivial
  exact ⟨w2, e2, h2⟩

theorem zSetConfig (h : ZInv tr s L k w) (c : ZConfig) :
    ∃ w', Zeb.computeConstantPart { w with config := c } = .ok w' ∧ ZInv tr { s with config := c } L k w' := by
  have h0 : ZPart tr { s with config := c } L k (fun _ => True) { w with config := c } := by
    refine ⟨{ h.part.user with model := { h.part.user.model with }, config := rfl }, ?_⟩
    intro o ho
    have hf := h.part.fresh o trivial
    cases o <;> first | exact hf | exact zTilt_move hf rfl rfl rfl rfl rfl | exact zTiltVel_move hf rfl rfl rfl rfl rfl
  obtain ⟨w2, e2, h2, -⟩ := h0.computeConstantPart fun _ => trivial
  exact ⟨w2, e2, h2⟩

/-! ### All calls -/

/-- The assertions of the code on a call, in terms of the settings. -/
def ZCodePre (s : Spec.ZebSettings K) : ZebCall K → Prop
  | .solve fb => 0 < fb ∧ s.RefsCurrent
  | c => s.Pre c

theorem stateArg_ok {v : Vec K} (h : v.size = 3) : stateArg v = .ok (Spec.stateOf v) := by
  unfold stateArg; rw [require_pos h]; rfl

theorem zStep_ok (h : ZInv tr s L k w) (o : Oracle K) (c : ZebCall K) (hc : ZCodePre s c) :
    ∃ b w', w.step o tr c = .ok (b, w') ∧ ZInv tr (s.apply c) (s.nextTiltHeight L c) (s.nextShift k c) w' := by
  have hu := h.part.user
  cases c with
  | setNbSamples n =>
    obtain ⟨w', e, h'⟩ := (zSetNbSamples h hc.1).1 hc.2
    exact ⟨true, w', by unfold Zeb.step; dsimp only; rw [e]; rfl, h'⟩
  | setSamplingPeriod T =>
    obtain ⟨w', e, h'⟩ := (zSetSamplingPeriod h hc.1).1 hc.2
    exact ⟨true, w', by unfold Zeb.step; dsimp only; rw [e]; rfl, h'⟩
  | setGravity gx gy gz =>
    obtain ⟨w', e, h'⟩ := zSetGravity h gx gy hc
    exact ⟨true, w', by unfold Zeb.step; dsimp only; rw [e]; rfl, h'⟩
  | setCopPolygon p =>
    obtain ⟨w', e, h'⟩ := zSetCopPolygon h hc
    exact ⟨true, w', by unfold Zeb.step; dsimp only; rw [e]; rfl, h'⟩
  | setComPolygon p =>
    obtain ⟨w', e, h'⟩ := zSetComPolygon h hc
    exact ⟨true, w', by unfold Zeb.step; dsimp only; rw [e]; rfl, h'⟩
  | setBodyHeight x =>
    obtain ⟨w', e, h'⟩ := (zSetBodyHeight h x).1 hc
    exact ⟨true, w', by unfold Zeb.step; dsimp only; rw [e]; rfl, h'⟩
  | setBaseHeight x =>
    obtain ⟨w', e, h'⟩ := zSetBaseHeight h x
    exact ⟨true, w', by unfold Zeb.step; dsimp only; rw [e]; rfl, h'⟩
  | setBodyMass m =>
    obtain ⟨w', e, h'⟩ := (zSetBodyMass h hc.1 hc.2.1 hc.2.2.1).1 hc.2.2.2
    exact ⟨true, w', by unfold Zeb.step; dsimp only; rw [e]; rfl, h'⟩
  | setBaseMass m =>
    obtain ⟨w', e, h'⟩ := (zSetBaseMass h hc.1 hc.2.1 hc.2.2.1).1 hc.2.2.2
    exact ⟨true, w', by unfold Zeb.step; dsimp only; rw [e]; rfl, h'⟩
  | setVelRef v =>
    refine ⟨true, _, ?_, zSetVelRef h v⟩
    unfold Zeb.step
    dsimp only
    rw [require_pos (by rw [hu.model.bN, mul_comm]; exact hc)]; rfl
  | setPosRef v =>
    refine ⟨true, _, ?_, zSetPosRef h v⟩
    unfold Zeb.step
    dsimp only
    rw [require_pos (by rw [hu.model.bN, mul_comm]; exact hc)]; rfl
  | setCopRef v =>
    refine ⟨true, _, ?_, zSetCopRef h (v.is rfl)⟩
    have hv : v.size = w.lip.N * 2 := by rw [hu.model.lN, mul_comm]; exact hc
    unfold Zeb.step CopCentering.setRef
    dsimp only
    rw [require_pos hv, ok_bind, ok_bind, hu.model.same]; rfl
  | setComRef v =>
    obtain ⟨co, e, h'⟩ := zSetComRef h hc (v.is hc)
    refine ⟨true, _, ?_, h'⟩
    unfold Zeb.step
    dsimp only
    rw [require_pos (by rw [hu.model.lN, mul_comm]; exact hc), ok_bind, e]; rfl
  | setComAndCopRef a b c d =>
    obtain ⟨w', e, h'⟩ := zSetComAndCopRef h hc.1 hc.2.1 hc.2.2.1 hc.2.2.2.1 hc.2.2.2.2
    exact ⟨true, w', by unfold Zeb.step; dsimp only; rw [e]; rfl, h'⟩
  | setVelLimit l =>
    refine ⟨true, _, ?_, zWithState h w.lip.x w.lip.y w.base.x w.base.y s.roll s.pitch l s.accLimit s.jerkLimit⟩
    unfold Zeb.step
    dsimp only
    rw [require_pos (show 0 ≤ l from hc), ← hu.roll, ← hu.pitch, ← hu.accLimit, ← hu.jerkLimit]; rfl
  | setAccLimit l =>
    refine ⟨true, _, ?_, zWithState h w.lip.x w.lip.y w.base.x w.base.y s.roll s.pitch s.velLimit l s.jerkLimit⟩
    unfold Zeb.step
    dsimp only
    rw [require_pos (show 0 ≤ l from hc), ← hu.roll, ← hu.pitch, ← hu.velLimit, ← hu.jerkLimit]; rfl
  | setJerkLimit l =>
    refine ⟨true, _, ?_, zWithState h w.lip.x w.lip.y w.base.x w.base.y s.roll s.pitch s.velLimit s.accLimit l⟩
    unfold Zeb.step
    dsimp only
    rw [require_pos (show 0 ≤ l from hc), ← hu.roll, ← hu.pitch, ← hu.velLimit, ← hu.accLimit]; rfl
  | setBaseX v =>
    refine ⟨true, _, ?_, zWithState h w.lip.x w.lip.y (Spec.stateOf v) w.base.y s.roll s.pitch s.velLimit s.accLimit s.jerkLimit⟩
    unfold Zeb.step
    dsimp only
    rw [stateArg_ok hc, ← hu.roll, ← hu.pitch, ← hu.velLimit, ← hu.accLimit, ← hu.jerkLimit]; rfl
  | setBaseY v =>
    refine ⟨true, _, ?_, zWithState h w.lip.x w.lip.y w.base.x (Spec.stateOf v) s.roll s.pitch s.velLimit s.accLimit s.jerkLimit⟩
    unfold Zeb.step
    dsimp only
    rw [stateArg_ok hc, ← hu.roll, ← hu.pitch, ← hu.velLimit, ← hu.accLimit, ← hu.jerkLimit]; rfl
  | setRoll v =>
    refine ⟨true, _, ?_, zWithState h w.lip.x w.lip.y w.base.x w.base.y (Spec.stateOf v) s.pitch s.velLimit s.accLimit s.jerkLimit⟩
    unfold Zeb.step
    dsimp only
    rw [stateArg_ok hc, ← hu.pitch, ← hu.velLimit, ← hu.accLimit, ← hu.jerkLimit]; rfl
  | setPitch v =>
    refine ⟨true, _, ?_, zWithState h w.lip.x w.lip.y w.base.x w.base.y s.roll (Spec.stateOf v) s.velLimit s.accLimit s.jerkLimit⟩
    unfold Zeb.step
    dsimp only
    rw [stateArg_ok hc, ← hu.roll, ← hu.velLimit, ← hu.accLimit, ← hu.jerkLimit]; rfl
  | setYaw v =>
    obtain ⟨w', e, h'⟩ := zSetYaw h (Spec.stateOf v)
    refine ⟨true, w', ?_, h'⟩
    unfold Zeb.step
    dsimp only
    obtain ⟨w1, e1, e2⟩ := bind_eq_ok.1 e
    rw [stateArg_ok hc, ok_bind]
    rw [e1, ok_bind, e2]; rfl
  | setComX v =>
    refine ⟨true, _, ?_, zWithState h (Spec.stateOf v) w.lip.y w.base.x w.base.y s.roll s.pitch s.velLimit s.accLimit s.jerkLimit⟩
    unfold Zeb.step
    dsimp only
    rw [stateArg_ok hc, ← hu.roll, ← hu.pitch, ← hu.velLimit, ← hu.accLimit, ← hu.jerkLimit]; rfl
  | setComY v =>
    refine ⟨true, _, ?_, zWithState h w.lip.x (Spec.stateOf v) w.base.x w.base.y s.roll s.pitch s.velLimit s.accLimit s.jerkLimit⟩
    unfold Zeb.step
    dsimp only
    rw [stateArg_ok hc, ← hu.roll, ← hu.pitch, ← hu.velLimit, ← hu.accLimit, ← hu.jerkLimit]; rfl
  | setContactX p =>
    obtain ⟨w', e, h'⟩ := zSetContact h p s.contactY
    refine ⟨true, w', ?_, h'⟩
    unfold Zeb.step
    dsimp only
    rw [← hu.dby] at e
    rw [e]; rfl
  | setContactY p =>
    obtain ⟨w', e, h'⟩ := zSetContact h s.contactX p
    refine ⟨true, w', ?_, h'⟩
    unfold Zeb.step
    dsimp only
    rw [← hu.dbx] at e
    rw [e]; rfl
  | setWeightings wt =>
    obtain ⟨w', e, h'⟩ := zSetWeighting h wt
    refine ⟨true, w', ?_, h'⟩
    obtain ⟨h1, h2, h3, h4, h5⟩ := hc
    unfold Zeb.step
    dsimp only
    rw [require_pos h1, ok_bind, require_pos h2, ok_bind, require_pos h3, ok_bind, ok_bind, require_pos h4, ok_bind,
      require_pos h5, ok_bind, e]; rfl
  | setConfig c =>
    obtain ⟨w', e, h'⟩ := zSetConfig h c
    exact ⟨true, w', by unfold Zeb.step; dsimp only; rw [e]; rfl, h'⟩
  | solve fb =>
    obtain ⟨qp, u, ps, v, qs, hq, e⟩ := zSolve_ok o h hc.2 hc.1
    exact ⟨true, _, e, zSolveResult_inv o h hq fb⟩

/-- The assertions hold for the calls that succeed. -/
theorem zCodePre_of_ok (h : ZInv tr s L k w) (o : Oracle K) (c : ZebCall K) {r : Bool × Zeb K}
    (e : w.step o tr c = .ok r) : ZCodePre s c := by
  have hu := h.part.user
  have hm := hu.model
  have hst : ∀ {α : Type} {v : Vec K} {f : State3 K → Res α} {r : α}, (stateArg v >>= f) = .ok r → v.size = 3 := by
    intro α v f r e
    obtain ⟨_, e, -⟩ := bind_eq_ok.1 e
    obtain ⟨_, e, -⟩ := bind_eq_ok.1 e
    exact require_eq_ok.1 e
  unfold Zeb.step at e
  cases c with
  | setNbSamples n =>
    obtain ⟨w', e, -⟩ := bind_eq_ok.1 e
    have hn : 0 < n := by
      obtain ⟨_, e, -⟩ := bind_eq_ok.1 e
      exact require_eq_ok.1 e
    exact ⟨hn, (zSetNbSamples h hn).2 ⟨w', e⟩⟩
  | setSamplingPeriod T =>
    obtain ⟨w', e, -⟩ := bind_eq_ok.1 e
    have hn : 0 < T := by
      obtain ⟨_, e, -⟩ := bind_eq_ok.1 e
      exact require_eq_ok.1 e
    exact ⟨hn, (zSetSamplingPeriod h hn).2 ⟨w', e⟩⟩
  | setGravity gx gy gz =>
    obtain ⟨w', e, -⟩ := bind_eq_ok.1 e
    obtain ⟨_, e, -⟩ := bind_eq_ok.1 e
    have := require_eq_ok.1 e
    exact this
  | setCopPolygon p =>
    obtain ⟨w', e, -⟩ := bind_eq_ok.1 e
    obtain ⟨_, e, -⟩ := bind_eq_ok.1 e
    have := require_eq_ok.1 e
    exact this
  | setComPolygon p =>
    obtain ⟨w', e, -⟩ := bind_eq_ok.1 e
    obtain ⟨_, e, -⟩ := bind_eq_ok.1 e
    have := require_eq_ok.1 e
    exact this
  | setBodyHeight x =>
    obtain ⟨w', e, -⟩ := bind_eq_ok.1 e
    exact (zSetBodyHeight h x).2 ⟨w', e⟩
  | setBaseHeight x => trivial
  | setBodyMass m =>
    obtain ⟨w', e, -⟩ := bind_eq_ok.1 e
    have e0 := e
    unfold Zeb.setBodyMass at e
    obtain ⟨l1, e1, e⟩ := bind_eq_ok.1 e
    obtain ⟨b1, -, e⟩ := bind_eq_ok.1 e
    obtain ⟨l2, e2, -⟩ := bind_eq_ok.1 e
    obtain ⟨_, -, e1⟩ := bind_eq_ok.1 e1
    obtain ⟨f1, _, _, hl1⟩ := hm.lf.cop w.lip.z w.lip.comHeight w.lip.gx w.lip.gy w.lip.gz w.lip.mass (m + w.base.mass) e1
    have n1 : 0 < l1.nbFb := by rw [hl1]; exact hm.nb.2
    obtain ⟨f2, _, _, hl2⟩ := f1.cop l1.z l1.comHeight l1.gx l1.gy l1.gz m l1.totalMass e2
    have n2 : 0 < l2.nbFb := by rw [hl2]; exact n1
    have g1 := (f1.pos n1).2
    have g2 := (f2.pos n2).2
    have a1 : EPS < m + s.baseMass := by have := g1.total; rw [hl1] at this; rwa [← hm.bm]
    have a2 : s.bodyMass ≤ m + s.baseMass := by have := g1.le; rw [hl1] at this; rwa [← hm.bm, ← hm.lm]
    have a3 : 0 ≤ m := by have := g2.mass; rwa [hl2] at this
    exact ⟨a3, a1, a2, (zSetBodyMass h a3 a1 a2).2 ⟨w', e0⟩⟩
  | setBaseMass m =>
    obtain ⟨w', e, -⟩ := bind_eq_ok.1 e
    have e0 := e
    unfold Zeb.setBaseMass at e
    obtain ⟨l1, -, e⟩ := bind_eq_ok.1 e
    obtain ⟨b1, e1, e⟩ := bind_eq_ok.1 e
    obtain ⟨b2, e2, -⟩ := bind_eq_ok.1 e
    obtain ⟨_, -, e1⟩ := bind_eq_ok.1 e1
    obtain ⟨_, -, e1⟩ := bind_eq_ok.1 e1
    obtain ⟨f1, _, _, hb1⟩ := hm.bf.cop w.base.comHeight w.base.gx w.base.gy w.base.gz w.base.mass (w.lip.mass + m) e1
    obtain ⟨_, e2, -⟩ := bind_eq_ok.1 e2
    have a1 : EPS < s.bodyMass + m := by have := f1.total; rw [hb1] at this; rwa [← hm.lm]
    have a2 : s.baseMass ≤ s.bodyMass + m := by have := f1.le; rw [hb1] at this; rwa [← hm.bm, ← hm.lm]
    have a3 : 0 < m := require_eq_ok.1 e2
    exact ⟨a3, a1, a2, (zSetBaseMass h a3 a1 a2).2 ⟨w', e0⟩⟩
  | setVelRef v =>
    obtain ⟨_, e, -⟩ := bind_eq_ok.1 e
    have := require_eq_ok.1 e
    rw [hm.bN, mul_comm] at this
    exact this
  | setPosRef v =>
    obtain ⟨_, e, -⟩ := bind_eq_ok.1 e
    have := require_eq_ok.1 e
    rw [hm.bN, mul_comm] at this
    exact this
  | setCopRef v =>
    obtain ⟨_, e, -⟩ := bind_eq_ok.1 e
    have := require_eq_ok.1 e
    rw [hm.lN, mul_comm] at this
    exact this
  | setComRef v =>
    obtain ⟨_, e, -⟩ := bind_eq_ok.1 e
    have := require_eq_ok.1 e
    rw [hm.lN, mul_comm] at this
    exact this
  | setComAndCopRef a b c d =>
    obtain ⟨_, e, -⟩ := bind_eq_ok.1 e
    unfold Zeb.setComAndCopRef at e
    rw [hm.lN] at e
    obtain ⟨_, h1, e⟩ := bind_eq_ok.1 e
    obtain ⟨_, h2, e⟩ := bind_eq_ok.1 e
    obtain ⟨_, h3, e⟩ := bind_eq_ok.1 e
    obtain ⟨_, h4, e⟩ := bind_eq_ok.1 e
    obtain ⟨_, -, e⟩ := bind_eq_ok.1 e
    obtain ⟨_, -, e⟩ := bind_eq_ok.1 e
    obtain ⟨_, e, -⟩ := bind_eq_ok.1 e
    unfold CopCentering.setRefWorld at e
    dsimp only at e
    obtain ⟨_, -, e⟩ := bind_eq_ok.1 e
    obtain ⟨_, -, e⟩ := bind_eq_ok.1 e
    obtain ⟨_, -, e⟩ := bind_eq_ok.1 e
    obtain ⟨_, -, e⟩ := bind_eq_ok.1 e
    obtain ⟨_, -, e⟩ := bind_eq_ok.1 e
    obtain ⟨_, -, e⟩ := bind_eq_ok.1 e
    obtain ⟨_, -, e⟩ := bind_eq_ok.1 e
    obtain ⟨_, -, e⟩ := bind_eq_ok.1 e
    obtain ⟨_, h5, -⟩ := bind_eq_ok.1 e
    have h5 := require_eq_ok.1 h5
    rw [hm.bm, hm.lm, hm.lgz] at h5
    exact ⟨require_eq_ok.1 h1, require_eq_ok.1 h3, require_eq_ok.1 h2, require_eq_ok.1 h4, h5⟩
  | setVelLimit l =>
    obtain ⟨_, e, -⟩ := bind_eq_ok.1 e
    have := require_eq_ok.1 e
    exact this
  | setAccLimit l =>
    obtain ⟨_, e, -⟩ := bind_eq_ok.1 e
    have := require_eq_ok.1 e
    exact this
  | setJerkLimit l =>
    obtain ⟨_, e, -⟩ := bind_eq_ok.1 e
    have := require_eq_ok.1 e
    exact this
  | setBaseX v => exact hst e
  | setBaseY v => exact hst e
  | setRoll v => exact hst e
  | setPitch v => exact hst e
  | setYaw v => exact hst e
  | setComX v => exact hst e
  | setComY v => exact hst e
  | setContactX p => trivial
  | setContactY p => trivial
  | setWeightings wt =>
    simp only [bind_eq_ok, require_eq_ok] at e
    obtain ⟨_, h1, _, h2, _, h3, _, _, _, h4, _, h5, _⟩ := e
    exact ⟨h1, h2, h3, h4, h5⟩
  | setConfig c => trivial
  | solve fb => exact zRefs_of_solve o h e

/-! ### Histories -/

theorem zStep_inv {w' : Zeb K} (h : ZInv tr s L k w) (o : Oracle K) (c : ZebCall K) {b : Bool}
    (e : w.step o tr c = .ok (b, w')) : ZInv tr (s.apply c) (s.nextTiltHeight L c) (s.nextShift k c) w' := by
  obtain ⟨b', w'', e', h'⟩ := zStep_ok h o c (zCodePre_of_ok h o c e)
  rw [e] at e'
  cases e'
  exact h'

theorem zRun_inv {w' : Zeb K} (h : ZInv tr s L k w) (o : Oracle K) (cs : List (ZebCall K))
    (e : w.run o tr cs = .ok w') : ZInv tr (s.after cs) (s.tiltHeight L cs) (s.usedShift k cs) w' := by
  induction cs generalizing s L k w with
  | nil => cases e; exact h
  | cons c cs ih =>
    unfold Zeb.run at e
    obtain ⟨⟨b, w1⟩, e1, e⟩ := bind_eq_ok.1 e
    exact ih (zStep_inv h o c e1) e

/-- A history whose calls meet the assertions does not fault. -/
theorem zRun_ok (h : ZInv tr s L k w) (o : Oracle K) (cs : List (ZebCall K)) (hl : s.Legal cs)
    (hr : s.RefsCurrentAtSolves cs) : ∃ w', w.run o tr cs = .ok w' := by
  induction cs generalizing s L k w with
  | nil => exact ⟨w, rfl⟩
  | cons c cs ih =>
    have hc : ZCodePre s c := by
      cases c <;> first | exact hl.1 | exact ⟨hl.1, hr.1 _ rfl⟩
    obtain ⟨b, w1, e1, h1⟩ := zStep_ok h o c hc
    obtain ⟨w', e⟩ := ih h1 hl.2 hr.2
    exact ⟨w', by unfold Zeb.run; rw [e1, ok_bind]; exact e⟩

/-! ### Construction -/

theorem zInit_regular (cx cy : K) : (Spec.ZebSettings.init cx cy).TiltRegular := by
  unfold Spec.ZebSettings.TiltRegular Spec.tiltGain Spec.ZebSettings.init GRAVITY_NORM EPS
  dsimp only
  rw [if_neg (by norm_num)]
  norm_num

theorem zMake_ok (tr : Trig K) (cx cy : K) :
    ∃ w, Zeb.make tr (some cx, some cy) = .ok w ∧ ZInv tr (Spec.ZebSettings.init cx cy) 0 (0, 0) w := by
  have hg : (EPS : K) < |GRAVITY_NORM| := by
    unfold EPS GRAVITY_NORM; rw [abs_of_pos (by norm_num)]; norm_num
  have h1 : (EPS : K) < 1 := by unfold EPS; norm_num
  obtain ⟨l, el⟩ : ∃ l, Lip.make 1 (1 : K) true = .ok l :=
    Lip.refresh_ok rfl one_pos one_pos one_pos hg le_rfl h1 zero_le_one
  obtain ⟨b, eb⟩ : ∃ b, Base.makeDefault (some cx, some cy) = .ok b :=
    Base.refresh_ok rfl one_pos one_pos hg zero_le_one h1 le_rfl
  have hlf := Lip.make_fresh el
  obtain ⟨_, _, _, _, _, _, _, hl⟩ := Lip.refresh_eq_ok rfl el
  obtain ⟨hbf, hb⟩ := Base.refresh_eq_ok rfl eb
  have hm : ZModel (Spec.ZebSettings.init cx cy) l b := by
    refine ⟨hlf, hbf, ?_, ?_, ?_, ?_, ?_, ?_, ?_, ?_, ?_, ?_, ?_, ?_, ?_, ?_, ?_, ?_, ?_⟩ <;>
      first | (rw [hl]; rfl) | (rw [hb]; rfl) | (rw [hl]; exact (add_zero _).symm) | (rw [hb]; exact (add_zero _).symm)
  have hN : b.N = 1 := by rw [hb]; rfl
  have lN : l.N = 1 := by rw [hl]
  have h0 : ZPart tr (Spec.ZebSettings.init cx cy) (Spec.ZebSettings.init cx cy).baseHeight (0, 0) (fun o => o = .shift)
      (Zeb.raw l b) := by
    refine ⟨⟨hm, ?_, ?_, ?_, ?_, ?_, ?_, ?_, ?_, ?_, ?_, rfl, rfl, ?_, ?_, ?_, ?_, rfl, ?_, ?_⟩, ?_⟩
    · show b.copPoly = _; rw [hb]; rfl
    · show b.comPoly = _; rw [hb]; rfl
    · show b.yaw = _; rw [hb]; rfl
    · show b.roll = _; rw [hb]; rfl
    · show b.pitch = _; rw [hb]; rfl
    · show b.dbx = _; rw [hb]; rfl
    · show b.dby = _; rw [hb]; rfl
    · show b.velLimit = _; rw [hb]; rfl
    · show b.accLimit = _; rw [hb]; rfl
    · show b.jerkLimit = _; rw [hb]; rfl
    · show Vec.const (2 * b.N) 0 = _; rw [hN]; rfl
    · show Vec.const (2 * b.N) 0 = _; rw [hN]; rfl
    · show (Vec.const (2 * b.N) (0 : K)).Is _ _; rw [hN]; exact ⟨rfl, fun _ _ => rfl⟩
    · show (Vec.const (2 * b.N) (0 : K)).Is _ _; rw [hN]; exact ⟨rfl, fun _ _ => rfl⟩
    · show 4 * l.N = _; rw [lN]; rfl
    · show 4 * l.N = _; rw [lN]; rfl
    · rintro o rfl
      have z : ∀ i, zStack 1 (fun _ => (0 : K)) (fun _ => 0) i = 0 := fun i => by unfold zStack; split_ifs <;> rfl
      show (Vec.const (2 * b.N) (0 : K)).Is _ _ ∧ (Vec.const (2 * b.N) (0 : K)).Is _ _
      rw [hN]
      refine ⟨⟨rfl, fun i _ => (z i).symm⟩, ⟨rfl, fun i _ => ?_⟩⟩
      show (0 : K) = 0 + zStack 1 (fun _ => (0 : K)) (fun _ => 0) i
      rw [z, add_zero]
  have hr := zInit_regular cx cy
  unfold Zeb.make
  rw [el, ok_bind, eb, ok_bind]
  dsimp only
  obtain ⟨w1, e1, h1, -, -⟩ := h0.refreshVel
  rw [e1, ok_bind]
  obtain ⟨w2, e2, h2, -, -⟩ := h1.refreshPos
  rw [e2, ok_bind]
  obtain ⟨w3, e3, h3, -, -⟩ := h2.refreshJerk
  rw [e3, ok_bind]
  obtain ⟨w4, e4, h4, -, -⟩ := h3.refreshTilt hr
  rw [e4, ok_bind]
  obtain ⟨w5, e5, h5, -, -⟩ := h4.refreshTiltVel hr
  rw [e5, ok_bind]
  obtain ⟨w6, e6, h6, -, -⟩ := h5.refreshCop
  rw [e6, ok_bind]
  obtain ⟨w7, e7, h7, -, -⟩ := h6.refreshCom
  rw [e7, ok_bind]
  obtain ⟨w8, e8, h8, -, -⟩ := h7.refreshCopCtr
  rw [e8, ok_bind]
  obtain ⟨w9, e9, h9, -, -⟩ := h8.refreshComCtr
  rw [e9, ok_bind]
  obtain ⟨wa, ea, ha, -, -⟩ := h9.refreshBaseCtr
  rw [ea, ok_bind]
  obtain ⟨wb, eb', hb', -, -⟩ := ha.refreshTiltCtr
  rw [eb', ok_bind]
  obtain ⟨wc, ec, hc, -⟩ := hb'.computeConstantPart (fun o => by cases o <;> simp)
  exact ⟨wc, ec, hc⟩

/-- `cs` leads from construction, with `cx`, `cy` in the memory of the tilt contact point, to `w`. -/
def ZebReaches (o : Oracle K) (tr : Trig K) (cx cy : K) (cs : List (ZebCall K)) (w : Zeb K) : Prop :=
  (do Zeb.run o tr (← Zeb.make tr (some cx, some cy)) cs) = .ok w

theorem zReachable_inv {o : Oracle K} {cx cy : K} {cs : List (ZebCall K)} (h : ZebReaches o tr cx cy cs w) :
    ZInv tr ((Spec.ZebSettings.init cx cy).after cs) ((Spec.ZebSettings.init cx cy).tiltHeight 0 cs)
      ((Spec.ZebSettings.init cx cy).usedShift (0, 0) cs) w := by
  obtain ⟨w0, e0, h0⟩ := zMake_ok tr cx cy
  unfold ZebReaches at h
  rw [e0, ok_bind] at h
  exact zRun_inv h0 o cs h

end MPC
