import Verif.Lemmas.ZebSet

/-! # Freshness of the objectives and constraints of `ZebulonWalkgen` -/

set_option linter.unusedSectionVars false

namespace MPC

open Finset

variable {K : Type} [Field K] [LinearOrder K] [IsStrictOrderedRing K] [FloorRing K]

/-! ### The prediction matrices -/

def zVelD (s : Spec.ZebSettings K) : ℕ → ℕ → K := blkD s.nbSamples (velU s.period s.period)
def zPosD (s : Spec.ZebSettings K) : ℕ → ℕ → K := blkD s.nbSamples (posU s.period s.period)
def zComD (s : Spec.ZebSettings K) : ℕ → ℕ → K :=
  coupledD s.nbSamples (posU (Spec.comFirst s.period) s.period) (posU (Spec.comFirst s.period) s.period)
    (fun i j => -posU s.period s.period i j) (fun i j => -posU s.period s.period i j)
def zCopD (s : Spec.ZebSettings K) : ℕ → ℕ → K :=
  coupledD s.nbSamples (copC s) (copC s) (copB s) (copB s)
def zBaseD (s : Spec.ZebSettings K) : ℕ → ℕ → K :=
  motionD s.nbSamples (velU s.period s.period) (accU s.period s.period)
def zHeadD (tr : Trig K) (s : Spec.ZebSettings K) : ℕ → ℕ → K :=
  headingD s.nbSamples (tr.sin s.yaw.p) (tr.cos s.yaw.p) (velU (Spec.comFirst s.period) s.period)
    (velU s.period s.period)

/-! ### Success of the tilt computations -/

theorem TiltSol.regular {s : Spec.ZebSettings K} {L : K} {u ps : ℕ → ℕ → K} (hN : 0 < s.nbSamples)
    (hT : 0 < s.period) (h : TiltSol s L u ps) : ({ s with baseHeight := L } : Spec.ZebSettings K).TiltRegular := by
  obtain ⟨v, -, h1, -⟩ := h.inv
  have e := h1 0 hN 0 hN
  intro hr
  unfold mm at e
  rw [sum_eq_single 0] at e
  · have : tiltU s L 0 0 = 0 := by
      unfold tiltU ide tA1 tA6
      rw [pInvT_diag hT, if_pos rfl]
      dsimp only at hr
      linear_combination hr
    rw [this, zero_mul] at e
    simp [ide] at e
  · intro k _ hk
    have : tiltU s L 0 k = 0 := by
      unfold tiltU ide
      rw [pInvT_upper _ (Nat.pos_of_ne_zero hk), if_neg (Ne.symm hk)]; ring
    rw [this, zero_mul]
  · intro hh; exact absurd (mem_range.2 hN) hh

theorem Tilt.compute_iff {s : Spec.ZebSettings K} {l : Lip K} {b : Base K} {cx cy : K}
    (h : ZModel s l b) (hx : b.dbx = some cx) (hy : b.dby = some cy) :
    (∃ t, Tilt.compute l b = .ok t) ↔ s.TiltRegular := by
  obtain ⟨h1, h2⟩ := Tilt.compute_ok (L := b.comHeight) h hx hy
  rw [h.bh] at h1 h2
  rw [show b = { b with comHeight := s.baseHeight } by rw [← h.bh]]
  constructor
  · intro e
    obtain ⟨t, u, ps, -, -, hs⟩ := h1 e
    exact hs.regular h.N_pos h.T_pos
  · intro e
    obtain ⟨t, u, ps, e, -⟩ := h2 e
    exact ⟨t, e⟩

/-! ### What is fresh -/

/-- The parts of the generator that setters refresh. -/
inductive ZO | vel | pos | jerk | tilt | tiltVel | cop | com | copCtr | comCtr | baseCtr | tiltCtr | shift

/-- Part `o` of the generator is up to date with settings `s`, base height `L` for the tilt and gravity shift
`k`. -/
def ZFresh (tr : Trig K) (s : Spec.ZebSettings K) (L : K) (k : K × K) (w : Zeb K) : ZO → Prop
  | .vel => w.velObj.hessian.Is (2 * s.nbSamples) (2 * s.nbSamples) (gram (2 * s.nbSamples) (zVelD s))
  | .pos => w.posObj.hessian.Is (2 * s.nbSamples) (2 * s.nbSamples) (gram (2 * s.nbSamples) (zPosD s))
  | .jerk => w.jerkH = Mat.one (4 * s.nbSamples)
  | .tilt => ∃ u ps, w.tiltObj.Is s L s.contactX s.contactY u ps ∧ TiltSol s L u ps
  | .tiltVel => ∃ u ps, w.tiltVelObj.Is s L s.contactX s.contactY u ps ∧ TiltVelSol s L u ps
  | .cop => w.copObj.hessian.Is (4 * s.nbSamples) (4 * s.nbSamples) (gram (2 * s.nbSamples) (zCopD s)) ∧
      w.copObj.cgSize = 2 * s.nbSamples
  | .com => w.comObj.hessian.Is (4 * s.nbSamples) (4 * s.nbSamples) (gram (2 * s.nbSamples) (zComD s))
  | .copCtr => w.copCtr.Is s.nbSamples s.copPolygon (zCopD s)
  | .comCtr => w.comCtr.Is s.nbSamples s.comPolygon (zComD s)
  | .baseCtr => ∃ g, w.baseCtr = ⟨g, s.nbSamples⟩ ∧ g.Is (4 * s.nbSamples) (2 * s.nbSamples) (zBaseD s)
  | .tiltCtr => w.tiltCtr.Is (2 * s.nbSamples) (4 * s.nbSamples) (zHeadD tr s)
  | .shift => w.comObj.gravityShift.Is (2 * s.nbSamples) (zStack s.nbSamples (fun _ => k.1) fun _ => k.2) ∧
      w.comObj.shift.Is (2 * s.nbSamples)
        fun i => s.comRef.get i + zStack s.nbSamples (fun _ => k.1) (fun _ => k.2) i

/-- What the generator stores besides its matrices. -/
structure ZUser (s : Spec.ZebSettings K) (w : Zeb K) : Prop where
  model : ZModel s w.lip w.base
  copPoly : w.base.copPoly = s.copPolygon
  comPoly : w.base.comPoly = s.comPolygon
  yaw : w.base.yaw = s.yaw
  roll : w.base.roll = s.roll
  pitch : w.base.pitch = s.pitch
  dbx : w.base.dbx = some s.contactX
  dby : w.base.dby = some s.contactY
  velLimit : w.base.velLimit = s.velLimit
  accLimit : w.base.accLimit = s.accLimit
  jerkLimit : w.base.jerkLimit = s.jerkLimit
  weighting : w.weighting = s.weighting
  config : w.config = s.config
  velRef : w.velObj.ref = s.velRef
  posRef : w.posObj.ref = s.posRef
  copRef : w.copObj.ref.Is s.copRef.size s.copRef.get
  comRef : w.comObj.ref.Is (2 * s.nbSamples) s.comRef.get
  comSize : s.comRef.size = 2 * s.nbSamples
  X : w.X.size = 4 * s.nbSamples
  dX : w.dX.size = 4 * s.nbSamples

/-- The parts in `F` are up to date. -/
structure ZPart (tr : Trig K) (s : Spec.ZebSettings K) (L : K) (k : K × K) (F : ZO → Prop) (w : Zeb K) : Prop where
  user : ZUser s w
  fresh : ∀ o, F o → ZFresh tr s L k w o

namespace ZPart

variable {tr : Trig K} {s : Spec.ZebSettings K} {L : K} {k : K × K} {F : ZO → Prop} {w : Zeb K}

theorem refreshVel (h : ZPart tr s L k F w) :
    ∃ w', w.refreshVel = .ok w' ∧ ZPart tr s L k (fun o => o = .vel ∨ F o) w' ∧
      w'.lip = w.lip ∧ w'.base = w.base := by
  have hd := velDyn_is s.period s.period s.nbSamples
  obtain ⟨H, e, hH⟩ := ZTrack.compute_ok (b := w.base) (dyn := w.base.vel) (by
    rw [h.user.model.vel, h.user.model.bN]; exact hd)
  rw [h.user.model.bN] at hH
  refine ⟨{ w with velObj := { w.velObj with hessian := H } }, by unfold Zeb.refreshVel; rw [e]; rfl, ⟨{ h.user with velRef := h.user.velRef }, ?_⟩, rfl, rfl⟩
  intro o ho
  cases o <;> first | exact hH | exact h.fresh _ (by simpa using ho)

theorem refreshPos (h : ZPart tr s L k F w) :
    ∃ w', w.refreshPos = .ok w' ∧ ZPart tr s L k (fun o => o = .pos ∨ F o) w' ∧
      w'.lip = w.lip ∧ w'.base = w.base := by
  have hd := posDyn_is s.period s.period s.nbSamples
  obtain ⟨H, e, hH⟩ := ZTrack.compute_ok (b := w.base) (dyn := w.base.pos) (by
    rw [h.user.model.pos, h.user.model.bN]; exact hd)
  rw [h.user.model.bN] at hH
  refine ⟨{ w with posObj := { w.posObj with hessian := H } }, by unfold Zeb.refreshPos; rw [e]; rfl, ⟨{ h.user with posRef := h.user.posRef }, ?_⟩, rfl, rfl⟩
  intro o ho
  cases o <;> first | exact hH | exact h.fresh _ (by simpa using ho)

theorem refreshJerk (h : ZPart tr s L k F w) :
    ∃ w', w.refreshJerk = .ok w' ∧ ZPart tr s L k (fun o => o = .jerk ∨ F o) w' ∧
      w'.lip = w.lip ∧ w'.base = w.base := by
  refine ⟨{ w with jerkH := Mat.one (4 * s.nbSamples) }, by unfold Zeb.refreshJerk; rw [zJerkCompute_ok h.user.model]; rfl, ⟨{ h.user with }, ?_⟩, rfl, rfl⟩
  intro o ho
  cases o <;> first | exact Eq.refl (Mat.one (4 * s.nbSamples)) | exact h.fresh _ (by simpa using ho)

theorem refreshTilt (h : ZPart tr s s.baseHeight k F w) (hr : s.TiltRegular) :
    ∃ w', w.refreshTilt = .ok w' ∧ ZPart tr s s.baseHeight k (fun o => o = .tilt ∨ F o) w' ∧
      w'.lip = w.lip ∧ w'.base = w.base := by
  obtain ⟨t, u, ps, e, ht, hs⟩ := (Tilt.compute_ok (L := s.baseHeight) h.user.model h.user.dbx h.user.dby).2 hr
  rw [show ({ w.base with comHeight := s.baseHeight } : Base K) = w.base by rw [← h.user.model.bh]] at e
  refine ⟨{ w with tiltObj := t }, by unfold Zeb.refreshTilt; rw [e]; rfl, ⟨{ h.user with }, ?_⟩, rfl, rfl⟩
  intro o ho
  cases o <;> first | exact ⟨u, ps, ht, hs⟩ | exact h.fresh _ (by simpa using ho)

theorem refreshTiltVel (h : ZPart tr s s.baseHeight k F w) (hr : s.TiltRegular) :
    ∃ w', w.refreshTiltVel = .ok w' ∧ ZPart tr s s.baseHeight k (fun o => o = .tiltVel ∨ F o) w' ∧
      w'.lip = w.lip ∧ w'.base = w.base := by
  obtain ⟨t, u, ps, e, ht, hs⟩ := (Tilt.computeVel_ok (L := s.baseHeight) h.user.model h.user.dbx h.user.dby).2 hr
  rw [show ({ w.base with comHeight := s.baseHeight } : Base K) = w.base by rw [← h.user.model.bh]] at e
  refine ⟨{ w with tiltVelObj := t }, by unfold Zeb.refreshTiltVel; rw [e]; rfl, ⟨{ h.user with }, ?_⟩, rfl, rfl⟩
  intro o ho
  cases o <;> first | exact ⟨u, ps, ht, hs⟩ | exact h.fresh _ (by simpa using ho)

theorem refreshCop (h : ZPart tr s L k F w) :
    ∃ w', w.refreshCop = .ok w' ∧ ZPart tr s L k (fun o => o = .cop ∨ F o) w' ∧
      w'.lip = w.lip ∧ w'.base = w.base := by
  obtain ⟨H, e, hH⟩ := CopCentering.compute_ok h.user.model w.copObj
  refine ⟨{ w with copObj := { w.copObj with hessian := H, cgSize := 2 * s.nbSamples } }, by unfold Zeb.refreshCop; rw [e]; rfl, ⟨{ h.user with copRef := h.user.copRef }, ?_⟩, rfl, rfl⟩
  intro o ho
  cases o <;> first | exact ⟨hH, rfl⟩ | exact h.fresh _ (by simpa using ho)

theorem refreshCom (h : ZPart tr s L k F w) :
    ∃ w', w.refreshCom = .ok w' ∧ ZPart tr s L k (fun o => o = .com ∨ F o) w' ∧
      w'.lip = w.lip ∧ w'.base = w.base := by
  obtain ⟨H, e, hH⟩ := ComCentering.compute_ok h.user.model
  refine ⟨{ w with comObj := { w.comObj with hessian := H } }, by unfold Zeb.refreshCom; rw [e]; rfl, ⟨{ h.user with comRef := h.user.comRef }, ?_⟩, rfl, rfl⟩
  intro o ho
  cases o <;> first | exact hH | exact h.fresh _ (by simpa using ho)

theorem refreshCopCtr (h : ZPart tr s L k F w) :
    ∃ w', w.refreshCopCtr = .ok w' ∧ ZPart tr s L k (fun o => o = .copCtr ∨ F o) w' ∧
      w'.lip = w.lip ∧ w'.base = w.base := by
  obtain ⟨c, e, hc⟩ := CopConstraint.compute_ok h.user.model
  rw [h.user.copPoly] at hc
  refine ⟨{ w with copCtr := c }, by unfold Zeb.refreshCopCtr; rw [e]; rfl, ⟨{ h.user with }, ?_⟩, rfl, rfl⟩
  intro o ho
  cases o <;> first | exact hc | exact h.fresh _ (by simpa using ho)

theorem refreshComCtr (h : ZPart tr s L k F w) :
    ∃ w', w.refreshComCtr = .ok w' ∧ ZPart tr s L k (fun o => o = .comCtr ∨ F o) w' ∧
      w'.lip = w.lip ∧ w'.base = w.base := by
  obtain ⟨c, e, hc⟩ := ComConstraint.compute_ok h.user.model
  rw [h.user.comPoly] at hc
  refine ⟨{ w with comCtr := c }, by unfold Zeb.refreshComCtr; rw [e]; rfl, ⟨{ h.user with }, ?_⟩, rfl, rfl⟩
  intro o ho
  cases o <;> first | exact hc | exact h.fresh _ (by simpa using ho)

theorem refreshBaseCtr (h : ZPart tr s L k F w) :
    ∃ w', w.refreshBaseCtr = .ok w' ∧ ZPart tr s L k (fun o => o = .baseCtr ∨ F o) w' ∧
      w'.lip = w.lip ∧ w'.base = w.base := by
  obtain ⟨g, e, hg⟩ := BaseMotion.compute_ok h.user.model
  refine ⟨{ w with baseCtr := ⟨g, s.nbSamples⟩ }, by unfold Zeb.refreshBaseCtr; rw [e]; rfl, ⟨{ h.user with }, ?_⟩, rfl, rfl⟩
  intro o ho
  cases o <;> first | exact ⟨g, rfl, hg⟩ | exact h.fresh _ (by simpa using ho)

theorem refreshTiltCtr (h : ZPart tr s L k F w) :
    ∃ w', w.refreshTiltCtr tr = .ok w' ∧ ZPart tr s L k (fun o => o = .tiltCtr ∨ F o) w' ∧
      w'.lip = w.lip ∧ w'.base = w.base := by
  obtain ⟨g, e, hg⟩ := TiltMotion.compute_ok tr h.user.model
  rw [h.user.yaw] at hg
  refine ⟨{ w with tiltCtr := g }, by unfold Zeb.refreshTiltCtr; rw [e]; rfl, ⟨{ h.user with }, ?_⟩, rfl, rfl⟩
  intro o ho
  cases o <;> first | exact hg | exact h.fresh _ (by simpa using ho)

theorem refreshShift (h : ZPart tr s L k F w) (hk : k = (s.gravityShift s.gx, s.gravityShift s.gy)) :
    ∃ w', w.refreshShift = .ok w' ∧ ZPart tr s L k (fun o => o = .shift ∨ F o) w' ∧
      w'.lip = w.lip ∧ w'.base = w.base := by
  have hm := h.user.model
  obtain ⟨g1, e1, h1⟩ := (Vec.Is.of (2 * s.nbSamples) fun _ => (0 : K)).setSeg
    (Vec.Is.of s.nbSamples fun _ => k.1) (s := 0) (by omega)
  obtain ⟨g2, e2, h2⟩ := h1.setSeg (Vec.Is.of s.nbSamples fun _ => k.2) (s := s.nbSamples) (by omega)
  have h2' : g2.Is (2 * s.nbSamples) (zStack s.nbSamples (fun _ => k.1) fun _ => k.2) :=
    h2.congr fun i hi => zStack_seg (fun _ => k.1) (fun _ => k.2) hi fun _ => 0
  obtain ⟨sh, e3, h3⟩ := h.user.comRef.add h2'
  have hne : ¬ (s.baseMass + s.bodyMass = 0 ∨ s.gz = 0) := by
    rintro (h0 | h0)
    · exact hm.total_pos.ne' ((add_comm _ _).trans h0)
    · exact hm.gz_ne h0
  have kx : (s.bodyMass * s.bodyHeight + s.baseMass * s.baseHeight) / (s.baseMass + s.bodyMass) * s.gx / s.gz = k.1 := by
    rw [hk]; rfl
  have ky : (s.bodyMass * s.bodyHeight + s.baseMass * s.baseHeight) / (s.baseMass + s.bodyMass) * s.gy / s.gz = k.2 := by
    rw [hk]; rfl
  refine ⟨{ w with comObj := { w.comObj with gravityShift := g2, shift := sh } }, ?_,
    ⟨{ h.user with comRef := h.user.comRef }, ?_⟩, rfl, rfl⟩
  · unfold Zeb.refreshShift ComCentering.updateGravityShift
    rw [hm.same, ok_bind, hm.lm, hm.bm, hm.lgz, if_neg hne, hm.lh, hm.bh, hm.lgx, hm.lgy, hm.bN]
    dsimp only
    rw [kx, ky]
    unfold Vec.const
    rw [e1, ok_bind, e2, ok_bind, e3]
    rfl
  intro o ho
  cases o <;> first | exact ⟨h2', h3⟩ | exact h.fresh _ (by simpa using ho)

theorem mono {G : ZO → Prop} (h : ZPart tr s L k F w) (hg : ∀ o, G o → F o) : ZPart tr s L k G w :=
  ⟨h.user, fun o ho => h.fresh o (hg o ho)⟩

end ZPart

end MPC
