import Verif.Lemmas.ZebQP

/-! # The QP that `ZebulonWalkgen::solve` gives to the solver -/

set_option linter.unusedSectionVars false

namespace MPC

open Finset

variable {K : Type} [Field K] [LinearOrder K] [IsStrictOrderedRing K] [FloorRing K]

variable {tr : Trig K} {s : Spec.ZebSettings K} {L : K} {k : K × K} {w : Zeb K}

theorem LsqGrad_congr {n M : ℕ} {D : ℕ → ℕ → K} {o o' x x' : ℕ → K} (ho : ∀ i < n, o i = o' i)
    (hx : ∀ i < M, x i = x' i) (r : ℕ) : LsqGrad n M D o x r = LsqGrad n M D o' x' r := by
  unfold LsqGrad
  rw [sum_congr rfl fun j hj => by rw [hx j (mem_range.1 hj)],
    sum_congr (s₂ := range n) rfl fun j hj => by rw [ho j (mem_range.1 hj)]]

theorem zStack_congr {N : ℕ} {f f' g g' : ℕ → K} (hf : ∀ i < N, f i = f' i) (hg : ∀ i < N, g i = g' i) {i : ℕ}
    (hi : i < 2 * N) : zStack N f g i = zStack N f' g' i := by
  unfold zStack
  split_ifs with h
  · exact hf i h
  · exact hg _ (by omega)

/-- The shifted CoM reference. -/
def zShifted (s : Spec.ZebSettings K) (k : K × K) : Vec K :=
  ⟨2 * s.nbSamples, fun i => s.comRef.get i + zStack s.nbSamples (fun _ => k.1) (fun _ => k.2) i⟩

/-- Gradient before normalisation; `u`, `ps` belong to the tilt objective and `v`, `qs` to the tilt velocity
objective. -/
def zP (s : Spec.ZebSettings K) (L : K) (k : K × K) (w : Zeb K) (u ps v qs : ℕ → ℕ → K) (i : ℕ) : K :=
  0 + max s.weighting.velocityTracking 0 *
      (if 2 * s.nbSamples ≤ i ∧ i < 2 * s.nbSamples + 2 * s.nbSamples then
        LsqGrad (2 * s.nbSamples) (2 * s.nbSamples) (zVelD s)
          (trackOff s.nbSamples (velS s.period s.period) w.base.x w.base.y s.velRef)
          (fun j => w.X.get (2 * s.nbSamples + j)) (i - 2 * s.nbSamples) else 0)
    + max s.weighting.positionTracking 0 *
      (if 2 * s.nbSamples ≤ i ∧ i < 2 * s.nbSamples + 2 * s.nbSamples then
        LsqGrad (2 * s.nbSamples) (2 * s.nbSamples) (zPosD s)
          (trackOff s.nbSamples (posS s.period s.period) w.base.x w.base.y s.posRef)
          (fun j => w.X.get (2 * s.nbSamples + j)) (i - 2 * s.nbSamples) else 0)
    + max s.weighting.copCentering 0 * LsqGrad (2 * s.nbSamples) (4 * s.nbSamples) (zCopD s)
        (copOff s w.lip w.base s.copRef) w.X.get i
    + max s.weighting.comCentering 0 * LsqGrad (2 * s.nbSamples) (4 * s.nbSamples) (zComD s)
        (comOff s w.lip w.base (zShifted s k)) w.X.get i
    + max s.weighting.jerkMinimization 0 * w.X.get i
    + max s.weighting.tiltMinimization 0 * LsqGrad (2 * s.nbSamples) (4 * s.nbSamples) (zTiltD s L u)
        (zStack s.nbSamples (tiltOff s L u ps w.lip.x w.base.x s.roll s.contactX)
          (tiltOff s L u ps w.lip.y w.base.y s.pitch s.contactY)) w.X.get i
    + max s.weighting.tiltVelMinimization 0 * LsqGrad (2 * s.nbSamples) (4 * s.nbSamples) (zTiltD s L v)
        (zStack s.nbSamples (tiltOff s L v qs w.lip.x w.base.x s.roll s.contactX)
          (tiltOff s L v qs w.lip.y w.base.y s.pitch s.contactY)) w.X.get i

/-- The gradients of the objectives and their sum. -/
theorem zBuildP_ok (h : ZInv tr s L k w) (hr : s.RefsCurrent) {B : Vec K}
    (hB : B.Is (2 * s.nbSamples) fun i => w.X.get (2 * s.nbSamples + i)) {u ps v qs : ℕ → ℕ → K}
    (ht : w.tiltObj.Is s L s.contactX s.contactY u ps) (hv : w.tiltVelObj.Is s L s.contactX s.contactY v qs) :
    ∃ g1 g2 g3 g4 g5 g6 p,
      (w.velObj.getGradient w.base w.base.vel B = .ok g1 ∧ g1.size = 2 * s.nbSamples) ∧
      (w.posObj.getGradient w.base w.base.pos B = .ok g2 ∧ g2.size = 2 * s.nbSamples) ∧
      (w.copObj.getGradient w.lip w.base w.X = .ok g3 ∧ g3.size = 4 * s.nbSamples) ∧
      (w.comObj.getGradient w.lip w.base w.X = .ok g4 ∧ g4.size = 4 * s.nbSamples) ∧
      (w.tiltObj.getGradient w.lip w.base w.X = .ok g5 ∧ g5.size = 4 * s.nbSamples) ∧
      (w.tiltVelObj.getGradient w.lip w.base w.X = .ok g6 ∧ g6.size = 4 * s.nbSamples) ∧
      w.buildP s.nbSamples B = .ok p ∧ p.Is (4 * s.nbSamples) (zP s L k w u ps v qs) := by
  have hu := h.part.user
  have hm := hu.model
  have f1 : w.velObj.hessian.Is _ _ _ := h.part.fresh .vel trivial
  have f2 : w.posObj.hessian.Is _ _ _ := h.part.fresh .pos trivial
  have f3 : w.copObj.hessian.Is _ _ _ := (h.part.fresh .cop trivial).1
  have f4 : w.comObj.hessian.Is _ _ _ := h.part.fresh .com trivial
  obtain ⟨s1, s2⟩ : w.comObj.gravityShift.Is _ _ ∧ w.comObj.shift.Is _ _ := h.part.fresh .shift trivial
  obtain ⟨g1, e1, h1⟩ := ZTrack.getGradient_ok (t := w.velObj) (b := w.base) (dyn := w.base.vel) (x0 := B)
    (by rw [hm.vel, hm.bN]; exact velDyn_is s.period s.period s.nbSamples) (by rw [hm.bN]; exact f1)
    (by rw [hu.velRef, hm.bN]; exact hr.1) (by rw [hm.bN]; exact hB.1)
  obtain ⟨g2, e2, h2⟩ := ZTrack.getGradient_ok (t := w.posObj) (b := w.base) (dyn := w.base.pos) (x0 := B)
    (by rw [hm.pos, hm.bN]; exact posDyn_is s.period s.period s.nbSamples) (by rw [hm.bN]; exact f2)
    (by rw [hu.posRef, hm.bN]; exact hr.2.1) (by rw [hm.bN]; exact hB.1)
  rw [hm.bN, hu.velRef] at h1
  rw [hm.bN, hu.posRef] at h2
  obtain ⟨g3, e3, h3⟩ := CopCentering.getGradient_ok hm f3 (hu.copRef.1.trans hr.2.2) hu.X
  obtain ⟨g4, e4, h4⟩ := ComCentering.getGradient_ok hm f4 hu.comRef.1 s2.1 s1.1 hu.X
  obtain ⟨g5, e5, h5⟩ := Tilt.getGradient_ok hm ht hu.X
  obtain ⟨g6, e6, h6⟩ := Tilt.getGradient_ok hm hv hu.X
  rw [hu.roll, hu.pitch] at h5 h6
  have k0 : (w.qp.p.fill 0).Is (4 * s.nbSamples) fun _ => 0 := ⟨h.qp.p, fun _ _ => rfl⟩
  obtain ⟨p1, c1, d1⟩ := accumSegment_is s.weighting.velocityTracking k0 h1 (s := 2 * s.nbSamples) (by omega)
  obtain ⟨p2, c2, d2⟩ := accumSegment_is s.weighting.positionTracking d1 h2 (s := 2 * s.nbSamples) (by omega)
  obtain ⟨p3, c3, d3⟩ := accumVec_is s.weighting.copCentering d2 h3
  obtain ⟨p4, c4, d4⟩ := accumVec_is s.weighting.comCentering d3 h4
  obtain ⟨p5, c5, d5⟩ := accumVec_is s.weighting.jerkMinimization d4 (w.X.is hu.X)
  obtain ⟨p6, c6, d6⟩ := accumVec_is s.weighting.tiltMinimization d5 h5
  obtain ⟨p7, c7, d7⟩ := accumVec_is s.weighting.tiltVelMinimization d6 h6
  refine ⟨g1, g2, g3, g4, g5, g6, p7, ⟨e1, h1.1⟩, ⟨e2, h2.1⟩, ⟨e3, h3.1⟩, ⟨e4, h4.1⟩, ⟨e5, h5.1⟩, ⟨e6, h6.1⟩, ?_,
    d7.congr fun i hi => ?_⟩
  · unfold Zeb.buildP
    dsimp only
    rw [e1, e2, e3, e4, zJerkGradient_ok hm hu.X, e5, e6, hu.weighting, c1, ok_bind, c2, ok_bind, c3, ok_bind, c4,
      ok_bind, c5, ok_bind, c6, ok_bind, c7]
  · unfold zP
    have a1 : ∀ D o r, LsqGrad (2 * s.nbSamples) (2 * s.nbSamples) D o B.get r
        = LsqGrad (2 * s.nbSamples) (2 * s.nbSamples) D o (fun j => w.X.get (2 * s.nbSamples + j)) r := fun D o r =>
      LsqGrad_congr (fun _ _ => rfl) (fun j hj => hB.2 j hj) r
    have a3 : ∀ D r, LsqGrad (2 * s.nbSamples) (4 * s.nbSamples) D (copOff s w.lip w.base w.copObj.ref) w.X.get r
        = LsqGrad (2 * s.nbSamples) (4 * s.nbSamples) D (copOff s w.lip w.base s.copRef) w.X.get r := fun D r =>
      LsqGrad_congr (fun i hi => zStack_congr
        (fun j hj => by rw [hu.copRef.2 j (by rw [hr.2.2]; omega)])
        (fun j hj => by rw [hu.copRef.2 (s.nbSamples + j) (by rw [hr.2.2]; omega)]) hi) (fun _ _ => rfl) r
    have a4 : ∀ D r, LsqGrad (2 * s.nbSamples) (4 * s.nbSamples) D (comOff s w.lip w.base w.comObj.shift) w.X.get r
        = LsqGrad (2 * s.nbSamples) (4 * s.nbSamples) D (comOff s w.lip w.base (zShifted s k)) w.X.get r := fun D r =>
      LsqGrad_congr (fun i hi => zStack_congr
        (fun j hj => by rw [s2.2 j (by omega)]; rfl)
        (fun j hj => by rw [s2.2 (s.nbSamples + j) (by omega)]; rfl) hi) (fun _ _ => rfl) r
    rw [a1, a1, a3, a4]
    rfl

theorem zCheckSolve_ok (h : ZInv tr s L k w) (hr : s.RefsCurrent) {B : Vec K}
    (hB : B.Is (2 * s.nbSamples) fun i => w.X.get (2 * s.nbSamples + i)) {fb : K} (hfb : 0 < fb) :
    w.checkSolve tr s.nbSamples (zM1 s) (zM2 s) (zM3 s) (zM4 s) B fb = .ok () := by
  have hm := h.part.user.model
  have hX := h.part.user.X
  obtain ⟨u, ps, ht, -⟩ : ∃ u ps, w.tiltObj.Is s L s.contactX s.contactY u ps ∧ TiltSol s L u ps :=
    h.part.fresh .tilt trivial
  obtain ⟨v, qs, hv, -⟩ : ∃ u ps, w.tiltVelObj.Is s L s.contactX s.contactY u ps ∧ TiltVelSol s L u ps :=
    h.part.fresh .tiltVel trivial
  obtain ⟨g1, g2, g3, g4, g5, g6, p, ⟨e1, h1⟩, ⟨e2, h2⟩, ⟨e3, h3⟩, ⟨e4, h4⟩, ⟨e5, h5⟩, ⟨e6, h6⟩, -⟩ :=
    zBuildP_ok h hr hB ht hv
  have f6 : w.copCtr.Is _ _ _ := h.part.fresh .copCtr trivial
  have f7 : w.comCtr.Is _ _ _ := h.part.fresh .comCtr trivial
  obtain ⟨g, eg, f8⟩ : ∃ g, w.baseCtr = ⟨g, s.nbSamples⟩ ∧ g.Is _ _ _ := h.part.fresh .baseCtr trivial
  have f9 : w.tiltCtr.Is _ _ _ := h.part.fresh .tiltCtr trivial
  obtain ⟨F1, c1, d1⟩ := CopConstraint.getFunction_ok hm f6 hX
  obtain ⟨F3, c3, d3⟩ := ComConstraint.getFunction_ok hm f7 hX
  obtain ⟨F4, c4, d4⟩ := TiltMotion.getFunction_ok tr hm f9 hX
  obtain ⟨Fi, ci, di⟩ := BaseMotion.computeFunction_ok hm f8 hB.1 (-s.velLimit) (-s.accLimit)
  obtain ⟨Fs, cs, ds⟩ := BaseMotion.computeFunction_ok hm f8 hB.1 s.velLimit s.accLimit
  have gi : BaseMotion.getFunctionInf w.baseCtr w.base B = .ok Fi := by
    unfold BaseMotion.getFunctionInf
    rw [require_pos (by rw [hB.1, hm.bN, mul_comm]), ok_bind, eg, h.part.user.velLimit, h.part.user.accLimit, ci]
  have gs : BaseMotion.getFunctionSup w.baseCtr w.base B = .ok Fs := by
    unfold BaseMotion.getFunctionSup
    rw [require_pos (by rw [hB.1, hm.bN, mul_comm]), ok_bind, eg, h.part.user.velLimit, h.part.user.accLimit, cs]
  unfold Zeb.checkSolve
  rw [e1, ok_bind, require_pos h1, ok_bind, e2, ok_bind, require_pos h2, ok_bind, e3, ok_bind, require_pos h3, ok_bind,
    e4, ok_bind, require_pos h4, ok_bind, zJerkGradient_ok hm hX, ok_bind, require_pos hX, ok_bind, e5, ok_bind,
    require_pos h5, ok_bind, e6, ok_bind, require_pos h6, ok_bind, c1, c3, c4, gi, gs, h.part.user.config]
  simp only [ok_bind]
  have r1 : ∀ k : Res Unit, (if s.config.cop = true then do
      require (F1.size = zM1 s)
      k
    else k) = k := by
    intro k
    split_ifs with hc
    · rw [zM1_true hc, require_pos d1.1, ok_bind]
    · rfl
  have r2 : ∀ k : Res Unit, (if s.config.com = true then do
      require (F3.size = zM3 s)
      k
    else k) = k := by
    intro k
    split_ifs with hc
    · rw [zM3_true hc, require_pos d3.1, ok_bind]
    · rfl
  have r3 : ∀ k : Res Unit, (if s.config.base = true then do
      require (Fi.size = zM2 s)
      require (Fs.size = zM2 s)
      k
    else k) = k := by
    intro k
    split_ifs with hc
    · rw [zM2_true hc, require_pos di.1, ok_bind, require_pos ds.1, ok_bind]
    · rfl
  rw [r1, r2, r3, require_pos hfb]
  split_ifs with hc
  · rw [zM4_true hc, require_pos d4.1]; rfl
  · rfl

/-- The QP given to the solver, in terms of the settings and of the state. -/
structure ZPrep (tr : Trig K) (s : Spec.ZebSettings K) (L : K) (k : K × K) (w : Zeb K) (u ps v qs : ℕ → ℕ → K)
    (qp : QPMatrices K) : Prop where
  sol : TiltSol s L u ps
  velSol : TiltVelSol s L v qs
  Q0 : qp.Q = w.qp.Q
  A0 : qp.A = w.qp.A
  Q : qp.Q.Is (4 * s.nbSamples) (4 * s.nbSamples) fun i j => w.invObj * zQ s (zTiltD s L u) (zTiltD s L v) i j
  A : qp.A.Is (zM s) (4 * s.nbSamples) fun i j => w.invCtr * zA tr s i j
  p : qp.p.Is (4 * s.nbSamples) fun i => w.invObj * zP s L k w u ps v qs i
  bl : qp.bl.Is (zM s) fun i => w.invCtr * zBl tr s w i
  bu : qp.bu.Is (zM s) fun i => w.invCtr * zBu tr s w i
  xl : qp.xl.Is (4 * s.nbSamples) (zX s w (-s.jerkLimit) (-MAXBOUND))
  xu : qp.xu.Is (4 * s.nbSamples) (zX s w s.jerkLimit MAXBOUND)
  invObj_pos : 0 < w.invObj
  invCtr_pos : 0 < w.invCtr

theorem zPrepare_ok (h : ZInv tr s L k w) (hr : s.RefsCurrent) {fb : K} (hfb : 0 < fb) :
    ∃ qp u ps v qs, w.prepare tr fb = .ok qp ∧ ZPrep tr s L k w u ps v qs qp := by
  have hX := h.part.user.X
  obtain ⟨u, ps, ht, hts⟩ : ∃ u ps, w.tiltObj.Is s L s.contactX s.contactY u ps ∧ TiltSol s L u ps :=
    h.part.fresh .tilt trivial
  obtain ⟨v, qs, hv, hvs⟩ : ∃ u ps, w.tiltVelObj.Is s L s.contactX s.contactY u ps ∧ TiltVelSol s L u ps :=
    h.part.fresh .tiltVel trivial
  obtain ⟨B, eB, hB⟩ := (w.X.is hX).segment (s := 2 * s.nbSamples) (n := 2 * s.nbSamples) (by omega)
  obtain ⟨_, _, _, _, _, _, p, -, -, -, -, -, -, ep, hp⟩ := zBuildP_ok h hr hB ht hv
  obtain ⟨bl, bu, xl, xu, eb, hbl, hbu, hxl, hxu⟩ := zBuildBounds_ok h hB
  obtain ⟨Q, eQ, hQ⟩ := zBuildQ_ok h.part ht.hessian hv.hessian
  obtain ⟨A, eA, hA⟩ := zBuildA_ok h.part
  obtain ⟨Q', eQ', fQ, hQ'⟩ := h.qp.Q
  obtain ⟨A', eA', fA, hA'⟩ := h.qp.A
  rw [eQ] at eQ'; cases eQ'
  rw [eA] at eA'; cases eA'
  rw [getNormalizationFactor_ok Q EPS EPS_pos.le] at fQ
  rw [getNormalizationFactor_ok A EPS EPS_pos.le] at fA
  have fQ := Except.ok.inj fQ
  have fA := Except.ok.inj fA
  refine ⟨{ w.qp with p := p.smul w.invObj, bu := bu.smul w.invCtr, bl := bl.smul w.invCtr, xl := xl, xu := xu },
    u, ps, v, qs, ?_, ⟨hts, hvs, rfl, rfl, ?_, ?_, hp.smul _, hbl.smul _, hbu.smul _, hxl, hxu, ?_, ?_⟩⟩
  · unfold Zeb.prepare
    rw [h.part.user.model.lN, zRows_ok h.part.user, ok_bind, eB]
    dsimp only
    rw [ok_bind, zCheckSolve_ok h hr hB hfb, ok_bind, ep, ok_bind, eb, ok_bind]
    rfl
  · rw [hQ']; exact hQ.smul _
  · rw [hA']; exact hA.smul _
  · rw [← fQ]; exact one_div_pos.2 (smallestSignificant_pos Q EPS EPS_pos.le)
  · rw [← fA]; exact one_div_pos.2 (smallestSignificant_pos A EPS EPS_pos.le)

/-! ### The result of `solve` -/

theorem ZPrep.consistent {u ps v qs : ℕ → ℕ → K} {qp : QPMatrices K} (h : ZInv tr s L k w)
    (hq : ZPrep tr s L k w u ps v qs qp) : qp.DimensionsAreConsistent w.solver.nbVar w.solver.nbCtr := by
  rw [h.qp.nbVar, h.qp.nbCtr]
  exact ⟨hq.Q.1, hq.Q.2.1, hq.p.1, hq.xl.1, hq.xu.1, hq.A.2.1, hq.A.1, hq.bl.1, hq.bu.1⟩

theorem ZPrep.used {u ps v qs : ℕ → ℕ → K} {qp : QPMatrices K} (h : ZInv tr s L k w)
    (hq : ZPrep tr s L k w u ps v qs qp) : usedQP w.solver qp true = qp := by
  unfold usedQP
  split_ifs with hi
  · obtain ⟨h1, h2⟩ := h.qp.warm (by simpa using hi)
    rw [h1, h2, ← hq.Q0, ← hq.A0]
  · rfl

/-- The generator after a `solve` whose QP is `qp`. -/
def zSolveResult (o : Oracle K) (N : ℕ) (w : Zeb K) (qp : QPMatrices K) (fb : K) : Zeb K :=
  let d := (o w.solver.calls qp 10000).2
  let dX : Vec K := ⟨w.dX.size, fun i => if i < w.solver.nbVar then d i else w.dX.get i⟩
  let X : Vec K := ⟨w.X.size, fun i => w.X.get i + dX.get i⟩
  { w with
    qp := qp
    solver := { w.solver with initialized := true, Q := qp.Q, A := qp.A, calls := w.solver.calls + 1 }
    dX := dX
    X := X
    lip := { w.lip with x := stateStep (X.get 0) fb w.lip.x, y := stateStep (X.get N) fb w.lip.y }
    base := { w.base with x := stateStep (X.get (2 * N)) fb w.base.x, y := stateStep (X.get (3 * N)) fb w.base.y } }

theorem zSolve_of_prepare (o : Oracle K) (h : ZInv tr s L k w) {fb : K} (hfb : 0 < fb) {u ps v qs : ℕ → ℕ → K}
    {qp : QPMatrices K} (e : w.prepare tr fb = .ok qp) (hq : ZPrep tr s L k w u ps v qs qp) :
    w.solve o tr fb = .ok (true, zSolveResult o s.nbSamples w qp fb) := by
  have hX := h.part.user.X
  have hN := h.part.user.model.N_pos
  unfold Zeb.solve
  dsimp only
  rw [e, ok_bind, solverSolve_ok _ _ _ _ _ _ _ (hq.consistent h) (by rw [h.qp.nbVar, h.part.user.dX]), hq.used h]
  simp only [ok_bind]
  rw [Vec.add?_ok (by exact hX.trans h.part.user.dX.symm), ok_bind, h.part.user.model.lN,
    Vec.at?_ok (by dsimp only; omega), ok_bind, Vec.at?_ok (by dsimp only; omega), Vec.at?_ok (by dsimp only; omega),
    Vec.at?_ok (by dsimp only; omega)]
  unfold Lip.updateStateX Lip.updateStateY Base.updateStateX Base.updateStateY updateState
  rw [require_pos hfb]
  simp [zSolveResult]

theorem zSolve_ok (o : Oracle K) (h : ZInv tr s L k w) (hr : s.RefsCurrent) {fb : K} (hfb : 0 < fb) :
    ∃ qp u ps v qs, ZPrep tr s L k w u ps v qs qp ∧
      w.solve o tr fb = .ok (true, zSolveResult o s.nbSamples w qp fb) := by
  obtain ⟨qp, u, ps, v, qs, e, hq⟩ := zPrepare_ok h hr hfb
  exact ⟨qp, u, ps, v, qs, hq, zSolve_of_prepare o h hfb e hq⟩

theorem ZModel.withState {l : Lip K} {b : Base K} (h : ZModel s l b) (cx cy bx by_ roll pitch yaw : State3 K)
    (vl al jl : K) (p q : Vec (Pt K)) (dx dy : Option K) :
    ZModel s { l with x := cx, y := cy }
      { b with x := bx, y := by_, roll := roll, pitch := pitch, yaw := yaw, velLimit := vl, accLimit := al
               jerkLimit := jl, copPoly := p, comPoly := q, dbx := dx, dby := dy } :=
  ⟨h.lf.state cx cy, ⟨h.bf.auto, h.bf.N, h.bf.T, h.bf.gz, h.bf.le, h.bf.total, h.bf.mass, h.bf.posd, h.bf.vel, h.bf.acc,
    h.bf.jerk, h.bf.copX, h.bf.copY, h.bf.tilt, h.bf.tiltVel⟩, h.lN, h.lT, h.lfb, h.lh, h.lgx, h.lgy, h.lgz, h.lm, h.lt,
    h.bN, h.bT, h.bh, h.bgx, h.bgy, h.bgz, h.bm, h.bt⟩

theorem zSolveResult_inv (o : Oracle K) (h : ZInv tr s L k w) {u ps v qs : ℕ → ℕ → K} {qp : QPMatrices K}
    (hq : ZPrep tr s L k w u ps v qs qp) (fb : K) : ZInv tr s L k (zSolveResult o s.nbSamples w qp fb) := by
  refine ⟨⟨{ h.part.user with model := h.part.user.model.withState _ _ _ _ _ _ _ _ _ _ _ _ _ _ }, ?_⟩, ?_⟩
  · intro o ho
    have hf := h.part.fresh o trivial
    cases o <;> exact hf
  · obtain ⟨Q, e1, e2, e3⟩ := h.qp.Q
    obtain ⟨A, a1, a2, a3⟩ := h.qp.A
    exact ⟨⟨Q, e1, e2, hq.Q0.trans e3⟩, ⟨A, a1, a2, hq.A0.trans a3⟩, hq.p.1, hq.bl.1, hq.bu.1, hq.xl.1, hq.xu.1,
      h.qp.nbVar, h.qp.nbCtr, fun _ => ⟨rfl, rfl⟩⟩

/-- A `solve` that succeeds had current references and a positive period. -/
theorem zRefs_of_solve (o : Oracle K) (h : ZInv tr s L k w) {fb : K} {r : Bool × Zeb K}
    (e : w.solve o tr fb = .ok r) : 0 < fb ∧ s.RefsCurrent := by
  have hu := h.part.user
  have hX := hu.X
  obtain ⟨B, eB, hB⟩ := (w.X.is hX).segment (s := 2 * s.nbSamples) (n := 2 * s.nbSamples) (by omega)
  unfold Zeb.solve at e
  dsimp only at e
  obtain ⟨qp, e, e'⟩ := bind_eq_ok.1 e
  have hfb : 0 < fb := by
    obtain ⟨⟨_, _, _⟩, -, e'⟩ := bind_eq_ok.1 e'
    obtain ⟨_, -, e'⟩ := bind_eq_ok.1 e'
    obtain ⟨_, -, e'⟩ := bind_eq_ok.1 e'
    obtain ⟨_, e', -⟩ := bind_eq_ok.1 e'
    obtain ⟨_, e', -⟩ := bind_eq_ok.1 e'
    unfold updateState at e'
    obtain ⟨_, e', -⟩ := bind_eq_ok.1 e'
    exact require_eq_ok.1 e'
  clear e'
  unfold Zeb.prepare at e
  rw [hu.model.lN, zRows_ok hu, ok_bind, eB] at e
  dsimp only at e
  rw [ok_bind] at e
  obtain ⟨_, e, -⟩ := bind_eq_ok.1 e
  unfold Zeb.checkSolve at e
  obtain ⟨g1, e1, e⟩ := bind_eq_ok.1 e
  obtain ⟨_, -, e⟩ := bind_eq_ok.1 e
  obtain ⟨g2, e2, e⟩ := bind_eq_ok.1 e
  obtain ⟨_, -, e⟩ := bind_eq_ok.1 e
  obtain ⟨g3, e3, e⟩ := bind_eq_ok.1 e
  have r1 : s.velRef.size = 2 * s.nbSamples := by
    unfold ZTrack.getGradient at e1
    obtain ⟨_, h1, -⟩ := bind_eq_ok.1 e1
    rw [← hu.velRef, require_eq_ok.1 h1, hB.1]
  have r2 : s.posRef.size = 2 * s.nbSamples := by
    unfold ZTrack.getGradient at e2
    obtain ⟨_, h1, -⟩ := bind_eq_ok.1 e2
    rw [← hu.posRef, require_eq_ok.1 h1, hB.1]
  have r3 : s.copRef.size = 2 * s.nbSamples := by
    unfold CopCentering.getGradient at e3
    obtain ⟨_, h1, -⟩ := bind_eq_ok.1 e3
    have := require_eq_ok.1 h1
    rw [hX, hu.copRef.1] at this
    omega
  exact ⟨hfb, r1, r2, r3⟩

end MPC
