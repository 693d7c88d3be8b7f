import Verif.Lemmas.ZebPart
import Verif.Lemmas.Trajectory

/-! # The QP of `ZebulonWalkgen` -/

set_option linter.unusedSectionVars false

namespace MPC

open Finset

variable {K : Type} [Field K] [LinearOrder K] [IsStrictOrderedRing K] [FloorRing K]

/-! ### Accumulation and optional segments -/

theorem accumBlock_is (w : K) {H Q : Mat K} {N n s : ℕ} {f g : ℕ → ℕ → K} (hQ : Q.Is N N f) (hH : H.Is n n g)
    (hs : s + n ≤ N) : ∃ R, accumBlock w H s n Q = .ok R ∧ R.Is N N fun i j =>
      f i j + max w 0 * if (s ≤ i ∧ i < s + n) ∧ (s ≤ j ∧ j < s + n) then g (i - s) (j - s) else 0 := by
  unfold accumBlock
  split_ifs with h
  · obtain ⟨R, e, hR⟩ := hQ.incBlk (hH.smul w) (r := s) (c := s) hs hs
    refine ⟨R, e, hR.congr fun i _ j _ => ?_⟩
    rw [max_eq_left h.le]
    split_ifs <;> ring
  · exact ⟨Q, rfl, hQ.congr fun i _ j _ => by rw [max_eq_right (not_lt.1 h)]; ring⟩

theorem accumMat_is (w : K) {H Q : Mat K} {N : ℕ} {f g : ℕ → ℕ → K} (hQ : Q.Is N N f) (hH : H.Is N N g) :
    ∃ R, accumMat w H Q = .ok R ∧ R.Is N N fun i j => f i j + max w 0 * g i j := by
  refine ⟨_, accumMat_ok w H Q (hQ.1.trans hH.1.symm) (hQ.2.1.trans hH.2.1.symm), hQ.1, hQ.2.1, ?_⟩
  intro i hi j hj
  dsimp only
  rw [hQ.2.2 i hi j hj, hH.2.2 i hi j hj]

theorem accumSegment_is (w : K) {g p : Vec K} {N n s : ℕ} {f v : ℕ → K} (hp : p.Is N f) (hg : g.Is n v)
    (hs : s + n ≤ N) : ∃ u, accumSegment w (.ok g) s n p = .ok u ∧ u.Is N fun i =>
      f i + max w 0 * if s ≤ i ∧ i < s + n then v (i - s) else 0 := by
  unfold accumSegment
  split_ifs with h
  · obtain ⟨u, e, hu⟩ := hp.incSeg (hg.smul w) (s := s) hs
    refine ⟨u, by rw [ok_bind, e], hu.congr fun i _ => ?_⟩
    rw [max_eq_left h.le]
    split_ifs <;> ring
  · exact ⟨p, rfl, hp.congr fun i _ => by rw [max_eq_right (not_lt.1 h)]; ring⟩

theorem accumVec_is (w : K) {g p : Vec K} {N : ℕ} {f v : ℕ → K} (hp : p.Is N f) (hg : g.Is N v) :
    ∃ u, accumVec w (.ok g) p = .ok u ∧ u.Is N fun i => f i + max w 0 * v i := by
  refine ⟨_, accumVec_ok w g p (hp.1.trans hg.1.symm), hp.1, ?_⟩
  intro i hi
  dsimp only
  rw [hp.2 i hi, hg.2 i hi]

theorem setSeg_if {b : Bool} {v : Vec K} {G : Res (Vec K)} {N n s : ℕ} {f u : ℕ → K} (hv : v.Is N f)
    (hn : b = false → n = 0) (hg : b = true → ∃ g, G = .ok g ∧ g.Is n u) (hs : s + n ≤ N) :
    ∃ r : Vec K, (∀ {β : Type} (k : Vec K → Res β),
        (if b = true then do let g ← G; let x ← v.setSegment? s n g; k x else do let x ← pure v; k x) = k r) ∧
      r.Is N fun i => if s ≤ i ∧ i < s + n then u (i - s) else f i := by
  cases b with
  | true =>
    obtain ⟨g, eg, hg⟩ := hg rfl
    obtain ⟨r, e, hr⟩ := hv.setSeg hg hs
    exact ⟨r, fun k => by rw [if_pos rfl, eg, ok_bind, e, ok_bind], hr⟩
  | false =>
    refine ⟨v, fun k => rfl, hv.congr fun i _ => ?_⟩
    rw [hn rfl, if_neg (by omega)]

theorem setBlk_if {b : Bool} {A B : Mat K} {N M n m r c : ℕ} {f g : ℕ → ℕ → K} (hA : A.Is N M f)
    (hn : b = false → n = 0) (hB : b = true → B.Is n m g) (hr : r + n ≤ N) (hc : c + m ≤ M) :
    ∃ C : Mat K, (∀ {β : Type} (k : Mat K → Res β),
        (if b = true then do let x ← A.setBlock? r c n m B; k x else do let x ← pure A; k x) = k C) ∧
      C.Is N M fun i j => if (r ≤ i ∧ i < r + n) ∧ (c ≤ j ∧ j < c + m) then g (i - r) (j - c) else f i j := by
  cases b with
  | true =>
    obtain ⟨C, e, hC⟩ := hA.setBlk (hB rfl) hr hc
    exact ⟨C, fun k => by rw [if_pos rfl, e, ok_bind], hC⟩
  | false =>
    refine ⟨A, fun k => rfl, hA.congr fun i _ j _ => ?_⟩
    rw [hn rfl, if_neg (by omega)]

/-! ### Numbers of rows -/

def zM1 (s : Spec.ZebSettings K) : ℕ := if s.config.cop = true then s.nbSamples * s.copPolygon.size else 0
def zM2 (s : Spec.ZebSettings K) : ℕ := if s.config.base = true then s.nbSamples * 4 else 0
def zM3 (s : Spec.ZebSettings K) : ℕ := if s.config.com = true then s.nbSamples * s.comPolygon.size else 0
def zM4 (s : Spec.ZebSettings K) : ℕ := if s.config.tilt = true then s.nbSamples * 2 else 0
def zM (s : Spec.ZebSettings K) : ℕ := zM1 s + zM2 s + zM3 s + zM4 s

theorem zRows_ok {s : Spec.ZebSettings K} {w : Zeb K} (h : ZUser s w) :
    w.rows = .ok (zM1 s, zM2 s, zM3 s, zM4 s) := by
  have e : ∀ p, PolyConstraint.nb w.lip w.base p = .ok (s.nbSamples * p.size) := by
    intro p
    unfold PolyConstraint.nb
    rw [require_pos (h.model.bN.trans h.model.lN.symm), ok_bind, h.model.bN]
    rfl
  unfold Zeb.rows
  simp only [e, h.config, h.copPoly, h.comPoly, h.model.bN]
  unfold zM1 zM2 zM3 zM4
  cases s.config.cop <;> cases s.config.com <;> rfl

/-! ### Constant part -/

/-- Hessian before normalisation; `tD` and `vD` are the prediction matrices of the two tilt objectives. -/
def zQ (s : Spec.ZebSettings K) (tD vD : ℕ → ℕ → K) (i j : ℕ) : K :=
  0 + max s.weighting.velocityTracking 0 *
      (if (2 * s.nbSamples ≤ i ∧ i < 2 * s.nbSamples + 2 * s.nbSamples) ∧
          (2 * s.nbSamples ≤ j ∧ j < 2 * s.nbSamples + 2 * s.nbSamples)
        then gram (2 * s.nbSamples) (zVelD s) (i - 2 * s.nbSamples) (j - 2 * s.nbSamples) else 0)
    + max s.weighting.positionTracking 0 *
      (if (2 * s.nbSamples ≤ i ∧ i < 2 * s.nbSamples + 2 * s.nbSamples) ∧
          (2 * s.nbSamples ≤ j ∧ j < 2 * s.nbSamples + 2 * s.nbSamples)
        then gram (2 * s.nbSamples) (zPosD s) (i - 2 * s.nbSamples) (j - 2 * s.nbSamples) else 0)
    + max s.weighting.copCentering 0 * gram (2 * s.nbSamples) (zCopD s) i j
    + max s.weighting.comCentering 0 * gram (2 * s.nbSamples) (zComD s) i j
    + max s.weighting.jerkMinimization 0 * (if i = j then 1 else 0)
    + max s.weighting.tiltMinimization 0 * gram (2 * s.nbSamples) tD i j
    + max s.weighting.tiltVelMinimization 0 * gram (2 * s.nbSamples) vD i j

/-- Prediction matrix of a tilt objective with inverse matrix `u`. -/
def zTiltD (s : Spec.ZebSettings K) (L : K) (u : ℕ → ℕ → K) : ℕ → ℕ → K :=
  coupledD s.nbSamples (mm s.nbSamples u (tiltRC s L)) (mm s.nbSamples u (tiltRC s L))
    (mm s.nbSamples u (tiltRB s)) (mm s.nbSamples u (tiltRB s))

/-- Constraint matrix before normalisation. -/
def zA (tr : Trig K) (s : Spec.ZebSettings K) (i j : ℕ) : K :=
  if (zM1 s + zM2 s + zM3 s ≤ i ∧ i < zM1 s + zM2 s + zM3 s + zM4 s) ∧ (0 ≤ j ∧ j < 0 + 4 * s.nbSamples)
    then zHeadD tr s (i - (zM1 s + zM2 s + zM3 s)) (j - 0)
  else if (zM1 s + zM2 s ≤ i ∧ i < zM1 s + zM2 s + zM3 s) ∧ (0 ≤ j ∧ j < 0 + 4 * s.nbSamples)
    then ∑ k ∈ range (2 * s.nbSamples),
      polyA s.nbSamples s.comPolygon (i - (zM1 s + zM2 s)) k * zComD s k (j - 0)
  else if (zM1 s ≤ i ∧ i < zM1 s + zM2 s) ∧ (2 * s.nbSamples ≤ j ∧ j < 2 * s.nbSamples + 2 * s.nbSamples)
    then zBaseD s (i - zM1 s) (j - 2 * s.nbSamples)
  else if (0 ≤ i ∧ i < 0 + zM1 s) ∧ (0 ≤ j ∧ j < 0 + 4 * s.nbSamples)
    then ∑ k ∈ range (2 * s.nbSamples), polyA s.nbSamples s.copPolygon (i - 0) k * zCopD s k (j - 0)
  else 0

section
variable {tr : Trig K} {s : Spec.ZebSettings K} {L : K} {k : K × K} {w : Zeb K}

theorem one_is (n : ℕ) : (Mat.one n : Mat K).Is n n fun i j => if i = j then 1 else 0 := ⟨rfl, rfl, fun _ _ _ _ => rfl⟩

theorem zBuildQ_ok (h : ZPart tr s L k (fun _ => True) w) {tD vD : ℕ → ℕ → K}
    (ht : w.tiltObj.hessian.Is (4 * s.nbSamples) (4 * s.nbSamples) (gram (2 * s.nbSamples) tD))
    (hv : w.tiltVelObj.hessian.Is (4 * s.nbSamples) (4 * s.nbSamples) (gram (2 * s.nbSamples) vD)) :
    ∃ Q, w.buildQ s.nbSamples = .ok Q ∧ Q.Is (4 * s.nbSamples) (4 * s.nbSamples) (zQ s tD vD) := by
  have f1 : w.velObj.hessian.Is _ _ _ := h.fresh .vel trivial
  have f2 : w.posObj.hessian.Is _ _ _ := h.fresh .pos trivial
  have f3 : w.copObj.hessian.Is _ _ _ := (h.fresh .cop trivial).1
  have f4 : w.comObj.hessian.Is _ _ _ := h.fresh .com trivial
  have f5 : w.jerkH = Mat.one (4 * s.nbSamples) := h.fresh .jerk trivial
  obtain ⟨Q1, e1, h1⟩ := accumBlock_is s.weighting.velocityTracking
    (Mat.Is.of (4 * s.nbSamples) (4 * s.nbSamples) fun _ _ => (0 : K)) f1 (s := 2 * s.nbSamples) (by omega)
  obtain ⟨Q2, e2, h2⟩ := accumBlock_is s.weighting.positionTracking h1 f2 (s := 2 * s.nbSamples) (by omega)
  obtain ⟨Q3, e3, h3⟩ := accumMat_is s.weighting.copCentering h2 f3
  obtain ⟨Q4, e4, h4⟩ := accumMat_is s.weighting.comCentering h3 f4
  obtain ⟨Q5, e5, h5⟩ := accumMat_is s.weighting.jerkMinimization h4 (one_is _)
  obtain ⟨Q6, e6, h6⟩ := accumMat_is s.weighting.tiltMinimization h5 ht
  obtain ⟨Q7, e7, h7⟩ := accumMat_is s.weighting.tiltVelMinimization h6 hv
  refine ⟨Q7, ?_, h7⟩
  unfold Zeb.buildQ Mat.zero
  dsimp only
  rw [h.user.weighting, f5, e1, ok_bind, e2, ok_bind, e3, ok_bind, e4, ok_bind, e5, ok_bind, e6, ok_bind, e7]

theorem zM1_false (hc : s.config.cop = false) : zM1 s = 0 := by unfold zM1; rw [hc]; rfl
theorem zM2_false (hc : s.config.base = false) : zM2 s = 0 := by unfold zM2; rw [hc]; rfl
theorem zM3_false (hc : s.config.com = false) : zM3 s = 0 := by unfold zM3; rw [hc]; rfl
theorem zM4_false (hc : s.config.tilt = false) : zM4 s = 0 := by unfold zM4; rw [hc]; rfl
theorem zM1_true (hc : s.config.cop = true) : zM1 s = s.copPolygon.size * s.nbSamples := by
  unfold zM1; rw [if_pos hc, mul_comm]
theorem zM2_true (hc : s.config.base = true) : zM2 s = 4 * s.nbSamples := by
  unfold zM2; rw [if_pos hc, mul_comm]
theorem zM3_true (hc : s.config.com = true) : zM3 s = s.comPolygon.size * s.nbSamples := by
  unfold zM3; rw [if_pos hc, mul_comm]
theorem zM4_true (hc : s.config.tilt = true) : zM4 s = 2 * s.nbSamples := by
  unfold zM4; rw [if_pos hc, mul_comm]

theorem zBuildA_ok (h : ZPart tr s L k (fun _ => True) w) :
    ∃ A, w.buildA s.nbSamples (zM1 s) (zM2 s) (zM3 s) (zM4 s) = .ok A ∧
      A.Is (zM s) (4 * s.nbSamples) (zA tr s) := by
  have f1 : w.copCtr.Is _ _ _ := h.fresh .copCtr trivial
  have f2 : w.comCtr.Is _ _ _ := h.fresh .comCtr trivial
  obtain ⟨g, eg, f3⟩ : ∃ g, w.baseCtr = ⟨g, s.nbSamples⟩ ∧ g.Is _ _ _ := h.fresh .baseCtr trivial
  have f4 : w.tiltCtr.Is _ _ _ := h.fresh .tiltCtr trivial
  obtain ⟨A1, e1, h1⟩ := setBlk_if (b := s.config.cop) (n := zM1 s)
    (Mat.Is.of (zM s) (4 * s.nbSamples) fun _ _ => (0 : K)) (r := 0) (c := 0) zM1_false
    (fun hc => by rw [zM1_true hc]; exact f1.gradient) (by unfold zM; omega) (by omega)
  obtain ⟨A2, e2, h2⟩ := setBlk_if (b := s.config.base) (n := zM2 s) h1 (r := zM1 s) (c := 2 * s.nbSamples) zM2_false
    (fun hc => by rw [zM2_true hc]; exact f3) (by unfold zM; omega) (by omega)
  obtain ⟨A3, e3, h3⟩ := setBlk_if (b := s.config.com) (n := zM3 s) h2 (r := zM1 s + zM2 s) (c := 0) zM3_false
    (fun hc => by rw [zM3_true hc]; exact f2.gradient) (by unfold zM; omega) (by omega)
  obtain ⟨A4, e4, h4⟩ := setBlk_if (b := s.config.tilt) (n := zM4 s) h3 (r := zM1 s + zM2 s + zM3 s) (c := 0) zM4_false
    (fun hc => by rw [zM4_true hc]; exact f4) (by unfold zM; omega) (by omega)
  refine ⟨A4, ?_, h4⟩
  unfold Zeb.buildA Mat.zero
  dsimp only
  rw [show zM1 s + zM2 s + zM3 s + zM4 s = zM s from rfl, h.user.config, eg]
  dsimp only
  rw [e1, e2, e3]
  have := e4 (pure : Mat K → Res (Mat K))
  simp only [bind_pure] at this
  exact this

theorem zCheckSizes_ok (h : ZPart tr s L k (fun _ => True) w) :
    w.checkSizes s.nbSamples (zM1 s) (zM2 s) (zM3 s) (zM4 s) = .ok () := by
  have f1 : w.velObj.hessian.Is _ _ _ := h.fresh .vel trivial
  have f2 : w.posObj.hessian.Is _ _ _ := h.fresh .pos trivial
  have f3 : w.copObj.hessian.Is _ _ _ := (h.fresh .cop trivial).1
  have f4 : w.comObj.hessian.Is _ _ _ := h.fresh .com trivial
  have f5 : w.jerkH = Mat.one (4 * s.nbSamples) := h.fresh .jerk trivial
  obtain ⟨_, _, ht, -⟩ : ∃ u ps, w.tiltObj.Is s L s.contactX s.contactY u ps ∧ TiltSol s L u ps :=
    h.fresh .tilt trivial
  obtain ⟨_, _, hv, -⟩ : ∃ u ps, w.tiltVelObj.Is s L s.contactX s.contactY u ps ∧ TiltVelSol s L u ps :=
    h.fresh .tiltVel trivial
  have f6 : w.copCtr.Is _ _ _ := h.fresh .copCtr trivial
  have f7 : w.comCtr.Is _ _ _ := h.fresh .comCtr trivial
  obtain ⟨g, eg, f8⟩ : ∃ g, w.baseCtr = ⟨g, s.nbSamples⟩ ∧ g.Is _ _ _ := h.fresh .baseCtr trivial
  have f9 : w.tiltCtr.Is _ _ _ := h.fresh .tiltCtr trivial
  unfold Zeb.checkSizes
  rw [f5, eg, h.user.config]
  rw [require_pos f1.1, ok_bind, require_pos f1.2.1, ok_bind, require_pos f2.1, ok_bind, require_pos f2.2.1, ok_bind,
    h.user.model.same, ok_bind, require_pos f3.1, ok_bind, require_pos f3.2.1, ok_bind, require_pos f4.1, ok_bind,
    require_pos f4.2.1, ok_bind, require_pos (by rfl), ok_bind, require_pos (by rfl), ok_bind,
    require_pos ht.hessian.1, ok_bind, require_pos ht.hessian.2.1, ok_bind, require_pos hv.hessian.1, ok_bind,
    require_pos hv.hessian.2.1, ok_bind]
  have r1 : ∀ k : Res Unit, (if s.config.cop = true then do
      require (w.copCtr.gradient.cols = 4 * s.nbSamples)
      require (w.copCtr.gradient.rows = zM1 s)
      k
    else k) = k := by
    intro k
    split_ifs with hc
    · rw [require_pos f6.gradient.2.1, ok_bind, zM1_true hc, require_pos f6.gradient.1, ok_bind]
    · rfl
  have r2 : ∀ k : Res Unit, (if s.config.com = true then do
      require (w.comCtr.gradient.cols = 4 * s.nbSamples)
      require (w.comCtr.gradient.rows = zM3 s)
      k
    else k) = k := by
    intro k
    split_ifs with hc
    · rw [require_pos f7.gradient.2.1, ok_bind, zM3_true hc, require_pos f7.gradient.1, ok_bind]
    · rfl
  have r3 : ∀ k : Res Unit, (if s.config.base = true then do
      require (g.cols = 2 * s.nbSamples)
      require (g.rows = zM2 s)
      k
    else k) = k := by
    intro k
    split_ifs with hc
    · rw [require_pos f8.2.1, ok_bind, zM2_true hc, require_pos f8.1, ok_bind]
    · rfl
  dsimp only
  rw [r1, r2, r3]
  split_ifs with hc
  · rw [require_pos f9.2.1, ok_bind, zM4_true hc, require_pos f9.1]
  · rfl

/-- The QP matrices are those of the current objectives and constraints. -/
structure ZQP (s : Spec.ZebSettings K) (w : Zeb K) : Prop where
  Q : ∃ Q, w.buildQ s.nbSamples = .ok Q ∧ getNormalizationFactor Q EPS = .ok w.invObj ∧
    w.qp.Q = Q.smul w.invObj
  A : ∃ A, w.buildA s.nbSamples (zM1 s) (zM2 s) (zM3 s) (zM4 s) = .ok A ∧
    getNormalizationFactor A EPS = .ok w.invCtr ∧ w.qp.A = A.smul w.invCtr
  p : w.qp.p.size = 4 * s.nbSamples
  bl : w.qp.bl.size = zM s
  bu : w.qp.bu.size = zM s
  xl : w.qp.xl.size = 4 * s.nbSamples
  xu : w.qp.xu.size = 4 * s.nbSamples
  nbVar : w.solver.nbVar = 4 * s.nbSamples
  nbCtr : w.solver.nbCtr = zM s
  warm : w.solver.initialized = true → w.solver.Q = w.qp.Q ∧ w.solver.A = w.qp.A

/-- Invariant of the generator. -/
structure ZInv (tr : Trig K) (s : Spec.ZebSettings K) (L : K) (k : K × K) (w : Zeb K) : Prop where
  part : ZPart tr s L k (fun _ => True) w
  qp : ZQP s w

theorem ZPart.computeConstantPart {F : ZO → Prop} (h' : ZPart tr s L k F w) (hF : ∀ o, F o) :
    ∃ w', w.computeConstantPart = .ok w' ∧ ZInv tr s L k w' ∧
      w'.lip = w.lip ∧ w'.base = w.base ∧ w'.X = w.X := by
  have h : ZPart tr s L k (fun _ => True) w := h'.mono fun o _ => hF o
  obtain ⟨_, _, ht, -⟩ : ∃ u ps, w.tiltObj.Is s L s.contactX s.contactY u ps ∧ TiltSol s L u ps :=
    h.fresh .tilt trivial
  obtain ⟨_, _, hv, -⟩ : ∃ u ps, w.tiltVelObj.Is s L s.contactX s.contactY u ps ∧ TiltVelSol s L u ps :=
    h.fresh .tiltVel trivial
  obtain ⟨Q, eQ, hQ⟩ := zBuildQ_ok h ht.hessian hv.hessian
  obtain ⟨A, eA, hA⟩ := zBuildA_ok h
  have e1 := getNormalizationFactor_ok Q EPS EPS_pos.le
  have e2 := getNormalizationFactor_ok A EPS EPS_pos.le
  refine ⟨{ w with
    solver := { SolverState.make (4 * s.nbSamples) (zM s) with calls := w.solver.calls }
    qp := { Q := Q.smul (1 / smallestSignificant Q EPS), p := Vec.const (4 * s.nbSamples) 0
            A := A.smul (1 / smallestSignificant A EPS), bl := Vec.const (zM s) 0
            bu := Vec.const (zM s) 0, xl := Vec.const (4 * s.nbSamples) 0, xu := Vec.const (4 * s.nbSamples) 0 }
    invObj := 1 / smallestSignificant Q EPS
    invCtr := 1 / smallestSignificant A EPS }, ?_, ⟨⟨{ h.user with }, ?_⟩, ?_⟩, rfl, rfl, rfl⟩
  · unfold Zeb.computeConstantPart
    rw [h.user.model.lN, zRows_ok h.user, ok_bind]
    dsimp only
    rw [zCheckSizes_ok h, ok_bind, eQ, ok_bind, eA, ok_bind, e1, ok_bind, e2]
    rfl
  · intro o ho
    have hf := h.fresh o trivial
    cases o <;> exact hf
  · exact ⟨⟨Q, eQ, e1, rfl⟩, ⟨A, eA, e2, rfl⟩, rfl, rfl, rfl, rfl, rfl, rfl, rfl, fun hh => by cases hh⟩

/-! ### Filling the vectors -/

/-- Lower bounds before normalisation. -/
def zBl (tr : Trig K) (s : Spec.ZebSettings K) (w : Zeb K) (i : ℕ) : K :=
  if zM1 s + zM2 s + zM3 s ≤ i ∧ i < zM1 s + zM2 s + zM3 s + zM4 s then
    -∑ c ∈ range (4 * s.nbSamples), zHeadD tr s (i - (zM1 s + zM2 s + zM3 s)) c * w.X.get c
      - headingK s (tr.sin s.yaw.p) (tr.cos s.yaw.p) w.lip w.base (i - (zM1 s + zM2 s + zM3 s))
  else if zM1 s + zM2 s ≤ i ∧ i < zM1 s + zM2 s + zM3 s then
    polyF s.nbSamples s.comPolygon (zComD s)
      (zStack s.nbSamples (comK s w.lip.x w.base.x) (comK s w.lip.y w.base.y)) w.X.get (i - (zM1 s + zM2 s))
  else if zM1 s ≤ i ∧ i < zM1 s + zM2 s then
    (if i - zM1 s < 2 * s.nbSamples then -s.velLimit else -s.accLimit)
      - ∑ c ∈ range (2 * s.nbSamples), zBaseD s (i - zM1 s) c * w.X.get (2 * s.nbSamples + c)
      - motionK s.nbSamples s.period w.base.x w.base.y (i - zM1 s)
  else if 0 ≤ i ∧ i < 0 + zM1 s then
    polyF s.nbSamples s.copPolygon (zCopD s)
      (zStack s.nbSamples (copK s s.gx w.lip.x w.base.x) (copK s s.gy w.lip.y w.base.y)) w.X.get (i - 0)
  else -MAXBOUND

/-- Upper bounds before normalisation. -/
def zBu (tr : Trig K) (s : Spec.ZebSettings K) (w : Zeb K) (i : ℕ) : K :=
  if zM1 s + zM2 s + zM3 s ≤ i ∧ i < zM1 s + zM2 s + zM3 s + zM4 s then
    -∑ c ∈ range (4 * s.nbSamples), zHeadD tr s (i - (zM1 s + zM2 s + zM3 s)) c * w.X.get c
      - headingK s (tr.sin s.yaw.p) (tr.cos s.yaw.p) w.lip w.base (i - (zM1 s + zM2 s + zM3 s))
  else if zM1 s ≤ i ∧ i < zM1 s + zM2 s then
    (if i - zM1 s < 2 * s.nbSamples then s.velLimit else s.accLimit)
      - ∑ c ∈ range (2 * s.nbSamples), zBaseD s (i - zM1 s) c * w.X.get (2 * s.nbSamples + c)
      - motionK s.nbSamples s.period w.base.x w.base.y (i - zM1 s)
  else MAXBOUND

/-- Bounds on the unknowns, `l` is the limit and `m` the value without limit. -/
def zX (s : Spec.ZebSettings K) (w : Zeb K) (l m : K) (i : ℕ) : K :=
  if s.config.base = true ∧ 2 * s.nbSamples ≤ i ∧ i < 2 * s.nbSamples + 2 * s.nbSamples then l - w.X.get i else m

theorem zBuildBounds_ok (h : ZInv tr s L k w) {B : Vec K}
    (hB : B.Is (2 * s.nbSamples) fun i => w.X.get (2 * s.nbSamples + i)) :
    ∃ bl bu xl xu, w.buildBounds tr s.nbSamples (zM1 s) (zM2 s) (zM3 s) (zM4 s) B = .ok (bl, bu, xl, xu) ∧
      bl.Is (zM s) (zBl tr s w) ∧ bu.Is (zM s) (zBu tr s w) ∧
      xl.Is (4 * s.nbSamples) (zX s w (-s.jerkLimit) (-MAXBOUND)) ∧
      xu.Is (4 * s.nbSamples) (zX s w s.jerkLimit MAXBOUND) := by
  have hm := h.part.user.model
  have hX := h.part.user.X
  have f6 : w.copCtr.Is _ _ _ := h.part.fresh .copCtr trivial
  have f7 : w.comCtr.Is _ _ _ := h.part.fresh .comCtr trivial
  obtain ⟨g, eg, f8⟩ : ∃ g, w.baseCtr = ⟨g, s.nbSamples⟩ ∧ g.Is _ _ _ := h.part.fresh .baseCtr trivial
  have f9 : w.tiltCtr.Is _ _ _ := h.part.fresh .tiltCtr trivial
  obtain ⟨F1, c1, d1⟩ := CopConstraint.getFunction_ok hm f6 hX
  obtain ⟨F3, c3, d3⟩ := ComConstraint.getFunction_ok hm f7 hX
  obtain ⟨F4, c4, d4⟩ := TiltMotion.getFunction_ok tr hm f9 hX
  obtain ⟨Fi, ci, di⟩ := BaseMotion.computeFunction_ok hm f8 hB.1 (-s.velLimit) (-s.accLimit)
  obtain ⟨Fs, cs, ds⟩ := BaseMotion.computeFunction_ok hm f8 hB.1 s.velLimit s.accLimit
  have sB : ∀ r, ∑ c ∈ range (2 * s.nbSamples), zBaseD s r c * B.get c
      = ∑ c ∈ range (2 * s.nbSamples), zBaseD s r c * w.X.get (2 * s.nbSamples + c) := fun r =>
    sum_congr rfl fun c hc => by rw [hB.2 c (mem_range.1 hc)]
  simp only [sB] at di ds
  have gi : BaseMotion.getFunctionInf w.baseCtr w.base B = .ok Fi := by
    unfold BaseMotion.getFunctionInf
    rw [require_pos (by rw [hB.1, hm.bN, mul_comm]), ok_bind, eg, h.part.user.velLimit, h.part.user.accLimit, ci]
  have gs : BaseMotion.getFunctionSup w.baseCtr w.base B = .ok Fs := by
    unfold BaseMotion.getFunctionSup
    rw [require_pos (by rw [hB.1, hm.bN, mul_comm]), ok_bind, eg, h.part.user.velLimit, h.part.user.accLimit, cs]
  have kbl : (w.qp.bl.fill (-MAXBOUND)).Is (zM s) fun _ => -MAXBOUND := ⟨h.qp.bl, fun _ _ => rfl⟩
  have kbu : (w.qp.bu.fill MAXBOUND).Is (zM s) fun _ => MAXBOUND := ⟨h.qp.bu, fun _ _ => rfl⟩
  have kxl : (w.qp.xl.fill (-MAXBOUND)).Is (4 * s.nbSamples) fun _ => -MAXBOUND := ⟨h.qp.xl, fun _ _ => rfl⟩
  have kxu : (w.qp.xu.fill MAXBOUND).Is (4 * s.nbSamples) fun _ => MAXBOUND := ⟨h.qp.xu, fun _ _ => rfl⟩
  obtain ⟨bl1, e1, h1⟩ := setSeg_if (b := s.config.cop) (n := zM1 s) (s := 0) kbl zM1_false
    (fun hc => ⟨F1, c1, by rw [zM1_true hc]; exact d1⟩) (by unfold zM; omega)
  obtain ⟨bl2, bu2, xl2, xu2, e2, h2, h2', h2x, h2x'⟩ : ∃ bl2 bu2 xl2 xu2 : Vec K,
      (∀ {β : Type} (k : Vec K × Vec K × Vec K × Vec K → Res β),
        (if s.config.base = true then do
          let f ← BaseMotion.getFunctionInf w.baseCtr w.base B
          let bl ← bl1.setSegment? (zM1 s) (zM2 s) f
          let f ← BaseMotion.getFunctionSup w.baseCtr w.base B
          let bu ← (w.qp.bu.fill MAXBOUND).setSegment? (zM1 s) (zM2 s) f
          let xu ← (w.qp.xu.fill MAXBOUND).setSegment? (2 * s.nbSamples) (2 * s.nbSamples)
            (Vec.const (2 * s.nbSamples) w.base.jerkLimit)
          let xu ← xu.decSegment? (2 * s.nbSamples) (2 * s.nbSamples) B
          let xl ← (w.qp.xl.fill (-MAXBOUND)).setSegment? (2 * s.nbSamples) (2 * s.nbSamples)
            (Vec.const (2 * s.nbSamples) (-w.base.jerkLimit))
          let xl ← xl.decSegment? (2 * s.nbSamples) (2 * s.nbSamples) B
          let x ← pure (bl, bu, xl, xu)
          k x
        else do
          let x ← pure (bl1, w.qp.bu.fill MAXBOUND, w.qp.xl.fill (-MAXBOUND), w.qp.xu.fill MAXBOUND)
          k x) = k (bl2, bu2, xl2, xu2)) ∧
      bl2.Is (zM s) (fun i => if zM1 s ≤ i ∧ i < zM1 s + zM2 s then
          (if i - zM1 s < 2 * s.nbSamples then -s.velLimit else -s.accLimit)
          - ∑ c ∈ range (2 * s.nbSamples), zBaseD s (i - zM1 s) c * w.X.get (2 * s.nbSamples + c)
          - motionK s.nbSamples s.period w.base.x w.base.y (i - zM1 s)
        else if 0 ≤ i ∧ i < 0 + zM1 s then
          polyF s.nbSamples s.copPolygon (zCopD s)
            (zStack s.nbSamples (copK s s.gx w.lip.x w.base.x) (copK s s.gy w.lip.y w.base.y)) w.X.get (i - 0)
        else -MAXBOUND) ∧
      bu2.Is (zM s) (fun i => if zM1 s ≤ i ∧ i < zM1 s + zM2 s then
          (if i - zM1 s < 2 * s.nbSamples then s.velLimit else s.accLimit)
          - ∑ c ∈ range (2 * s.nbSamples), zBaseD s (i - zM1 s) c * w.X.get (2 * s.nbSamples + c)
          - motionK s.nbSamples s.period w.base.x w.base.y (i - zM1 s)
        else MAXBOUND) ∧
      xl2.Is (4 * s.nbSamples) (zX s w (-s.jerkLimit) (-MAXBOUND)) ∧
      xu2.Is (4 * s.nbSamples) (zX s w s.jerkLimit MAXBOUND) := by
    cases hc : s.config.base with
    | true =>
      have z2 := zM2_true hc
      rw [← z2] at di ds
      obtain ⟨a, ea, ha⟩ := h1.setSeg di (s := zM1 s) (by unfold zM; omega)
      obtain ⟨b, eb, hb⟩ := kbu.setSeg ds (s := zM1 s) (by unfold zM; omega)
      obtain ⟨c, ec, hc1⟩ := kxu.setSeg (Vec.Is.of (2 * s.nbSamples) fun _ => s.jerkLimit) (s := 2 * s.nbSamples)
        (by omega)
      obtain ⟨d, ed, hd⟩ := hc1.decSeg hB (s := 2 * s.nbSamples) (by omega)
      obtain ⟨e, ee, he⟩ := kxl.setSeg (Vec.Is.of (2 * s.nbSamples) fun _ => -s.jerkLimit) (s := 2 * s.nbSamples)
        (by omega)
      obtain ⟨f, ef, hf⟩ := he.decSeg hB (s := 2 * s.nbSamples) (by omega)
      refine ⟨a, b, f, d, fun k => ?_, ha, hb, hf.congr fun i hi => ?_, hd.congr fun i hi => ?_⟩
      · rw [if_pos rfl, gi, ok_bind, ea, ok_bind, gs, ok_bind, eb, ok_bind, h.part.user.jerkLimit]
        unfold Vec.const
        rw [ec, ok_bind, ed, ok_bind, ee, ok_bind, ef, ok_bind]
        rfl
      · unfold zX
        rw [hc]
        by_cases hi2 : 2 * s.nbSamples ≤ i ∧ i < 2 * s.nbSamples + 2 * s.nbSamples
        · rw [if_pos hi2, if_pos hi2, if_pos ⟨rfl, hi2⟩, Nat.add_sub_cancel' hi2.1]
        · rw [if_neg hi2, if_neg hi2, if_neg fun hh => hi2 hh.2]
      · unfold zX
        rw [hc]
        by_cases hi2 : 2 * s.nbSamples ≤ i ∧ i < 2 * s.nbSamples + 2 * s.nbSamples
        · rw [if_pos hi2, if_pos hi2, if_pos ⟨rfl, hi2⟩, Nat.add_sub_cancel' hi2.1]
        · rw [if_neg hi2, if_neg hi2, if_neg fun hh => hi2 hh.2]
    | false =>
      have z2 := zM2_false hc
      refine ⟨bl1, _, _, _, fun k => rfl, h1.congr fun i hi => ?_, kbu.congr fun i hi => ?_,
        kxl.congr fun i hi => ?_, kxu.congr fun i hi => ?_⟩
      · rw [z2, if_neg (by omega : ¬ (zM1 s ≤ i ∧ i < zM1 s + 0))]
      · rw [z2, if_neg (by omega : ¬ (zM1 s ≤ i ∧ i < zM1 s + 0))]
      · unfold zX; rw [hc, if_neg fun hh => by cases hh.1]
      · unfold zX; rw [hc, if_neg fun hh => by cases hh.1]
  obtain ⟨bl3, e3, h3⟩ := setSeg_if (b := s.config.com) (n := zM3 s) (s := zM1 s + zM2 s) h2 zM3_false
    (fun hc => ⟨F3, c3, by rw [zM3_true hc]; exact d3⟩) (by unfold zM; omega)
  unfold Zeb.buildBounds
  dsimp only
  rw [h.part.user.config, e1, e2]
  dsimp only
  rw [e3]
  rw [h.part.user.yaw] at d4
  cases hc : s.config.tilt with
  | true =>
    have z4 := zM4_true hc
    rw [← z4] at d4
    obtain ⟨a, ea, ha⟩ := h3.setSeg d4 (s := zM1 s + zM2 s + zM3 s) (by unfold zM; omega)
    obtain ⟨b, eb, hb⟩ := h2'.setSeg d4 (s := zM1 s + zM2 s + zM3 s) (by unfold zM; omega)
    refine ⟨a, b, xl2, xu2, ?_, ha, hb, h2x, h2x'⟩
    rw [if_pos rfl, c4, ok_bind, ea, ok_bind, eb, ok_bind]
    rfl
  | false =>
    have z4 := zM4_false hc
    refine ⟨bl3, bu2, xl2, xu2, rfl, h3.congr fun i hi => ?_, h2'.congr fun i hi => ?_, h2x, h2x'⟩
    · unfold zBl
      rw [if_neg (c := _ ∧ i < zM1 s + zM2 s + zM3 s + zM4 s) (by rw [z4]; omega)]
    · unfold zBu
      rw [if_neg (c := _ ∧ i < zM1 s + zM2 s + zM3 s + zM4 s) (by rw [z4]; omega)]

end

end MPC
