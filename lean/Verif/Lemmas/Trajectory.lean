import Verif.Spec.Trajectory
import Verif.Lemmas.Dynamics
import Verif.Lemmas.QP
import Verif.Lemmas.LeastSquares

/-! Invariants of `TrajectoryWalkgen`. -/

set_option linter.unusedSectionVars false

namespace MPC

open Finset

variable {K : Type} [Field K] [LinearOrder K] [IsStrictOrderedRing K]

/-! ### Accumulation of weighted terms -/

theorem accumMat_ok (w : K) (H Q : Mat K) (h1 : Q.rows = H.rows) (h2 : Q.cols = H.cols) :
    accumMat w H Q = .ok ⟨Q.rows, Q.cols, fun i j => Q.get i j + max w 0 * H.get i j⟩ := by
  unfold accumMat
  split_ifs with h
  · rw [Mat.add?_ok (B := Mat.smul w H) h1 h2]
    simp [Mat.smul, max_eq_left h.le]
  · simp [max_eq_right (not_lt.1 h)]

theorem accumVec_ok (w : K) (g p : Vec K) (h : p.size = g.size) :
    accumVec w (.ok g) p = .ok ⟨p.size, fun i => p.get i + max w 0 * g.get i⟩ := by
  unfold accumVec
  split_ifs with hw
  · rw [ok_bind, Vec.add?_ok (w := Vec.smul w g) h]
    simp [Vec.smul, max_eq_left hw.le]
  · simp [max_eq_right (not_lt.1 hw)]

/-! ### Invariant -/

/-- The model and the settings agree, the dynamics are those of the model. -/
structure ModelInv (s : Spec.TrajSettings K) (w : TrajWalkgen K) : Prop where
  N_pos : 0 < s.nbSamples
  T_pos : 0 < s.period
  N_eq : w.model.nbSamples = s.nbSamples
  T_eq : w.model.samplingPeriod = s.period
  velRef : w.velObj.ref = s.velRef
  posRef : w.posObj.ref = s.posRef
  velLimit : w.model.velocityLimit = s.velLimit
  accLimit : w.model.accelerationLimit = s.accLimit
  jerkLimit : w.model.jerkLimit = s.jerkLimit
  weighting : w.weighting = s.weighting
  constrained : w.withMotionConstraints = s.constrained
  pos : w.model.pos = posDyn s.period s.period s.nbSamples
  vel : w.model.vel = velDyn s.period s.period s.nbSamples
  acc : w.model.acc = accDyn s.period s.period s.nbSamples
  X_size : w.X.size = s.nbSamples
  dX_size : w.dX.size = s.nbSamples

/-- The objectives and the constraint are up to date. -/
structure FuncInv (s : Spec.TrajSettings K) (w : TrajWalkgen K) : Prop extends ModelInv s w where
  velH : w.velObj.hessian = ⟨s.nbSamples, s.nbSamples, gram s.nbSamples (velU s.period s.period)⟩
  posH : w.posObj.hessian = ⟨s.nbSamples, s.nbSamples, gram s.nbSamples (posU s.period s.period)⟩
  jerkH : w.jerkHessian = Mat.one s.nbSamples
  tmp : w.motion.tmpSize = s.nbSamples
  gRows : w.motion.gradient.rows = s.nbSamples * 2
  gCols : w.motion.gradient.cols = s.nbSamples
  gVel : ∀ i < s.nbSamples, ∀ j < s.nbSamples,
    w.motion.gradient.get i j = velU s.period s.period i j
  gAcc : ∀ i < s.nbSamples, ∀ j < s.nbSamples,
    w.motion.gradient.get (s.nbSamples + i) j = accU s.period s.period i j

/-- Entries of the Hessian. -/
def trajQ (s : Spec.TrajSettings K) (i j : ℕ) : K :=
  max s.weighting.velocityTracking 0 * gram s.nbSamples (velU s.period s.period) i j
    + max s.weighting.positionTracking 0 * gram s.nbSamples (posU s.period s.period) i j
    + max s.weighting.jerkMinimization 0 * (if i = j then 1 else 0)

/-- Number of constraint rows. -/
def trajM (s : Spec.TrajSettings K) : ℕ := if s.constrained then s.nbSamples * 2 else 0

/-- Everything cached is up to date. -/
structure TrajInv (s : Spec.TrajSettings K) (w : TrajWalkgen K) : Prop extends FuncInv s w where
  Q_rows : w.qp.Q.rows = s.nbSamples
  Q_cols : w.qp.Q.cols = s.nbSamples
  Q_get : ∀ i j, w.qp.Q.get i j = trajQ s i j
  A_rows : w.qp.A.rows = trajM s
  A_cols : w.qp.A.cols = s.nbSamples
  A_vel : s.constrained → ∀ i < s.nbSamples, ∀ j < s.nbSamples,
    w.qp.A.get i j = velU s.period s.period i j
  A_acc : s.constrained → ∀ i < s.nbSamples, ∀ j < s.nbSamples,
    w.qp.A.get (s.nbSamples + i) j = accU s.period s.period i j
  p_size : w.qp.p.size = s.nbSamples
  xl_size : w.qp.xl.size = s.nbSamples
  xu_size : w.qp.xu.size = s.nbSamples
  bl_size : w.qp.bl.size = trajM s
  bu_size : w.qp.bu.size = trajM s
  nbVar : w.solver.nbVar = s.nbSamples
  nbCtr : w.solver.nbCtr = trajM s
  warm : w.solver.initialized = true → w.solver.Q = w.qp.Q ∧ w.solver.A = w.qp.A

theorem computeConstantPart_inv {s : Spec.TrajSettings K} {w : TrajWalkgen K} (h : FuncInv s w) :
    ∃ w', w.computeConstantPart = .ok w' ∧ TrajInv s w' ∧ w'.model = w.model ∧ w'.X = w.X := by
  have hQ : ∀ Q0 : Mat K, Q0 = Mat.zero s.nbSamples s.nbSamples →
      ((do let Q ← accumMat w.weighting.velocityTracking w.velObj.hessian Q0
           let Q ← accumMat w.weighting.positionTracking w.posObj.hessian Q
           accumMat w.weighting.jerkMinimization w.jerkHessian Q : Res (Mat K)))
        = .ok ⟨s.nbSamples, s.nbSamples, trajQ s⟩ := by
    rintro _ rfl
    rw [accumMat_ok _ _ _ (by simp [h.velH, Mat.zero]) (by simp [h.velH, Mat.zero]), ok_bind,
      accumMat_ok _ _ _ (by simp [h.posH, Mat.zero]) (by simp [h.posH, Mat.zero]), ok_bind,
      accumMat_ok _ _ _ (by simp [h.jerkH, Mat.zero, Mat.one]) (by simp [h.jerkH, Mat.zero, Mat.one])]
    simp only [h.velH, h.posH, h.jerkH, h.weighting, Mat.zero, Mat.one, zero_add]
    rfl
  have hQ' := hQ _ rfl
  simp only [bind_eq_ok] at hQ'
  obtain ⟨Q1, e1, Q2, e2, e3⟩ := hQ'
  unfold TrajWalkgen.computeConstantPart
  have hb : w.withMotionConstraints = s.constrained := h.constrained
  cases hc : s.constrained
  · simp only [h.N_eq, MotionConstraint.nb, hb, hc, Bool.false_eq_true, if_false]
    rw [require_pos (by simp [h.velH]), require_pos (by simp [h.velH]),
      require_pos (by simp [h.posH]), require_pos (by simp [h.posH]),
      require_pos (by simp [h.jerkH, Mat.one]), require_pos (by simp [h.jerkH, Mat.one])]
    simp only [ok_bind, res_pure, e1, e2, e3]
    refine ⟨_, rfl, ?_, rfl, rfl⟩
    have hM : trajM s = 0 := by simp [trajM, hc]
    exact { toFuncInv := { h with constrained := hc.symm }
            Q_rows := rfl, Q_cols := rfl, Q_get := fun _ _ => rfl, A_rows := hM.symm, A_cols := rfl
            A_vel := fun h' => by simp [hc] at h'
            A_acc := fun h' => by simp [hc] at h'
            p_size := rfl, xl_size := rfl, xu_size := rfl, bl_size := hM.symm, bu_size := hM.symm
            nbVar := rfl, nbCtr := hM.symm, warm := fun h' => by simp [SolverState.make] at h' }
  · simp only [h.N_eq, MotionConstraint.nb, hb, hc, if_true]
    rw [require_pos (by simp [h.velH]), require_pos (by simp [h.velH]),
      require_pos (by simp [h.posH]), require_pos (by simp [h.posH]),
      require_pos (by simp [h.jerkH, Mat.one]), require_pos (by simp [h.jerkH, Mat.one]),
      require_pos h.gCols, require_pos h.gRows]
    rw [Mat.setBlock?_ok (by simp [Mat.zero]) (by simp [Mat.zero]) h.gRows h.gCols]
    simp only [ok_bind, res_pure, e1, e2, e3]
    refine ⟨_, rfl, ?_, rfl, rfl⟩
    have hM : trajM s = s.nbSamples * 2 := by simp [trajM, hc]
    exact { toFuncInv := { h with constrained := hc.symm }
            Q_rows := rfl, Q_cols := rfl, Q_get := fun _ _ => rfl, A_rows := hM.symm, A_cols := rfl
            A_vel := fun _ i hi j hj => by
              show (if _ then _ else _) = _
              rw [if_pos ⟨⟨by omega, by omega⟩, by omega, by omega⟩]
              simpa using h.gVel i hi j hj
            A_acc := fun _ i hi j hj => by
              show (if _ then _ else _) = _
              rw [if_pos ⟨⟨by omega, by omega⟩, by omega, by omega⟩]
              simpa using h.gAcc i hi j hj
            p_size := rfl, xl_size := rfl, xu_size := rfl, bl_size := hM.symm, bu_size := hM.symm
            nbVar := rfl, nbCtr := hM.symm, warm := fun h' => by simp [SolverState.make] at h' }

theorem motionCompute_ok {s : Spec.TrajSettings K} {w : TrajWalkgen K} (h : ModelInv s w) :
    ∃ m, MotionConstraint.compute w.model = .ok m ∧ m.tmpSize = s.nbSamples ∧
      m.gradient.rows = s.nbSamples * 2 ∧ m.gradient.cols = s.nbSamples ∧
      (∀ i < s.nbSamples, ∀ j < s.nbSamples,
        m.gradient.get i j = velU s.period s.period i j) ∧
      (∀ i < s.nbSamples, ∀ j < s.nbSamples,
        m.gradient.get (s.nbSamples + i) j = accU s.period s.period i j) := by
  unfold MotionConstraint.compute
  simp only [h.N_eq, MotionConstraint.nb, h.vel, h.acc]
  rw [Mat.setBlock?_ok (by simp [Mat.zero]; omega) (by simp [Mat.zero]) (by rfl) (by rfl), ok_bind,
    Mat.setBlock?_ok (by simp [Mat.zero]; omega) (by simp [Mat.zero]) (by rfl) (by rfl), ok_bind]
  refine ⟨_, rfl, rfl, rfl, rfl, ?_, ?_⟩
  · intro i hi j hj
    show (if _ then _ else if _ then _ else _) = _
    rw [if_neg (by omega), if_pos ⟨⟨by omega, by omega⟩, by omega, by omega⟩]
    simp [velDyn]
  · intro i hi j hj
    show (if _ then _ else if _ then _ else _) = _
    rw [if_pos ⟨⟨by omega, by omega⟩, by omega, by omega⟩]
    simp [accDyn]

theorem refreshFunctions_inv {s : Spec.TrajSettings K} {w : TrajWalkgen K} (h : ModelInv s w) :
    ∃ w', w.refreshFunctions = .ok w' ∧ FuncInv s w' ∧ w'.model = w.model ∧ w'.X = w.X := by
  obtain ⟨m, e, h1, h2, h3, h4, h5⟩ := motionCompute_ok h
  unfold TrajWalkgen.refreshFunctions TrackingObjective.computeConstantPart
  rw [Mat.mul?_ok (by simp [h.vel, velDyn, Mat.transpose]), ok_bind, res_pure, ok_bind,
    Mat.mul?_ok (by simp [h.pos, posDyn, Mat.transpose]), ok_bind, res_pure, ok_bind, e, ok_bind]
  refine ⟨_, rfl, ?_, rfl, rfl⟩
  exact { toModelInv := { h with }
          velH := by simp only [h.vel, velDyn, Mat.transpose]; rfl
          posH := by simp only [h.pos, posDyn, Mat.transpose]; rfl
          jerkH := by simp only [h.N_eq]
          tmp := h1, gRows := h2, gCols := h3, gVel := h4, gAcc := h5 }

/-! ### The QP of a `solve` -/

theorem gradient_ok {N : ℕ} (t : TrackingObjective K) (m : NoDynamicModel K)
    (dyn : LinearDynamic K) (x0 : Vec K) (U : ℕ → ℕ → K) (Sm : ℕ → ℕ → K) (hm : m.nbSamples = N)
    (hx : x0.size = N) (hr : t.ref.size = N) (hH : t.hessian = ⟨N, N, gram N U⟩)
    (hS : dyn.S = ⟨N, 3, Sm⟩) (hUT : dyn.UT = (Mat.mk N N U).transpose) :
    t.getGradient m dyn x0 = .ok ⟨N, fun i => ∑ j ∈ range N, gram N U i j * x0.get j
      + ∑ k ∈ range N, U k i * (∑ l ∈ range 3, Sm k l * m.state.toVec.get l - t.ref.get k)⟩ := by
  unfold TrackingObjective.getGradient
  rw [require_pos (hr.trans hx.symm), require_pos (hr.trans hm.symm), hH, hS, hUT,
    Mat.mulVec?_ok (by simpa using hx.symm), Mat.mulVec?_ok (by simp [State3.toVec])]
  simp only [ok_bind]
  rw [Vec.sub?_ok (by simpa using hr.symm), ok_bind, Mat.mulVec?_ok (by simp [Mat.transpose]), ok_bind,
    Vec.add?_ok (by simp [Mat.transpose])]
  rfl

theorem motionFunction_ok {s : Spec.TrajSettings K} {w : TrajWalkgen K} (h : FuncInv s w)
    (lv la : K) :
    ∃ f, w.motion.computeFunction w.model w.X lv la = .ok f ∧ f.size = s.nbSamples * 2 ∧
      (∀ i < s.nbSamples, f.get i = lv - (∑ j ∈ range s.nbSamples,
          velU s.period s.period i j * w.X.get j
          + ∑ l ∈ range 3, velS s.period s.period i l * w.model.state.toVec.get l)) ∧
      (∀ i < s.nbSamples, f.get (s.nbSamples + i) = la - (∑ j ∈ range s.nbSamples,
          accU s.period s.period i j * w.X.get j
          + ∑ l ∈ range 3, (accS i l : K) * w.model.state.toVec.get l)) := by
  unfold MotionConstraint.computeFunction
  have hv : w.model.vel.S = ⟨s.nbSamples, 3, velS s.period s.period⟩ := by rw [h.vel]; rfl
  have ha : w.model.acc.S = ⟨s.nbSamples, 3, accS⟩ := by rw [h.acc]; rfl
  simp only [h.N_eq, hv, ha, h.tmp]
  rw [Mat.mulVec?_ok (by simpa [Mat.neg, h.gCols] using h.X_size.symm)]
  simp only [ok_bind]
  rw [Vec.segment?_ok (by simp [Mat.neg, h.gRows]; omega), ok_bind,
    Vec.add?_ok (by rfl), ok_bind,
    Vec.setSegment?_ok (by simp [Mat.neg, h.gRows]; omega) (by rfl), ok_bind,
    Vec.segment?_ok (by simp [Mat.neg, h.gRows]; omega), ok_bind,
    Mat.mulVec?_ok (by rfl), ok_bind,
    Vec.sub?_ok (by rfl), ok_bind,
    Vec.setSegment?_ok (by simp [Mat.neg, h.gRows]; omega) (by rfl), ok_bind,
    Vec.segment?_ok (by simp [Mat.neg, h.gRows]; omega), ok_bind,
    Vec.add?_ok (by rfl), ok_bind,
    Vec.setSegment?_ok (by simp [Mat.neg, h.gRows]; omega) (by rfl), ok_bind,
    Vec.segment?_ok (by simp [Mat.neg, h.gRows]; omega), ok_bind,
    Mat.mulVec?_ok (by rfl), ok_bind,
    Vec.sub?_ok (by rfl), ok_bind,
    Vec.setSegment?_ok (by simp [Mat.neg, h.gRows]; omega) (by rfl)]
  refine ⟨_, rfl, by simp [Mat.neg, h.gRows], ?_, ?_⟩
  · intro i hi
    have h1 : ¬ (s.nbSamples ≤ i ∧ i < s.nbSamples + s.nbSamples) := by omega
    have h2 : 0 ≤ i ∧ i < 0 + s.nbSamples := by omega
    have e : ∑ k ∈ range s.nbSamples, -w.motion.gradient.get i k * w.X.get k
        = - ∑ j ∈ range s.nbSamples, velU s.period s.period i j * w.X.get j := by
      rw [← sum_neg_distrib]
      refine sum_congr rfl fun j hj => ?_
      rw [h.gVel i hi j (mem_range.1 hj)]; ring
    simp only [h1, h2, if_true, if_false, Mat.neg, Vec.const, h.gCols, Nat.zero_add, Nat.sub_zero, e,
      and_self, hi]
    ring
  · intro i hi
    have h1 : (s.nbSamples ≤ s.nbSamples + i ∧ s.nbSamples + i < s.nbSamples + s.nbSamples) := by
      omega
    have h2 : ¬ (0 ≤ s.nbSamples + i ∧ s.nbSamples + i < 0 + s.nbSamples) := by omega
    have e : ∑ k ∈ range s.nbSamples, -w.motion.gradient.get (s.nbSamples + i) k * w.X.get k
        = - ∑ j ∈ range s.nbSamples, accU s.period s.period i j * w.X.get j := by
      rw [← sum_neg_distrib]
      refine sum_congr rfl fun j hj => ?_
      rw [h.gAcc i hi j (mem_range.1 hj)]; ring
    have h3 : s.nbSamples + i - s.nbSamples = i := by omega
    simp only [h1, h2, h3, if_true, if_false, Mat.neg, Vec.const, h.gCols, e, and_self]
    ring

/-- Linear part of the cost at `x0 = w.X`. -/
def trajP (s : Spec.TrajSettings K) (w : TrajWalkgen K) (i : ℕ) : K :=
  max s.weighting.velocityTracking 0 *
      (∑ j ∈ range s.nbSamples, gram s.nbSamples (velU s.period s.period) i j * w.X.get j
        + ∑ k ∈ range s.nbSamples, velU s.period s.period k i *
          (∑ l ∈ range 3, velS s.period s.period k l * w.model.state.toVec.get l - s.velRef.get k))
    + max s.weighting.positionTracking 0 *
      (∑ j ∈ range s.nbSamples, gram s.nbSamples (posU s.period s.period) i j * w.X.get j
        + ∑ k ∈ range s.nbSamples, posU s.period s.period k i *
          (∑ l ∈ range 3, posS s.period s.period k l * w.model.state.toVec.get l - s.posRef.get k))
    + max s.weighting.jerkMinimization 0 * w.X.get i

/-- What `prepare` writes. -/
structure Prepared (s : Spec.TrajSettings K) (w : TrajWalkgen K) (qp : QPMatrices K) : Prop where
  Q : qp.Q = w.qp.Q
  A : qp.A = w.qp.A
  p_size : qp.p.size = s.nbSamples
  p_get : ∀ i, qp.p.get i = trajP s w i
  xl_size : qp.xl.size = s.nbSamples
  xu_size : qp.xu.size = s.nbSamples
  bl_size : qp.bl.size = trajM s
  bu_size : qp.bu.size = trajM s
  free : s.constrained = false → ∀ i, qp.xl.get i = -MAXBOUND ∧ qp.xu.get i = MAXBOUND
  xl_get : s.constrained = true → ∀ i, qp.xl.get i = -s.jerkLimit - w.X.get i
  xu_get : s.constrained = true → ∀ i, qp.xu.get i = s.jerkLimit - w.X.get i
  bl_vel : s.constrained = true → ∀ i < s.nbSamples, qp.bl.get i
    = -s.velLimit - (∑ j ∈ range s.nbSamples, velU s.period s.period i j * w.X.get j
        + ∑ l ∈ range 3, velS s.period s.period i l * w.model.state.toVec.get l)
  bu_vel : s.constrained = true → ∀ i < s.nbSamples, qp.bu.get i
    = s.velLimit - (∑ j ∈ range s.nbSamples, velU s.period s.period i j * w.X.get j
        + ∑ l ∈ range 3, velS s.period s.period i l * w.model.state.toVec.get l)
  bl_acc : s.constrained = true → ∀ i < s.nbSamples, qp.bl.get (s.nbSamples + i)
    = -s.accLimit - (∑ j ∈ range s.nbSamples, accU s.period s.period i j * w.X.get j
        + ∑ l ∈ range 3, (accS i l : K) * w.model.state.toVec.get l)
  bu_acc : s.constrained = true → ∀ i < s.nbSamples, qp.bu.get (s.nbSamples + i)
    = s.accLimit - (∑ j ∈ range s.nbSamples, accU s.period s.period i j * w.X.get j
        + ∑ l ∈ range 3, (accS i l : K) * w.model.state.toVec.get l)

theorem prepare_ok {s : Spec.TrajSettings K} {w : TrajWalkgen K} (h : TrajInv s w)
    (hr : s.RefsCurrent) {fb : K} (hfb : 0 < fb) :
    ∃ qp, w.prepare fb = .ok qp ∧ Prepared s w qp := by
  have gv := gradient_ok (N := s.nbSamples) w.velObj w.model w.model.vel w.X
    (velU s.period s.period) (velS s.period s.period) h.N_eq h.X_size
    (by rw [h.velRef]; exact hr.1) h.velH (by rw [h.vel]; rfl) (by rw [h.vel]; rfl)
  have gp := gradient_ok (N := s.nbSamples) w.posObj w.model w.model.pos w.X
    (posU s.period s.period) (posS s.period s.period) h.N_eq h.X_size
    (by rw [h.posRef]; exact hr.2) h.posH (by rw [h.pos]; rfl) (by rw [h.pos]; rfl)
  have gj : jerkGetGradient w.model w.X = .ok w.X := by
    unfold jerkGetGradient; rw [require_pos (h.N_eq.trans h.X_size.symm)]; rfl
  obtain ⟨fi, ei, si, vi, ai⟩ := motionFunction_ok h.toFuncInv (-s.velLimit) (-s.accLimit)
  obtain ⟨fs, es, ss, vs, as⟩ := motionFunction_ok h.toFuncInv s.velLimit s.accLimit
  have ei' : w.motion.getFunctionInf w.model w.X = .ok fi := by
    unfold MotionConstraint.getFunctionInf
    rw [require_pos (h.N_eq.trans h.X_size.symm), h.velLimit, h.accLimit]; exact ei
  have es' : w.motion.getFunctionSup w.model w.X = .ok fs := by
    unfold MotionConstraint.getFunctionSup
    rw [require_pos (h.N_eq.trans h.X_size.symm), h.velLimit, h.accLimit]; exact es
  unfold TrajWalkgen.prepare
  have hb : w.withMotionConstraints = s.constrained := h.constrained
  rw [gv, gp, gj]
  simp only [ok_bind]
  rw [require_pos h.N_eq.symm, require_pos (h.X_size.trans h.N_eq.symm)]
  rw [accumVec_ok _ _ _ (by exact h.p_size)]
  simp only [ok_bind]
  rw [accumVec_ok _ _ _ (by exact h.p_size)]
  simp only [ok_bind]
  rw [accumVec_ok _ _ _ (by exact h.p_size.trans h.X_size.symm)]
  simp only [ok_bind]
  have hp : ∀ i, (((w.qp.p.fill 0).get i
      + max w.weighting.velocityTracking 0 *
        (∑ j ∈ range s.nbSamples, gram s.nbSamples (velU s.period s.period) i j * w.X.get j
          + ∑ k ∈ range s.nbSamples, velU s.period s.period k i *
            (∑ l ∈ range 3, velS s.period s.period k l * w.model.state.toVec.get l
              - w.velObj.ref.get k)))
      + max w.weighting.positionTracking 0 *
        (∑ j ∈ range s.nbSamples, gram s.nbSamples (posU s.period s.period) i j * w.X.get j
          + ∑ k ∈ range s.nbSamples, posU s.period s.period k i *
            (∑ l ∈ range 3, posS s.period s.period k l * w.model.state.toVec.get l
              - w.posObj.ref.get k)))
      + max w.weighting.jerkMinimization 0 * w.X.get i = trajP s w i := by
    intro i
    unfold trajP
    rw [h.weighting, h.velRef, h.posRef]
    simp [Vec.fill]
  cases hc : s.constrained
  · have hM : trajM s = 0 := by simp [trajM, hc]
    simp only [hb, hc, Bool.false_eq_true, if_false, res_pure]
    rw [require_pos hfb]
    simp only [ok_bind]
    refine ⟨_, rfl, ?_⟩
    refine ⟨rfl, rfl, h.p_size, hp, h.xl_size, h.xu_size, h.bl_size, h.bu_size,
      fun _ i => ⟨rfl, rfl⟩, ?_, ?_, ?_, ?_, ?_, ?_⟩ <;> (intro h'; simp [hc] at h')
  · have hM : trajM s = s.nbSamples * 2 := by simp [trajM, hc]
    have hbl := h.bl_size
    have hbu := h.bu_size
    rw [hM] at hbl hbu
    simp only [hb, hc, if_true, ei', es', ok_bind, MotionConstraint.nb, h.N_eq]
    rw [require_pos si, require_pos ss, require_pos hfb]
    simp only [ok_bind]
    rw [Vec.setSegment?_ok (by simpa [Vec.fill] using hbl.ge) si, ok_bind,
      Vec.setSegment?_ok (by simpa [Vec.fill] using hbu.ge) ss, ok_bind,
      Vec.sub?_ok (by exact h.xu_size.trans h.X_size.symm), ok_bind,
      Vec.sub?_ok (by exact h.xl_size.trans h.X_size.symm), ok_bind]
    refine ⟨_, rfl, ?_⟩
    refine ⟨rfl, rfl, h.p_size, hp, h.xl_size, h.xu_size, h.bl_size, h.bu_size, ?_, ?_, ?_, ?_, ?_,
      ?_, ?_⟩
    · intro h'; simp [hc] at h'
    · intro _ i; simp [Vec.fill, h.jerkLimit]
    · intro _ i; simp [Vec.fill, h.jerkLimit]
    · intro _ i hi
      show (if _ then _ else _) = _
      rw [if_pos ⟨by omega, by omega⟩]; exact vi i hi
    · intro _ i hi
      show (if _ then _ else _) = _
      rw [if_pos ⟨by omega, by omega⟩]; exact vs i hi
    · intro _ i hi
      show (if _ then _ else _) = _
      rw [if_pos ⟨by omega, by omega⟩]; exact ai i hi
    · intro _ i hi
      show (if _ then _ else _) = _
      rw [if_pos ⟨by omega, by omega⟩]; exact as i hi

theorem Prepared.consistent {s : Spec.TrajSettings K} {w : TrajWalkgen K} {qp : QPMatrices K}
    (h : TrajInv s w) (hq : Prepared s w qp) :
    qp.DimensionsAreConsistent w.solver.nbVar w.solver.nbCtr := by
  unfold QPMatrices.DimensionsAreConsistent
  rw [h.nbVar, h.nbCtr, hq.Q, hq.A]
  exact ⟨h.Q_rows, h.Q_cols, hq.p_size, hq.xl_size, hq.xu_size, h.A_cols, h.A_rows, hq.bl_size,
    hq.bu_size⟩

/-- The warm started solver works on the QP that was filled. -/
theorem Prepared.used {s : Spec.TrajSettings K} {w : TrajWalkgen K} {qp : QPMatrices K}
    (h : TrajInv s w) (hq : Prepared s w qp) (warm : Bool) : usedQP w.solver qp warm = qp := by
  unfold usedQP
  split_ifs with hc
  · obtain ⟨h1, h2⟩ := h.warm (Bool.and_eq_true_iff.1 hc).1
    rw [h1, h2, ← hq.Q, ← hq.A]
  · rfl

/-- Result of `solve`. -/
def solveResult (o : Oracle K) (w : TrajWalkgen K) (qp : QPMatrices K) (fb : K) : TrajWalkgen K :=
  let d := (o w.solver.calls qp 10000).2
  let dX : Vec K := ⟨w.dX.size, fun i => if i < w.solver.nbVar then d i else w.dX.get i⟩
  let X : Vec K := ⟨w.X.size, fun i => w.X.get i + dX.get i⟩
  { w with
    qp := qp
    solver := { w.solver with initialized := true, Q := qp.Q, A := qp.A, calls := w.solver.calls + 1 }
    dX := dX
    X := X
    model := { w.model with state := stateStep (X.get 0) fb w.model.state } }

theorem solve_ok (o : Oracle K) {s : Spec.TrajSettings K} {w : TrajWalkgen K} (h : TrajInv s w)
    (hr : s.RefsCurrent) {fb : K} (hfb : 0 < fb) :
    ∃ qp, Prepared s w qp ∧ w.solve o fb = .ok (true, solveResult o w qp fb) := by
  obtain ⟨qp, e, hq⟩ := prepare_ok h hr hfb
  refine ⟨qp, hq, ?_⟩
  unfold TrajWalkgen.solve
  rw [e, ok_bind, solverSolve_ok _ _ _ _ _ _ _ (hq.consistent h)
    (by rw [h.nbVar, h.dX_size]), hq.used h]
  simp only [ok_bind]
  rw [Vec.add?_ok (by exact h.X_size.trans h.dX_size.symm), ok_bind,
    Vec.at?_ok (by simpa [h.X_size] using h.N_pos), ok_bind]
  unfold updateState
  rw [require_pos hfb]
  simp [solveResult]

theorem solveResult_inv (o : Oracle K) {s : Spec.TrajSettings K} {w : TrajWalkgen K}
    (h : TrajInv s w) {qp : QPMatrices K} (hq : Prepared s w qp) (fb : K) :
    TrajInv s (solveResult o w qp fb) :=
  { h with
    X_size := h.X_size, dX_size := h.dX_size
    N_eq := h.N_eq, T_eq := h.T_eq, velLimit := h.velLimit, accLimit := h.accLimit
    jerkLimit := h.jerkLimit, pos := h.pos, vel := h.vel, acc := h.acc
    Q_rows := by rw [← h.Q_rows]; exact congrArg Mat.rows hq.Q
    Q_cols := by rw [← h.Q_cols]; exact congrArg Mat.cols hq.Q
    Q_get := fun i j => by rw [← h.Q_get]; exact congrFun (congrFun (congrArg Mat.get hq.Q) i) j
    A_rows := by rw [← h.A_rows]; exact congrArg Mat.rows hq.A
    A_cols := by rw [← h.A_cols]; exact congrArg Mat.cols hq.A
    A_vel := fun hc i hi j hj => by
      rw [← h.A_vel hc i hi j hj]; exact congrFun (congrFun (congrArg Mat.get hq.A) _) j
    A_acc := fun hc i hi j hj => by
      rw [← h.A_acc hc i hi j hj]; exact congrFun (congrFun (congrArg Mat.get hq.A) _) j
    p_size := hq.p_size, xl_size := hq.xl_size, xu_size := hq.xu_size, bl_size := hq.bl_size
    bu_size := hq.bu_size, nbVar := h.nbVar, nbCtr := h.nbCtr
    warm := fun _ => ⟨rfl, rfl⟩ }

/-- A `solve` that succeeds had current references and a positive period. -/
theorem refs_of_solve (o : Oracle K) {s : Spec.TrajSettings K} {w : TrajWalkgen K} (h : TrajInv s w)
    {fb : K} {r : Bool × TrajWalkgen K} (e : w.solve o fb = .ok r) : s.RefsCurrent ∧ 0 < fb := by
  simp only [TrajWalkgen.solve, bind_eq_ok] at e
  obtain ⟨qp, e, -⟩ := e
  simp only [TrajWalkgen.prepare, bind_eq_ok, require_eq_ok] at e
  obtain ⟨g1, e1, _, _, g2, e2, _, _, _, _, _, _, e⟩ := e
  simp only [TrackingObjective.getGradient, bind_eq_ok, require_eq_ok] at e1 e2
  obtain ⟨_, _, _, h1, _⟩ := e1
  obtain ⟨_, _, _, h2, _⟩ := e2
  rw [h.velRef, h.N_eq] at h1
  rw [h.posRef, h.N_eq] at h2
  refine ⟨⟨h1, h2⟩, ?_⟩
  cases hc : w.withMotionConstraints <;>
    simp only [hc, Bool.false_eq_true, if_false, if_true, bind_eq_ok, require_eq_ok] at e
  · obtain ⟨_, h0, _⟩ := e; exact h0
  · obtain ⟨_, _, _, _, _, _, _, _, _, h0, _⟩ := e; exact h0

theorem computeDynamics_ok (m : NoDynamicModel K) (hN : 0 < m.nbSamples) (hT : 0 < m.samplingPeriod) :
    m.computeDynamics = .ok { m with
      pos := posDyn m.samplingPeriod m.samplingPeriod m.nbSamples
      vel := velDyn m.samplingPeriod m.samplingPeriod m.nbSamples
      acc := accDyn m.samplingPeriod m.samplingPeriod m.nbSamples
      jerk := computeJerkDynamic m.nbSamples } := by
  unfold NoDynamicModel.computeDynamics
  rw [computePosDynamic_ok hT hT hN, ok_bind, computeVelDynamic_ok hT hT hN, ok_bind,
    computeAccDynamic_ok hT.ne' hT hN, ok_bind]
  rfl

theorem make_inv : ∃ w : TrajWalkgen K, TrajWalkgen.make = .ok w ∧
    TrajInv Spec.TrajSettings.init w := by
  unfold TrajWalkgen.make NoDynamicModel.make
  rw [computeDynamics_ok _ (by exact Nat.one_pos) (by exact one_pos)]
  simp only [ok_bind]
  obtain ⟨w1, e1, h1, -, -⟩ := refreshFunctions_inv (s := Spec.TrajSettings.init (K := K))
    (w :=
      { solver := SolverState.make 1 1
        model :=
          { nbSamples := 1, samplingPeriod := 1, state := ⟨0, 0, 0⟩, velocityLimit := 1
            accelerationLimit := 1, jerkLimit := 1, pos := posDyn 1 1 1, vel := velDyn 1 1 1
            acc := accDyn 1 1 1, jerk := computeJerkDynamic 1 }
        jerkHessian := Mat.zero 1 1
        velObj := ⟨Vec.const 1 0, Mat.zero 1 1⟩
        posObj := ⟨Vec.const 1 0, Mat.zero 1 1⟩
        motion := ⟨Mat.zero 1 1, 1⟩
        weighting := ⟨0, 0, 0⟩
        withMotionConstraints := false
        dX := Vec.const 1 0
        X := Vec.const 1 0
        qp := ⟨Mat.zero 0 0, Vec.const 0 0, Vec.const 0 0, Vec.const 0 0, Mat.zero 0 0,
          Vec.const 0 0, Vec.const 0 0⟩ })
    ⟨Nat.one_pos, one_pos, rfl, rfl, rfl, rfl, rfl, rfl, rfl, rfl, rfl, rfl, rfl, rfl, rfl, rfl⟩
  rw [e1, ok_bind]
  obtain ⟨w2, e2, h2, -, -⟩ := computeConstantPart_inv h1
  exact ⟨w2, e2, h2⟩

theorem setNbSamples_inv {s : Spec.TrajSettings K} {w : TrajWalkgen K} (h : TrajInv s w) {n : ℕ}
    (hn : 0 < n) (o : Oracle K) :
    ∃ w', w.step o (.setNbSamples n) = .ok (true, w') ∧ TrajInv (s.apply (.setNbSamples n)) w' ∧
      w'.model.state = w.model.state ∧ w'.X = Vec.const n 0 := by
  have hT : 0 < w.model.samplingPeriod := by rw [h.T_eq]; exact h.T_pos
  simp only [TrajWalkgen.step, NoDynamicModel.setNbSamples]
  rw [require_pos hn]
  simp only [ok_bind]
  rw [computeDynamics_ok { w.model with nbSamples := n } hn hT]
  simp only [ok_bind]
  obtain ⟨w1, e1, h1, m1, x1⟩ := refreshFunctions_inv (s := s.apply (.setNbSamples n))
    (w := { w with
      model := { w.model with
        nbSamples := n
        pos := posDyn w.model.samplingPeriod w.model.samplingPeriod n
        vel := velDyn w.model.samplingPeriod w.model.samplingPeriod n
        acc := accDyn w.model.samplingPeriod w.model.samplingPeriod n
        jerk := computeJerkDynamic n }
      dX := Vec.const n 0, X := Vec.const n 0 })
    { N_pos := hn, T_pos := h.T_pos, N_eq := rfl, T_eq := h.T_eq, velRef := h.velRef
      posRef := h.posRef, velLimit := h.velLimit, accLimit := h.accLimit, jerkLimit := h.jerkLimit
      weighting := h.weighting, constrained := h.constrained, pos := by rw [h.T_eq]; rfl
      vel := by rw [h.T_eq]; rfl, acc := by rw [h.T_eq]; rfl, X_size := rfl, dX_size := rfl }
  obtain ⟨w2, e2, h2, m2, x2⟩ := computeConstantPart_inv h1
  rw [e1, ok_bind, e2]
  exact ⟨w2, rfl, h2, by rw [m2, m1], by rw [x2, x1]⟩

theorem setSamplingPeriod_inv {s : Spec.TrajSettings K} {w : TrajWalkgen K} (h : TrajInv s w) {T : K}
    (hT : 0 < T) (o : Oracle K) :
    ∃ w', w.step o (.setSamplingPeriod T) = .ok (true, w') ∧
      TrajInv (s.apply (.setSamplingPeriod T)) w' ∧
      w'.model.state = w.model.state ∧ w'.X = w.X := by
  have hN : 0 < w.model.nbSamples := by rw [h.N_eq]; exact h.N_pos
  simp only [TrajWalkgen.step, NoDynamicModel.setSamplingPeriod]
  rw [require_pos hT]
  simp only [ok_bind]
  rw [computeDynamics_ok { w.model with samplingPeriod := T } hN hT]
  simp only [ok_bind]
  obtain ⟨w1, e1, h1, m1, x1⟩ := refreshFunctions_inv (s := s.apply (.setSamplingPeriod T))
    (w := { w with
      model := { w.model with
        samplingPeriod := T
        pos := posDyn T T w.model.nbSamples
        vel := velDyn T T w.model.nbSamples
        acc := accDyn T T w.model.nbSamples
        jerk := computeJerkDynamic w.model.nbSamples } })
    { N_pos := h.N_pos, T_pos := hT, N_eq := h.N_eq, T_eq := rfl, velRef := h.velRef
      posRef := h.posRef, velLimit := h.velLimit, accLimit := h.accLimit, jerkLimit := h.jerkLimit
      weighting := h.weighting, constrained := h.constrained, pos := by rw [h.N_eq]; rfl
      vel := by rw [h.N_eq]; rfl, acc := by rw [h.N_eq]; rfl, X_size := h.X_size
      dX_size := h.dX_size }
  obtain ⟨w2, e2, h2, m2, x2⟩ := computeConstantPart_inv h1
  rw [e1, ok_bind, e2]
  exact ⟨w2, rfl, h2, by rw [m2, m1], by rw [x2, x1]⟩

/-- The asserts of the code for each call (weaker than `Spec.TrajSettings.Pre` for the weights). -/
def CodePre (s : Spec.TrajSettings K) : TrajCall K → Prop
  | .setWeightings w => 0 ≤ w.velocityTracking ∧ 0 ≤ w.jerkMinimization
  | .solve fb => 0 < fb ∧ s.RefsCurrent
  | c => s.Pre c

/-- A call succeeds exactly when the asserts of the code hold, and keeps the invariant. -/
theorem step_ok {s : Spec.TrajSettings K} {w : TrajWalkgen K} (h : TrajInv s w) (o : Oracle K)
    (c : TrajCall K) (hc : CodePre s c) :
    ∃ b w', w.step o c = .ok (b, w') ∧ TrajInv (s.apply c) w' := by
  cases c with
  | setNbSamples n => obtain ⟨w', e, h', -⟩ := setNbSamples_inv h hc o; exact ⟨_, _, e, h'⟩
  | setSamplingPeriod T => obtain ⟨w', e, h', -⟩ := setSamplingPeriod_inv h hc o; exact ⟨_, _, e, h'⟩
  | setVelRef v =>
    simp only [TrajWalkgen.step]
    rw [require_pos (h.N_eq ▸ hc)]
    exact ⟨_, _, rfl, { h with velRef := rfl }⟩
  | setPosRef v =>
    simp only [TrajWalkgen.step]
    rw [require_pos (h.N_eq ▸ hc)]
    exact ⟨_, _, rfl, { h with posRef := rfl }⟩
  | setVelLimit l =>
    simp only [TrajWalkgen.step]
    rw [require_pos (show 0 ≤ l from hc)]
    exact ⟨_, _, rfl, { h with velLimit := rfl, N_eq := h.N_eq, T_eq := h.T_eq, accLimit := h.accLimit, jerkLimit := h.jerkLimit, pos := h.pos, vel := h.vel, acc := h.acc }⟩
  | setAccLimit l =>
    simp only [TrajWalkgen.step]
    rw [require_pos (show 0 ≤ l from hc)]
    exact ⟨_, _, rfl, { h with accLimit := rfl, N_eq := h.N_eq, T_eq := h.T_eq, velLimit := h.velLimit, jerkLimit := h.jerkLimit, pos := h.pos, vel := h.vel, acc := h.acc }⟩
  | setJerkLimit l =>
    simp only [TrajWalkgen.step]
    rw [require_pos (show 0 ≤ l from hc)]
    exact ⟨_, _, rfl, { h with jerkLimit := rfl, N_eq := h.N_eq, T_eq := h.T_eq, accLimit := h.accLimit, velLimit := h.velLimit, pos := h.pos, vel := h.vel, acc := h.acc }⟩
  | setState v =>
    simp only [TrajWalkgen.step]
    rw [require_pos (show v.size = 3 from hc)]
    exact ⟨_, _, rfl, { h with N_eq := h.N_eq, T_eq := h.T_eq, accLimit := h.accLimit, velLimit := h.velLimit, jerkLimit := h.jerkLimit, pos := h.pos, vel := h.vel, acc := h.acc }⟩
  | setWeightings wt =>
    simp only [TrajWalkgen.step]
    rw [require_pos hc.1, require_pos hc.2]
    simp only [ok_bind]
    obtain ⟨w', e, h', -⟩ := computeConstantPart_inv (s := s.apply (.setWeightings wt))
      (w := { w with weighting := wt }) { h.toFuncInv with weighting := rfl }
    rw [e]; exact ⟨_, _, rfl, h'⟩
  | setConfig b =>
    simp only [TrajWalkgen.step]
    obtain ⟨w', e, h', -⟩ := computeConstantPart_inv (s := s.apply (.setConfig b))
      (w := { w with withMotionConstraints := b }) { h.toFuncInv with constrained := rfl }
    rw [e]; exact ⟨_, _, rfl, h'⟩
  | solve fb =>
    obtain ⟨qp, hq, e⟩ := solve_ok o h hc.2 hc.1
    exact ⟨_, _, e, solveResult_inv o h hq fb⟩

theorem codePre_of_ok {s : Spec.TrajSettings K} {w : TrajWalkgen K} (h : TrajInv s w) (o : Oracle K)
    (c : TrajCall K) {r : Bool × TrajWalkgen K} (e : w.step o c = .ok r) : CodePre s c := by
  cases c with
  | solve fb => exact (refs_of_solve o h e).symm
  | setConfig b => trivial
  | setWeightings wt =>
    simp only [TrajWalkgen.step, bind_eq_ok, require_eq_ok] at e
    obtain ⟨_, h1, _, _, _, h2, _⟩ := e
    exact ⟨h1, h2⟩
  | _ =>
    simp only [TrajWalkgen.step, bind_eq_ok, require_eq_ok, h.N_eq] at e
    obtain ⟨_, h1, _⟩ := e
    exact h1

theorem step_inv {s : Spec.TrajSettings K} {w w' : TrajWalkgen K} (h : TrajInv s w) (o : Oracle K)
    (c : TrajCall K) {b : Bool} (e : w.step o c = .ok (b, w')) : TrajInv (s.apply c) w' := by
  obtain ⟨b', w'', e', h'⟩ := step_ok h o c (codePre_of_ok h o c e)
  rw [e] at e'
  cases e'
  exact h'

theorem run_inv {s : Spec.TrajSettings K} {w w' : TrajWalkgen K} (h : TrajInv s w) (o : Oracle K)
    (cs : List (TrajCall K)) (e : w.run o cs = .ok w') : TrajInv (s.after cs) w' := by
  induction cs generalizing s w with
  | nil => cases e; exact h
  | cons c cs ih =>
    simp only [TrajWalkgen.run, bind_eq_ok] at e
    obtain ⟨⟨b, w1⟩, e1, e2⟩ := e
    exact ih (step_inv h o c e1) e2

/-- Every reachable state satisfies the invariant for the settings of its history. -/
theorem reachable_inv {o : Oracle K} {cs : List (TrajCall K)} {w : TrajWalkgen K}
    (e : (do TrajWalkgen.run o (← TrajWalkgen.make) cs) = .ok w) :
    TrajInv (Spec.TrajSettings.init.after cs) w := by
  obtain ⟨w0, e0, h0⟩ := make_inv (K := K)
  rw [e0, ok_bind] at e
  exact run_inv h0 o cs e

/-! ### Meaning of the QP -/

theorem prepared_cost {s : Spec.TrajSettings K} {w : TrajWalkgen K} {qp : QPMatrices K}
    (h : TrajInv s w) (hq : Prepared s w qp) (d : ℕ → K) :
    Spec.cost qp d = Spec.trajCost s w.model.state (fun i => w.X.get i + d i)
      - Spec.trajCost s w.model.state w.X.get := by
  have hv : ∀ X : ℕ → K, ∑ i ∈ range s.nbSamples,
      ((Spec.jerkTrajectory s.period s.period w.model.state X i).v - s.velRef.get i) ^ 2
      = ∑ k ∈ range s.nbSamples, (∑ j ∈ range s.nbSamples, velU s.period s.period k j * X j
        + (∑ l ∈ range 3, velS s.period s.period k l * w.model.state.toVec.get l
          - s.velRef.get k)) ^ 2 := by
    intro X
    refine sum_congr rfl fun i hi => ?_
    rw [← row_vel s.period s.period s.nbSamples _ _ (mem_range.1 hi)]; ring
  have hp : ∀ X : ℕ → K, ∑ i ∈ range s.nbSamples,
      ((Spec.jerkTrajectory s.period s.period w.model.state X i).p - s.posRef.get i) ^ 2
      = ∑ k ∈ range s.nbSamples, (∑ j ∈ range s.nbSamples, posU s.period s.period k j * X j
        + (∑ l ∈ range 3, posS s.period s.period k l * w.model.state.toVec.get l
          - s.posRef.get k)) ^ 2 := by
    intro X
    refine sum_congr rfl fun i hi => ?_
    rw [← row_pos s.period s.period s.nbSamples _ _ (mem_range.1 hi)]; ring
  unfold Spec.trajCost
  simp only [hv, hp]
  have e1 := lsq_expand s.nbSamples s.nbSamples (velU s.period s.period)
    (fun k => ∑ l ∈ range 3, velS s.period s.period k l * w.model.state.toVec.get l
          - s.velRef.get k) w.X.get d
  have e2 := lsq_expand s.nbSamples s.nbSamples (posU s.period s.period)
    (fun k => ∑ l ∈ range 3, posS s.period s.period k l * w.model.state.toVec.get l
          - s.posRef.get k) w.X.get d
  have e3 : ∑ i ∈ range s.nbSamples, (w.X.get i + d i) ^ 2
      = ∑ i ∈ range s.nbSamples, w.X.get i ^ 2 + 2 * ∑ i ∈ range s.nbSamples, w.X.get i * d i
        + ∑ i ∈ range s.nbSamples, d i ^ 2 := by
    rw [mul_sum, ← sum_add_distrib, ← sum_add_distrib]
    exact sum_congr rfl fun i _ => by ring
  have e4 : ∑ i ∈ range s.nbSamples, ∑ j ∈ range s.nbSamples,
      d i * (if i = j then (1 : K) else 0) * d j = ∑ i ∈ range s.nbSamples, d i ^ 2 := by
    refine sum_congr rfl fun i hi => ?_
    rw [sum_eq_single i]
    · simp; ring
    · intro j _ hj; simp [Ne.symm hj]
    · intro hh; exact absurd hi hh
  have eQ : ∑ i ∈ range s.nbSamples, ∑ j ∈ range s.nbSamples, d i * trajQ s i j * d j
      = max s.weighting.velocityTracking 0 * ∑ i ∈ range s.nbSamples, ∑ j ∈ range s.nbSamples,
          d i * gram s.nbSamples (velU s.period s.period) i j * d j
      + max s.weighting.positionTracking 0 * ∑ i ∈ range s.nbSamples, ∑ j ∈ range s.nbSamples,
          d i * gram s.nbSamples (posU s.period s.period) i j * d j
      + max s.weighting.jerkMinimization 0 * ∑ i ∈ range s.nbSamples, d i ^ 2 := by
    rw [← e4]
    simp only [mul_sum, ← sum_add_distrib]
    refine sum_congr rfl fun i _ => sum_congr rfl fun j _ => ?_
    unfold trajQ; ring
  have eP : ∑ i ∈ range s.nbSamples, trajP s w i * d i
      = max s.weighting.velocityTracking 0 * ∑ i ∈ range s.nbSamples,
          (∑ j ∈ range s.nbSamples, gram s.nbSamples (velU s.period s.period) i j * w.X.get j
        + ∑ k ∈ range s.nbSamples, velU s.period s.period k i *
          (∑ l ∈ range 3, velS s.period s.period k l * w.model.state.toVec.get l
            - s.velRef.get k)) * d i
      + max s.weighting.positionTracking 0 * ∑ i ∈ range s.nbSamples,
          (∑ j ∈ range s.nbSamples, gram s.nbSamples (posU s.period s.period) i j * w.X.get j
        + ∑ k ∈ range s.nbSamples, posU s.period s.period k i *
          (∑ l ∈ range 3, posS s.period s.period k l * w.model.state.toVec.get l
            - s.posRef.get k)) * d i
      + max s.weighting.jerkMinimization 0 * ∑ i ∈ range s.nbSamples, w.X.get i * d i := by
    rw [mul_sum, mul_sum, mul_sum, ← sum_add_distrib, ← sum_add_distrib]
    refine sum_congr rfl fun i _ => ?_
    unfold trajP; ring
  unfold Spec.cost
  simp only [hq.Q, h.Q_rows, h.Q_cols, h.Q_get, hq.p_size, hq.p_get]
  rw [eQ, eP, e3]
  linear_combination (- max s.weighting.velocityTracking 0) * e1
    - max s.weighting.positionTracking 0 * e2

theorem abs_shift {a b l : K} : (-l - a ≤ b ∧ b ≤ l - a) ↔ |a + b| ≤ l := by
  rw [abs_le]
  constructor
  · rintro ⟨h1, h2⟩; constructor <;> linarith
  · rintro ⟨h1, h2⟩; constructor <;> linarith

theorem prepared_feasible {s : Spec.TrajSettings K} {w : TrajWalkgen K} {qp : QPMatrices K}
    (h : TrajInv s w) (hq : Prepared s w qp) (hc : s.constrained = true) (d : ℕ → K) :
    Spec.Feasible qp d ↔ Spec.WithinLimits s w.model.state (fun i => w.X.get i + d i) := by
  have hM : trajM s = s.nbSamples * 2 := by simp [trajM, hc]
  have hA1 : ∀ i < s.nbSamples, ∑ j ∈ range qp.A.cols, qp.A.get i j * d j
      = ∑ j ∈ range s.nbSamples, velU s.period s.period i j * d j := by
    intro i hi
    rw [hq.A, h.A_cols]
    exact sum_congr rfl fun j hj => by rw [h.A_vel hc i hi j (mem_range.1 hj)]
  have hA2 : ∀ i < s.nbSamples, ∑ j ∈ range qp.A.cols, qp.A.get (s.nbSamples + i) j * d j
      = ∑ j ∈ range s.nbSamples, accU s.period s.period i j * d j := by
    intro i hi
    rw [hq.A, h.A_cols]
    exact sum_congr rfl fun j hj => by rw [h.A_acc hc i hi j (mem_range.1 hj)]
  have hv : ∀ i < s.nbSamples,
      (Spec.jerkTrajectory s.period s.period w.model.state (fun i => w.X.get i + d i) i).v
      = (∑ j ∈ range s.nbSamples, velU s.period s.period i j * w.X.get j
        + ∑ l ∈ range 3, velS s.period s.period i l * w.model.state.toVec.get l)
        + ∑ j ∈ range s.nbSamples, velU s.period s.period i j * d j := by
    intro i hi
    rw [← row_vel s.period s.period s.nbSamples _ _ hi]
    simp only [mul_add, sum_add_distrib]; ring
  have ha : ∀ i < s.nbSamples,
      (Spec.jerkTrajectory s.period s.period w.model.state (fun i => w.X.get i + d i) i).a
      = (∑ j ∈ range s.nbSamples, accU s.period s.period i j * w.X.get j
        + ∑ l ∈ range 3, (accS i l : K) * w.model.state.toVec.get l)
        + ∑ j ∈ range s.nbSamples, accU s.period s.period i j * d j := by
    intro i hi
    rw [← row_acc s.period s.period s.nbSamples _ _ hi]
    simp only [mul_add, sum_add_distrib]; ring
  unfold Spec.Feasible Spec.WithinLimits
  simp only [hq.xl_size, hq.xu_size, hq.bl_size, hq.bu_size, hM, hq.xl_get hc, hq.xu_get hc]
  constructor
  · rintro ⟨f1, f2, f3, f4⟩ i hi
    refine ⟨?_, ?_, ?_⟩
    · rw [hv i hi, ← abs_shift, ← hA1 i hi, ← hq.bl_vel hc i hi, ← hq.bu_vel hc i hi]
      exact ⟨f3 i (by omega), f4 i (by omega)⟩
    · rw [ha i hi, ← abs_shift, ← hA2 i hi, ← hq.bl_acc hc i hi, ← hq.bu_acc hc i hi]
      exact ⟨f3 _ (by omega), f4 _ (by omega)⟩
    · exact abs_shift.1 ⟨f1 i hi, f2 i hi⟩
  · intro f
    have hb : ∀ i < s.nbSamples * 2, qp.bl.get i ≤ ∑ j ∈ range qp.A.cols, qp.A.get i j * d j ∧
        ∑ j ∈ range qp.A.cols, qp.A.get i j * d j ≤ qp.bu.get i := by
      intro i hi
      rcases lt_or_ge i s.nbSamples with h1 | h1
      · rw [hA1 i h1, hq.bl_vel hc i h1, hq.bu_vel hc i h1, abs_shift, ← hv i h1]
        exact (f i h1).1
      · obtain ⟨k, rfl⟩ := Nat.exists_eq_add_of_le h1
        have hk : k < s.nbSamples := by omega
        rw [hA2 k hk, hq.bl_acc hc k hk, hq.bu_acc hc k hk, abs_shift, ← ha k hk]
        exact (f k hk).2.1
    exact ⟨fun i hi => (abs_shift.2 (f i hi).2.2).1, fun i hi => (abs_shift.2 (f i hi).2.2).2,
      fun i hi => (hb i hi).1, fun i hi => (hb i hi).2⟩

theorem quadForm_prepared {s : Spec.TrajSettings K} {w : TrajWalkgen K} {qp : QPMatrices K}
    (h : TrajInv s w) (hq : Prepared s w qp) (d : ℕ → K) :
    quadForm qp.Q d =
      max s.weighting.velocityTracking 0 *
        ∑ k ∈ range s.nbSamples, (∑ j ∈ range s.nbSamples, velU s.period s.period k j * d j) ^ 2
      + max s.weighting.positionTracking 0 *
        ∑ k ∈ range s.nbSamples, (∑ j ∈ range s.nbSamples, posU s.period s.period k j * d j) ^ 2
      + max s.weighting.jerkMinimization 0 * ∑ i ∈ range s.nbSamples, d i ^ 2 := by
  have e4 : ∑ i ∈ range s.nbSamples, ∑ j ∈ range s.nbSamples,
      d i * (if i = j then (1 : K) else 0) * d j = ∑ i ∈ range s.nbSamples, d i ^ 2 := by
    refine sum_congr rfl fun i hi => ?_
    rw [sum_eq_single i]
    · simp; ring
    · intro j _ hj; simp [Ne.symm hj]
    · intro hh; exact absurd hi hh
  unfold quadForm
  simp only [hq.Q, h.Q_rows, h.Q_cols, h.Q_get]
  rw [← gram_quad, ← gram_quad, ← e4]
  simp only [mul_sum, ← sum_add_distrib]
  refine sum_congr rfl fun i _ => sum_congr rfl fun j _ => ?_
  unfold trajQ; ring

/-- The cached matrices only depend on the settings. -/
theorem inv_same {s s' : Spec.TrajSettings K} {w w' : TrajWalkgen K} (h : TrajInv s w)
    (h' : TrajInv s' w') (hN : s'.nbSamples = s.nbSamples) (hT : s'.period = s.period)
    (hW : s'.weighting = s.weighting) (hC : s'.constrained = s.constrained) :
    w.qp.Q.Same w'.qp.Q ∧ w.qp.A.Same w'.qp.A := by
  have hM : trajM s' = trajM s := by unfold trajM; rw [hN, hC]
  refine ⟨⟨?_, ?_, ?_⟩, ?_, ?_, ?_⟩
  · rw [h.Q_rows, h'.Q_rows, hN]
  · rw [h.Q_cols, h'.Q_cols, hN]
  · intro i _ j _
    rw [h.Q_get, h'.Q_get]; unfold trajQ; rw [hN, hT, hW]
  · rw [h.A_rows, h'.A_rows, hM]
  · rw [h.A_cols, h'.A_cols, hN]
  · intro i hi j hj
    rw [h.A_rows] at hi
    rw [h.A_cols] at hj
    cases hc : s.constrained
    · simp [trajM, hc] at hi
    · simp only [trajM, hc, if_true] at hi
      have a1 := h'.A_vel (hC.trans hc)
      have a2 := h'.A_acc (hC.trans hc)
      rw [hN, hT] at a1 a2
      rcases lt_or_ge i s.nbSamples with h1 | h1
      · rw [h.A_vel hc i h1 j hj, a1 i h1 j hj]
      · obtain ⟨k, rfl⟩ := Nat.exists_eq_add_of_le h1
        have hk : k < s.nbSamples := by omega
        rw [h.A_acc hc k hk j hj, a2 k hk j hj]

end MPC
