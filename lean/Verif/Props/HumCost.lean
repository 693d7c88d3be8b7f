import Verif.Lemmas.HumTotal
import Verif.Lemmas.Eval
import Verif.Props.Dynamics
import Verif.Props.Humanoid
import Mathlib.Data.Rat.Floor

/-! # Cost of the humanoid generator, and use of its solution (C40, C41) -/

set_option linter.unusedSectionVars false

namespace MPC

open Finset

variable {K : Type} [Field K] [LinearOrder K] [IsStrictOrderedRing K] [FloorRing K]

/-! ### C40 -/

/-- **C40.** In every reachable state: up to a positive factor, the cost of the QP at the change `x` of
the decision vector `X` is the documented cost of `X + x` minus that of `X`: weighted squares of the
velocity errors, of the jerks and of the local CoP. The velocities are those of the motion with the
jerks `J (X + x)`, which are the jerks that `convertCopInLFtoComJerk` computes from `X + x`; it does so
for every `x` as soon as one of the two weightings that read the jerks is positive. -/
theorem C40_cost (hull : Vec (Pt K) → Res (Polygon K))
    (w w' : HWalkgen K) (fb : K) (qp : QPMatrices K) (hr : HumHistory hull w)
    (hg : HumGives hull w fb w' qp) :
    ∃ (c S : K) (J : (ℕ → K) → ℕ → K), 0 < c ∧
      (∀ n, w'.sup.nbCalls = .ok n → S = (n : K) * w'.lip.fb) ∧
      (∀ (X t : Vec K), HWalkgen.convert { w' with X := X } = .ok t →
        ∀ i < 2 * w'.lip.N, t.get i = J X.get i) ∧
      (0 < w'.weighting.velocityTracking ∨ 0 < w'.weighting.jerkMinimization →
        w'.X.size = 2 * w'.lip.N + 2 * w'.sup.M ∧
        ∀ X : Vec K, X.size = w'.X.size → ∃ t, HWalkgen.convert { w' with X := X } = .ok t) ∧
      ∀ x : ℕ → K, Spec.cost qp x = c *
        (Spec.humCost w'.weighting w'.lip.N S w'.lip.T w'.lip.x w'.lip.y w'.velRef.get
            (fun i => w'.sup.weight.get i i) (fun k => w'.X.get k + x k) (J fun k => w'.X.get k + x k)
          - Spec.humCost w'.weighting w'.lip.N S w'.lip.T w'.lip.x w'.lip.y w'.velRef.get
            (fun i => w'.sup.weight.get i i) w'.X.get (J w'.X.get)) := by
  obtain ⟨idx, nv, nc, hp, -⟩ := hg
  obtain ⟨hI, hs, -, -⟩ := hr.inv.prepare hp
  obtain ⟨w0, a, b, q0, q1, -, -, -, -, hfill, hqp, hw'⟩ := hprepare_ok hp
  have e1 : w'.lip = w0.lip := by rw [hw']
  have e2 : w'.sup = w0.sup := by rw [hw']
  have e3 : w'.X = w0.X := by rw [hw']
  have e4 : w'.weighting = w0.weighting := by rw [hw']
  have e5 : w'.velRef = w0.velRef := by rw [hw']
  obtain ⟨p1, p2, p3, p4, h1, h2, h3, hc, hf⟩ := hfillQP_ok hfill
  rw [← e1, ← e2, ← e3, ← e4] at h1 h2 h3
  rw [← e5] at h1
  obtain ⟨S, J, k1, k2, k3, k4⟩ := hum_objectives hI.fresh hs h1 h2 h3
  have hcost : ∀ x, Spec.cost q1 x = Spec.cost p3 x := by
    intro x
    have a1 : p4.Q = p3.Q ∧ p4.p = p3.p := by
      rcases hc with ⟨-, c, -, hc⟩ | ⟨-, rfl⟩
      · exact addConstraint_cost hc
      · exact ⟨rfl, rfl⟩
    have a2 : q1.Q = p4.Q ∧ q1.p = p4.p := by
      rcases hf with ⟨-, c, -, hf⟩ | ⟨-, rfl⟩
      · exact addConstraint_cost hf
      · exact ⟨rfl, rfl⟩
    unfold Spec.cost
    rw [a2.1, a2.2, a1.1, a1.2]
  refine ⟨1 / smallestSignificant q1.Q EPS, S, J,
    one_div_pos.2 (smallestSignificant_pos _ _ EPS_pos.le), fun n hn => ?_, fun X t ht => ?_,
    fun hw => ?_, fun x => by rw [hqp, scale_cost, hcost, k4]⟩
  · rw [k3 (n - 1) (by unfold Sup.nb; rw [hn]; rfl)]
    congr 2
    ring
  · obtain ⟨hX, nb, dx, dy, Bx, By, px, py, hD⟩ := convert_data (w := { w' with X := X }) hI.fresh ht
    obtain ⟨t', ht', -, g1, g2, -⟩ := convert_ok hD hs hI.N hX
    obtain rfl := Except.ok.inj (ht.symm.trans ht')
    intro i hi
    rw [k2 _ _ _ _ _ _ _ hD]
    unfold humJerk
    by_cases h : i < w'.lip.N
    · rw [if_pos h]
      exact g1 i h
    · obtain ⟨j, rfl⟩ : ∃ j, i = w'.lip.N + j := ⟨i - w'.lip.N, by omega⟩
      rw [if_neg h, Nat.add_sub_cancel_left]
      exact g2 j (show j < w'.lip.N by omega)
  · obtain ⟨hX, nb, dx, dy, Bx, By, px, py, hD⟩ := k1 hw
    refine ⟨hX, fun X hX' => ?_⟩
    obtain ⟨t, ht, -⟩ := convert_ok (w := { w' with X := X }) hD hs hI.N (by rw [← hX, ← hX'])
    exact ⟨t, ht⟩

/-- **C40.** What the solver has to find: the solutions of the QP are the feasible changes of the plan
for which the documented cost is the smallest. -/
theorem C40_solution (hull : Vec (Pt K) → Res (Polygon K))
    (w w' : HWalkgen K) (fb : K) (qp : QPMatrices K) (hr : HumHistory hull w)
    (hg : HumGives hull w fb w' qp) :
    ∃ (S : K) (J : (ℕ → K) → ℕ → K), (∀ n, w'.sup.nbCalls = .ok n → S = (n : K) * w'.lip.fb) ∧
      (∀ (X t : Vec K), HWalkgen.convert { w' with X := X } = .ok t →
        ∀ i < 2 * w'.lip.N, t.get i = J X.get i) ∧
      ∀ x : ℕ → K, Spec.IsSolution qp x ↔ Spec.Feasible qp x ∧ ∀ y, Spec.Feasible qp y →
        Spec.humCost w'.weighting w'.lip.N S w'.lip.T w'.lip.x w'.lip.y w'.velRef.get
            (fun i => w'.sup.weight.get i i) (fun k => w'.X.get k + x k) (J fun k => w'.X.get k + x k)
          ≤ Spec.humCost w'.weighting w'.lip.N S w'.lip.T w'.lip.x w'.lip.y w'.velRef.get
            (fun i => w'.sup.weight.get i i) (fun k => w'.X.get k + y k)
            (J fun k => w'.X.get k + y k) := by
  obtain ⟨c, S, J, hc, h1, h2, -, h4⟩ := C40_cost hull w w' fb qp hr hg
  refine ⟨S, J, h1, h2, fun x => and_congr_right fun _ => forall_congr' fun y => imp_congr_right fun _ => ?_⟩
  rw [h4, h4, mul_le_mul_iff_right₀ hc, sub_le_sub_iff_right]

/-! ### C41 -/

/-- CoP at sample `i` of the motion with the jerks `J` from the state `x`, the CoM being at height `h`
(gravity downwards). -/
def Spec.motionCop (S T h : K) (x : State3 K) (J : ℕ → K) (i : ℕ) : K :=
  Spec.copOf 1 h 0 GRAVITY_NORM (Spec.jerkTrajectory S T x J i)

/-- Upper bound of the change of the CoP at sample `i` when every jerk changes by at most one. -/
def Spec.copGain (S T h : K) (N i : ℕ) : K :=
  ∑ k ∈ range N, |Spec.motionCop S T h ⟨0, 0, 0⟩ (fun j => if j = k then 1 else 0) i|

/-- The planned CoP of sample `i`, attached to the position number `q` (the support foot `p`, then the
footsteps). -/
def Spec.plannedCop (N M : ℕ) (p : Pt K) (X : ℕ → K) (q i : ℕ) : Pt K :=
  ⟨X i + (Spec.previous N M p X q).x, X (N + i) + (Spec.previous N M p X q).y⟩

theorem planned_unit {s : Sup K} {M i q : ℕ} (hc : s.V.cols = M) (hu : RowIsUnit s i q) (o f : ℕ) (s0 : K)
    (X : ℕ → K) : planT M s.V o f X i + s0 * s.V0.get i 0
      = X (o + i) + (if q = 0 then s0 else X (f + (q - 1))) := by
  obtain ⟨h1, h2, h3⟩ := hu
  unfold planT
  rw [h2, add_assoc]
  congr 1
  cases q with
  | zero =>
    simp only [if_true, mul_one]
    rw [sum_eq_zero, zero_add]
    intro c hcM
    rw [h3 c (by rw [hc]; exact mem_range.1 hcM), if_neg (by omega), zero_mul]
  | succ q =>
    simp only [Nat.succ_ne_zero, if_false, mul_zero, add_zero, Nat.add_sub_cancel]
    rw [sum_eq_single q]
    · rw [h3 q (by omega), if_pos rfl, one_mul]
    · intro c hcM hne
      rw [h3 c (by rw [hc]; exact mem_range.1 hcM), if_neg (by omega), zero_mul]
    · intro h
      exact absurd (mem_range.2 (by omega)) h

/-- Stages of `solve`. -/
theorem hsolve_ok {hull : Vec (Pt K) → Res (Polygon K)} {o : Oracle K} {w w2 : HWalkgen K} {fb : K}
    {b : Bool} (h : w.solve hull o fb = .ok (b, w2)) :
    ∃ w' idx qp t lip, w.prepare hull fb = .ok (w', idx, qp) ∧
      (∃ nbVar nbCtr, qp.DimensionsAreConsistent nbVar nbCtr) ∧
      w2.X.size = w'.X.size ∧ w'.X.size = 2 * w'.lip.N + 2 * w'.sup.M ∧
      (∀ k < qp.p.size, w2.X.get k = w'.X.get k + (o w'.calls qp 10000).2 k) ∧
      HWalkgen.convert { w' with X := w2.X } = .ok t ∧ w2.transformedX = t ∧ 0 < t.size ∧
      w'.lip.N < t.size ∧ w'.lip.updateStateX (t.get 0) fb = .ok lip ∧
      lip.updateStateY (t.get w'.lip.N) fb = .ok w2.lip ∧
      w'.sup.updateFeetStates ⟨2 * w'.sup.M, fun i => t.get (2 * w'.sup.N + i)⟩ fb = .ok w2.sup := by
  unfold HWalkgen.solve at h
  obtain ⟨⟨w', idx, qp⟩, hp, h⟩ := bind_eq_ok.1 h
  obtain ⟨sv, -, h⟩ := bind_eq_ok.1 h
  obtain ⟨⟨fd, dX, sv'⟩, hsv, h⟩ := bind_eq_ok.1 h
  obtain ⟨w3, hf, h⟩ := bind_eq_ok.1 h
  obtain ⟨rfl, rfl⟩ := Prod.mk.inj (Except.ok.inj h)
  have hdx : qp.DimensionsAreConsistent sv.nbVar sv.nbCtr ∧ dX.size = 2 * w'.lip.N + 2 * w'.sup.M ∧
      ∀ k < sv.nbVar, dX.get k = (o w'.calls qp 10000).2 k := by
    unfold solverSolve at hsv
    obtain ⟨_, a1, hsv⟩ := bind_eq_ok.1 hsv
    obtain ⟨_, a2, hsv⟩ := bind_eq_ok.1 hsv
    have key : dX = ⟨2 * w'.lip.N + 2 * w'.sup.M, fun i => if i < sv.nbVar then (o w'.calls qp 10000).2 i
        else w'.dX.get i⟩ := by
      dsimp only at hsv
      split at hsv <;> (have e := Except.ok.inj hsv; simp only [Prod.mk.injEq] at e; rw [← e.2.1]; simp [usedQP])
    refine ⟨require_eq_ok.1 a1, by rw [key], fun k hk => ?_⟩
    rw [key]
    exact if_pos hk
  obtain ⟨d1, d2, d3⟩ := hdx
  unfold HWalkgen.finish at hf
  obtain ⟨X, hX, hf⟩ := bind_eq_ok.1 hf
  obtain ⟨hXs, rfl⟩ := Vec.add?_eq_ok hX
  dsimp only at hf
  obtain ⟨t, ht, hf⟩ := bind_eq_ok.1 hf
  obtain ⟨j, hj, hf⟩ := bind_eq_ok.1 hf
  obtain ⟨l₁, h1, hf⟩ := bind_eq_ok.1 hf
  obtain ⟨j', hj', hf⟩ := bind_eq_ok.1 hf
  obtain ⟨l₂, h2, hf⟩ := bind_eq_ok.1 hf
  obtain ⟨u, hu, hf⟩ := bind_eq_ok.1 hf
  obtain ⟨-, hu⟩ := Vec.segment?_eq_ok hu
  rw [hu] at hf
  obtain ⟨s, h3, hf⟩ := bind_eq_ok.1 hf
  obtain rfl := Except.ok.inj hf
  obtain ⟨_, a1, a2⟩ := bind_eq_ok.1 hj
  obtain ⟨_, b1, b2⟩ := bind_eq_ok.1 hj'
  have a2 := Except.ok.inj a2
  have b2 := Except.ok.inj b2
  subst a2 b2
  have hn : qp.p.size = sv.nbVar := by
    unfold QPMatrices.DimensionsAreConsistent at d1
    omega
  refine ⟨w', idx, qp, t, l₁, hp, ⟨_, _, d1⟩, rfl, hXs.trans d2, fun k hk => ?_, ht, rfl, requireIndex_eq_ok.1 a1,
    requireIndex_eq_ok.1 b1, h1, h2, h3⟩
  dsimp only
  rw [d3 k (by omega)]

theorem copDyn_stored {S T : K} {N : ℕ} {h gx gz m : K} {B : Mat K}
    (hB : (copDyn S T N h gx gz m).Uinv = some B) : StoredInverse N (copDyn S T N h gx gz m) := by
  have h1 : (copDyn S T N h gx gz m).Uinv = inverseLU (copDyn S T N h gx gz m).U EPS := rfl
  have h2 : (copDyn S T N h gx gz m).UTinv
    = (inverseLU (copDyn S T N h gx gz m).U EPS).map Mat.transpose := rfl
  have h3 := hB
  rw [h1] at h3
  unfold inverseLU at h3
  obtain ⟨B0, hB0, -⟩ := Option.map_eq_some_iff.1 h3
  have hI := inverse_spec (copDyn S T N h gx gz m).U B0 rfl hB0
  have hLU := inverseLU_eq _ B0 EPS hB0
  refine ⟨B0, _, hI, h1.trans hLU, hI.2.2.1, hI.2.2.2.1, ?_, ?_, ?_, _, ?_, rfl, rfl, fun _ _ _ _ => rfl⟩
  · intro i j
    dsimp only
    split_ifs with h'
    · simpa using h'
    · simpa using EPS_pos
  · intro i j h'
    dsimp only
    rw [if_neg (not_lt.2 h')]
  · intro i j h'
    dsimp only
    rw [if_pos h']
  · rw [h2, hLU]; rfl

theorem axis_cop {N : ℕ} {S T h gx gz m : K} {V0 : Mat K} {s0 : K} {st : State3 K} {J : ℕ → K} {i : ℕ}
    (hi : i < N) : Spec.copOf m h gx gz (Spec.jerkTrajectory S T st J i)
      = ∑ j ∈ range N, copU S T h gz m i j * J j
        + (s0 * V0.get i 0 - axisOff (copDyn S T N h gx gz m) V0 s0 st i) := by
  rw [← row_cop S T h gx gz m N st _ hi]
  unfold axisOff mv
  simp only [copDyn]
  ring

theorem axis_follows {N : ℕ} {S T h gx gz m : K} {B V0 : Mat K} {s0 : K} {st : State3 K} {P : ℕ → K}
    (hI : Spec.IsInverse N (copDyn S T N h gx gz m).U B) {i : ℕ} (hi : i < N) :
    Spec.copOf m h gx gz (Spec.jerkTrajectory S T st (axisJerk B V0 (copDyn S T N h gx gz m) s0 st P) i)
      = P i + s0 * V0.get i 0 := by
  obtain ⟨-, -, hr, hc, ⟨Q, hQ, hQs⟩, -⟩ := hI
  rw [axis_cop (N := N) (V0 := V0) (s0 := s0) hi]
  have e1 : ∑ j ∈ range N, copU S T h gz m i j * axisJerk B V0 (copDyn S T N h gx gz m) s0 st P j
      = P i + axisOff (copDyn S T N h gx gz m) V0 s0 st i := by
    have e := mv_mul hQ (fun i => P i + axisOff (copDyn S T N h gx gz m) V0 s0 st i) i
    have e2 : mv Q (fun i => P i + axisOff (copDyn S T N h gx gz m) V0 s0 st i) i
        = P i + axisOff (copDyn S T N h gx gz m) V0 s0 st i := by
      obtain ⟨q1, q2, q3⟩ := hQs
      have q1 : Q.rows = N := q1
      have q2 : Q.cols = N := q2
      unfold mv
      rw [q2, sum_eq_single i]
      · rw [q3 i (by omega) i (by omega)]
        simp [Mat.one]
      · intro j hj hne
        rw [q3 i (by omega) j (by have := mem_range.1 hj; omega)]
        simp [Mat.one, Ne.symm hne]
      · intro h; exact absurd (mem_range.2 hi) h
    rw [e2] at e
    exact e.symm
  rw [e1]
  ring

theorem motionCop_unit {S T h : K} {N i k : ℕ} (hi : i < N) (hk : k < N) :
    Spec.motionCop S T h ⟨0, 0, 0⟩ (fun j => if j = k then 1 else 0) i = copU S T h GRAVITY_NORM 1 i k := by
  unfold Spec.motionCop
  rw [axis_cop (N := N) (V0 := ⟨0, 0, fun _ _ => 0⟩) (s0 := 0) hi]
  unfold axisOff mv
  rw [sum_eq_single k (fun j _ hne => by rw [if_neg hne, mul_zero])
    (fun h => absurd (mem_range.2 hk) h), if_pos rfl]
  simp [copDyn, State3.toVec, sum_range_succ]

theorem axis_error {N : ℕ} {S T h : K} {B V0 : Mat K} {s0 : K} {st : State3 K} {P : ℕ → K}
    (hB : (copDyn S T N h 0 GRAVITY_NORM 1).Uinv = some B) {i : ℕ} (hi : i < N) :
    |Spec.motionCop S T h st (axisJerk B V0 (copDyn S T N h 0 GRAVITY_NORM 1) s0 st P) i
        - (P i + s0 * V0.get i 0)|
      ≤ EPS * Spec.copGain S T h N i
        * ∑ j ∈ range N, |P j + s0 * V0.get j 0 - Spec.motionCop S T h st (fun _ => 0) j| := by
  obtain ⟨Bs, X, y, h1, h2, h3, -, h5⟩ := C09_roundtrip_partial N _ (copDyn_stored hB)
    ⟨N, fun j => P j + axisOff (copDyn S T N h 0 GRAVITY_NORM 1) V0 s0 st j⟩ rfl
  obtain rfl : Bs = B := Option.some.inj (h1.symm.trans hB)
  obtain ⟨-, e2⟩ := Mat.mulVec?_eq_ok h2
  obtain ⟨-, e3⟩ := Mat.mulVec?_eq_ok h3
  have h5 := h5 i hi
  have hg : ∑ k ∈ range N, |(copDyn S T N h 0 GRAVITY_NORM 1).U.get i k| = Spec.copGain S T h N i :=
    sum_congr rfl fun k hk => by rw [motionCop_unit hi (mem_range.1 hk)]; rfl
  have hr : ∑ j ∈ range N, |P j + axisOff (copDyn S T N h 0 GRAVITY_NORM 1) V0 s0 st j|
      = ∑ j ∈ range N, |P j + s0 * V0.get j 0 - Spec.motionCop S T h st (fun _ => 0) j| := by
    refine sum_congr rfl fun j hj => congrArg _ ?_
    unfold Spec.motionCop
    rw [axis_cop (N := N) (V0 := V0) (s0 := s0) (mem_range.1 hj)]
    simp only [mul_zero, sum_const_zero, zero_add]
    ring
  rw [hg] at h5
  rw [← hr]
  refine le_trans (le_of_eq (congrArg _ ?_)) h5
  unfold Spec.motionCop
  rw [axis_cop (N := N) (V0 := V0) (s0 := s0) hi, e3]
  have : (∑ k ∈ range (copDyn S T N h 0 GRAVITY_NORM 1).U.cols,
        (copDyn S T N h 0 GRAVITY_NORM 1).U.get i k * X.get k)
      = ∑ j ∈ range N, copU S T h GRAVITY_NORM 1 i j
        * axisJerk Bs V0 (copDyn S T N h 0 GRAVITY_NORM 1) s0 st P j :=
    sum_congr rfl fun j _ => by rw [e2]; rfl
  dsimp only
  rw [this]
  ring

/-- **C41 (partial).** Let `t` be the jerks that `convertCopInLFtoComJerk` computes from any decision
vector `X` in the state in which a reachable generator calls the solver. The motion with these jerks has
the planned CoP at every sample (local CoP plus position of the support, foot or footstep, to which the
selection matrices attach the sample)
* exactly, if no entry of the inverse of the CoP dynamics was erased;
* in all cases up to `EPS` times the gain of the CoP dynamics times the distance of the plan to the
  motion without jerk.
Missing: exactness in the second case, which is false (`C41_violated`). -/
theorem C41_jerks_partial (hull : Vec (Pt K) → Res (Polygon K))
    (w w' : HWalkgen K) (fb : K) (idx : ℕ) (qp : QPMatrices K) (hr : HumHistory hull w)
    (hp : w.prepare hull fb = .ok (w', idx, qp)) (X t : Vec K)
    (ht : HWalkgen.convert { w' with X := X } = .ok t) :
    ∃ n p, w'.sup.nbCalls = .ok n ∧ Spec.SupportAt w'.sup p ∧
      let N := w'.lip.N
      let M := w'.sup.M
      let S := (n : K) * w'.lip.fb
      let T := w'.lip.T
      let h := w'.lip.comHeight
      let Jx := t.get
      let Jy := fun k => t.get (N + k)
      ((∀ d B, computeCopDynamic S T N h 0 GRAVITY_NORM 1 1 = .ok d → d.Uinv = some B →
          Spec.IsInverse N d.U B) →
        ∀ i < N, ∀ q, RowIsUnit w'.sup i q →
          Spec.motionCop S T h w'.lip.x Jx i = (Spec.plannedCop N M p X.get q i).x ∧
          Spec.motionCop S T h w'.lip.y Jy i = (Spec.plannedCop N M p X.get q i).y) ∧
      ∀ q : ℕ → ℕ, (∀ k < N, RowIsUnit w'.sup k (q k)) → ∀ i < N,
        |Spec.motionCop S T h w'.lip.x Jx i - (Spec.plannedCop N M p X.get (q i) i).x|
          ≤ EPS * Spec.copGain S T h N i * ∑ j ∈ range N,
            |(Spec.plannedCop N M p X.get (q j) j).x - Spec.motionCop S T h w'.lip.x (fun _ => 0) j| ∧
        |Spec.motionCop S T h w'.lip.y Jy i - (Spec.plannedCop N M p X.get (q i) i).y|
          ≤ EPS * Spec.copGain S T h N i * ∑ j ∈ range N,
            |(Spec.plannedCop N M p X.get (q j) j).y - Spec.motionCop S T h w'.lip.y (fun _ => 0) j| := by
  obtain ⟨hI, hsh, -, hfb⟩ := hr.inv.prepare hp
  obtain ⟨hX, nb, dx, dy, Bx, By, px, py, hD⟩ := convert_data (w := { w' with X := X }) hI.fresh ht
  obtain ⟨t', ht', -, g1, g2, -⟩ := convert_ok hD hsh hI.N hX
  obtain rfl := Except.ok.inj (ht.symm.trans ht')
  have hDD : HumData w'.lip w'.sup nb dx dy Bx By px py := hD
  obtain ⟨hnb, hdx, hdy, hBx, hBy, hpx, hpy⟩ := hDD
  obtain ⟨n, hn, hnb'⟩ := bind_eq_ok.1 hnb
  have hnb' : n - 1 = nb := Except.ok.inj hnb'
  refine ⟨n, ⟨px.p, py.p⟩, hn, Sup.support_spec hpx hpy, ?_⟩
  obtain ⟨k, hk, hk', edx⟩ := Lip.dyn_ok hdx
  obtain ⟨k2, hk2, -, edy⟩ := Lip.dyn_ok hdy
  obtain rfl : k = k2 := by omega
  obtain ⟨hfp, hgood⟩ := hI.fresh.pos (by omega)
  have hS : (n : K) * w'.lip.fb = ((k + 1 : ℕ) : K) * w'.lip.fb := by
    have : n = ((k + 1 : ℕ) : ℤ) := by push_cast; omega
    rw [this]
    push_cast
    rfl
  rw [hI.fresh.copX k hk', hI.gx, hI.gz, hI.mass, hI.total, div_one, ← hS] at edx
  rw [hI.fresh.copY k hk', hI.gy, hI.gz, hI.mass, hI.total, div_one, ← hS] at edy
  have hok : computeCopDynamic ((n : K) * w'.lip.fb) w'.lip.T w'.lip.N w'.lip.comHeight 0
      GRAVITY_NORM 1 1 = .ok dx := by
    rw [edx]
    have := computeCopDynamic_ok (S := (n : K) * w'.lip.fb) (T := w'.lip.T) (N := w'.lip.N)
      (h := w'.lip.comHeight) (gx := 0) (gz := GRAVITY_NORM) (mass := 1) (total := 1)
      (by rw [hS]; exact mul_pos (by positivity) hfp) hgood.T hI.fresh.N (by rw [← hI.gz]; exact hgood.gz)
      le_rfl EPS_lt_one zero_le_one
    rwa [div_one] at this
  have hdxy : dy = dx := edy.trans edx.symm
  have hBx' : dx.Uinv = some Bx := hBx.inv
  have hBy' : dx.Uinv = some By := hdxy ▸ hBy.inv
  have g1 : ∀ k < w'.lip.N, t.get k = jerkX w'.lip w'.sup dx Bx px X.get k := g1
  have g2 : ∀ k < w'.lip.N, t.get (w'.lip.N + k) = jerkY w'.lip w'.sup dy By py X.get k := g2
  have mx : ∀ i < w'.lip.N, ∀ q, RowIsUnit w'.sup i q →
      planT w'.sup.M w'.sup.V 0 (2 * w'.lip.N) X.get i + px.p * w'.sup.V0.get i 0
        = (Spec.plannedCop w'.lip.N w'.sup.M ⟨px.p, py.p⟩ X.get q i).x := by
    intro i hi q hu
    rw [planned_unit hsh.Vc hu]
    unfold Spec.plannedCop Spec.previous Spec.footstep
    cases q <;> simp
  have my : ∀ i < w'.lip.N, ∀ q, RowIsUnit w'.sup i q →
      planT w'.sup.M w'.sup.V w'.lip.N (2 * w'.lip.N + w'.sup.M) X.get i + py.p * w'.sup.V0.get i 0
        = (Spec.plannedCop w'.lip.N w'.sup.M ⟨px.p, py.p⟩ X.get q i).y := by
    intro i hi q hu
    rw [planned_unit hsh.Vc hu]
    unfold Spec.plannedCop Spec.previous Spec.footstep
    cases q <;> simp
  have tx : ∀ i < w'.lip.N, ∀ S, Spec.motionCop S w'.lip.T w'.lip.comHeight w'.lip.x t.get i
      = Spec.motionCop S w'.lip.T w'.lip.comHeight w'.lip.x
        (axisJerk Bx w'.sup.V0 dx px.p w'.lip.x (planT w'.sup.M w'.sup.V 0 (2 * w'.lip.N) X.get)) i := by
    intro i hi S
    unfold Spec.motionCop
    rw [jerkTrajectory_congr (x := w'.lip.x) (fun k hk => g1 k (by omega))]
    rfl
  have ty : ∀ i < w'.lip.N, ∀ S, Spec.motionCop S w'.lip.T w'.lip.comHeight w'.lip.y
        (fun k => t.get (w'.lip.N + k)) i
      = Spec.motionCop S w'.lip.T w'.lip.comHeight w'.lip.y
        (axisJerk By w'.sup.V0 dy py.p w'.lip.y (planT w'.sup.M w'.sup.V w'.lip.N (2 * w'.lip.N + w'.sup.M) X.get)) i := by
    intro i hi S
    unfold Spec.motionCop
    rw [jerkTrajectory_congr (x := w'.lip.y) (fun k hk => g2 k (by omega))]
    rfl
  dsimp only
  constructor
  · intro hinv i hi q hu
    have ix := hinv dx Bx hok hBx'
    have iy := hinv dx By hok hBy'
    rw [tx i hi, ty i hi, ← mx i hi q hu, ← my i hi q hu]
    rw [edx] at ix iy ⊢
    rw [edy]
    exact ⟨axis_follows ix hi, axis_follows iy hi⟩
  · intro q hq i hi
    rw [tx i hi, ty i hi, ← mx i hi _ (hq i hi), ← my i hi _ (hq i hi)]
    rw [edx] at hBx' hBy' ⊢
    rw [edy]
    refine ⟨(axis_error hBx' hi).trans (le_of_eq (congrArg _ (sum_congr rfl fun j hj => ?_))),
      (axis_error hBy' hi).trans (le_of_eq (congrArg _ (sum_congr rfl fun j hj => ?_)))⟩
    · rw [← mx j (mem_range.1 hj) _ (hq j (mem_range.1 hj))]
    · rw [← my j (mem_range.1 hj) _ (hq j (mem_range.1 hj))]

/-- **C41, use of the answer.** After every successful `solve` of every reachable generator, the plan is the old one
plus the answer of the solver to the QP, the kept jerks are those computed from this plan (`C41_jerks_partial`),
the CoM has moved with the first of them during the feedback period, and the feet follow the footsteps of the
plan. -/
theorem C41_follows (hull : Vec (Pt K) → Res (Polygon K)) (o' : Oracle K)
    (w w2 : HWalkgen K) (fb : K) (b : Bool) (hr : HumHistory hull w)
    (hs : w.solve hull o' fb = .ok (b, w2)) :
    ∃ w' qp, HumGives hull w fb w' qp ∧
      w2.X.size = w'.X.size ∧ w'.X.size = 2 * w'.lip.N + 2 * w'.sup.M ∧
      (∀ k < qp.p.size, w2.X.get k = w'.X.get k + (o' w'.calls qp 10000).2 k) ∧
      HWalkgen.convert { w' with X := w2.X } = .ok w2.transformedX ∧
      w2.lip.x = Spec.cubic w'.lip.x (w2.transformedX.get 0) fb ∧
      w2.lip.y = Spec.cubic w'.lip.y (w2.transformedX.get w'.lip.N) fb ∧
      w'.sup.updateFeetStates ⟨2 * w'.sup.M, fun i => w2.X.get (2 * w'.lip.N + i)⟩ fb = .ok w2.sup := by
  obtain ⟨w', idx, qp, t, lip, hp, ⟨nv, nc, hd⟩, hz, hz', hX, ht, rfl, -, -, hx, hy, hu⟩ := hsolve_ok hs
  obtain ⟨hI, hsh, -, hfb⟩ := hr.inv.prepare hp
  obtain ⟨sx, hsx, hx⟩ := bind_eq_ok.1 hx
  rw [C06_updateState_exact _ _ hfb] at hsx
  have hx := Except.ok.inj hx
  obtain ⟨sy, hsy, hy⟩ := bind_eq_ok.1 hy
  rw [C06_updateState_exact _ _ hfb] at hsy
  have hy := Except.ok.inj hy
  refine ⟨w', qp, ⟨idx, nv, nc, hp, hd⟩, hz, hz', hX, ht, ?_, ?_, ?_⟩
  · have e := Except.ok.inj hsx
    rw [← hy, ← hx]
    exact e.symm
  · have e := Except.ok.inj hsy
    rw [← hx] at e
    rw [← hy]
    exact e.symm
  · obtain ⟨hX', nb, dx, dy, Bx, By, px, py, hD⟩ := convert_data (w := { w' with X := w2.X }) hI.fresh ht
    obtain ⟨t', ht', -, -, -, g3⟩ := convert_ok hD hsh hI.N hX'
    have e := Except.ok.inj (ht.symm.trans ht')
    rw [← hu, hI.N]
    congr 2
    funext i
    rw [e]
    exact (g3 _ (Nat.le_add_right _ _)).symm

/-! ### Concrete runs -/

/-- A user with samples of 100 s and one step of 200 s. -/
def longCalls : List (HCall ℚ) :=
  [.setSamplingPeriod 100, .setStepPeriod 200, .setInitialDoubleSupportLength 200, .setMove true]

/-- The solver moves the CoP by one meter along both axes. -/
def oneOracle : Oracle ℚ := fun _ _ _ => (true, fun _ => 1)

set_option maxRecDepth 100000 in
theorem long_checks : okAnd (fun r => decide (r.1.sup.timeline[0]?.map (·.type) = some .DS ∧
      r.1.sup.move = true ∧ r.1.sup.V.cols = 0 ∧ r.1.sup.V0.get 0 0 = 1 ∧ r.1.lip.N = 1 ∧ r.1.sup.M = 0 ∧
      r.1.sup.left.x.state.p = 0 ∧ r.1.sup.left.y.state.p = 0 ∧
      r.2.1.X.get 0 = 1 ∧ r.2.1.X.get 1 = 1 ∧
      Spec.motionCop ((r.2.2.2 : ℚ) * r.1.lip.fb) r.1.lip.T r.1.lip.comHeight r.1.lip.x
        r.2.1.transformedX.get 0 = 0))
    (do
      let w ← HWalkgen.make >>= fun w => w.run (fun _ => .ok demoRect) oneOracle longCalls
      let wp ← w.prepare (fun _ => .ok demoRect) 100
      let w2 ← w.solve (fun _ => .ok demoRect) oneOracle 100
      let n ← wp.1.sup.nbCalls
      pure (wp.1, w2.2, w, n)) = true := by
  decide +kernel

/-- **C41 is false.** After the calls `longCalls`, a solution that puts the CoP one meter ahead is
converted to a jerk for which the CoP stays at the origin: the inverse of the CoP dynamics has its only
entry, `6 · 10⁻⁶`, erased. -/
theorem C41_violated : ∃ w w' w2 idx qp b n, HumReaches (fun _ => .ok demoRect) oneOracle longCalls w ∧
    w.prepare (fun _ => .ok demoRect) 100 = .ok (w', idx, qp) ∧
    w.solve (fun _ => .ok demoRect) oneOracle 100 = .ok (b, w2) ∧ w'.sup.nbCalls = .ok n ∧
    w'.lip.N = 1 ∧ RowIsUnit w'.sup 0 0 ∧ ∀ p, Spec.SupportAt w'.sup p →
      (Spec.plannedCop 1 w'.sup.M p w2.X.get 0 0).x = 1 ∧
      Spec.motionCop ((n : ℚ) * w'.lip.fb) w'.lip.T w'.lip.comHeight w'.lip.x w2.transformedX.get 0 = 0 := by
  obtain ⟨r, h, hc⟩ := okAnd_true long_checks
  obtain ⟨w, hw, h⟩ := bind_eq_ok.1 h
  obtain ⟨w0, h0, hw⟩ := bind_eq_ok.1 hw
  obtain ⟨⟨w', idx, qp⟩, hp, h⟩ := bind_eq_ok.1 h
  obtain ⟨⟨b, w2⟩, hs, h⟩ := bind_eq_ok.1 h
  obtain ⟨n, hn, h⟩ := bind_eq_ok.1 h
  obtain rfl := Except.ok.inj h
  obtain ⟨c1, c2, c3, c4, c5, c6, c7, c8, c9, c10, c11⟩ := of_decide_eq_true hc
  refine ⟨w, w', w2, idx, qp, b, n, ⟨w0, h0, hw⟩, hp, hs, hn, c5, ⟨Nat.zero_le _, by simpa using c4, ?_⟩, ?_⟩
  · intro c hc
    rw [show w'.sup.V.cols = 0 from c3] at hc
    omega
  · rintro p ⟨f, hf, -, -, hp, -⟩
    have c1 : f.type = .DS := by
      have := c1
      simp only [hf, Option.map_some, Option.some.injEq] at this
      exact this
    have c7 : w'.sup.left.x.state.p = 0 := c7
    have c9 : w2.X.get 0 = 1 := c9
    rw [hp c1 c2]
    exact ⟨by simp [Spec.plannedCop, Spec.previous, c7, c9], c11⟩

/-- The user of `demoWalkCalls` (three samples, two footsteps) chooses all three objectives. -/
def demoCostCalls : List (HCall ℚ) :=
  demoWalkCalls ++ [.setWeightings ⟨1, 1 / 10, 1 / 100⟩, .setVelRef ⟨6, fun i => if i < 3 then 1 / 2 else 0⟩]

/-- A plan: local CoP `(1/8, 1/8)`, footsteps at `(1/4, 1/8)` and `(1/8, 1/8)`. -/
def demoPlan : Vec ℚ := ⟨10, fun k => if k = 6 then 1 / 4 else 1 / 8⟩

set_option maxRecDepth 100000 in
theorem cost_checks : okAnd (fun r => decide (r.1.1.lip.N = 3 ∧ r.1.1.sup.M = 2 ∧
      0 < r.1.1.weighting.velocityTracking ∧ 0 < r.1.1.weighting.jerkMinimization ∧
      0 < r.1.1.weighting.copCentering ∧ r.1.2.2.DimensionsAreConsistent 10 0 ∧
      r.1.1.sup.V.cols = 2 ∧ (∀ k : Fin 3, r.1.1.sup.V0.get k 0 = if k.1 = 0 then 1 else 0) ∧
      (∀ k : Fin 3, ∀ c : Fin 2, r.1.1.sup.V.get k c = if k.1 = c.1 + 1 then 1 else 0) ∧
      r.2.1.get 0 ≠ 0 ∧ (r.2.2.1.rows = 3 ∧ r.2.2.1.cols = 3 ∧ r.2.2.2.1.rows = 3 ∧ r.2.2.2.1.cols = 3) ∧
      (∀ i j : Fin 3, r.2.2.2.2.1.get i j = if i = j then 1 else 0) ∧
      ∀ i j : Fin 3, r.2.2.2.2.2.get i j = if i = j then 1 else 0))
    (do
      let w ← HWalkgen.make >>= fun w => w.run (fun _ => .ok demoRect) oneOracle demoCostCalls
      let wp ← w.prepare (fun _ => .ok demoRect) 1
      let t ← HWalkgen.convert { wp.1 with X := demoPlan }
      let n ← wp.1.sup.nbCalls
      let d ← computeCopDynamic ((n : ℚ) * wp.1.lip.fb) wp.1.lip.T wp.1.lip.N wp.1.lip.comHeight 0
        GRAVITY_NORM 1 1
      let B ← getInv d.Uinv
      let P ← d.U.mul? B
      let Q ← B.mul? d.U
      pure (wp, t, d.U, B, P, Q)) = true := by
  decide +kernel

/-- Hypotheses of `C40_cost` and `C41_jerks_partial`, including the one of the exact case: there is a QP,
the plan is converted, the samples are attached to the left foot and to the two footsteps. -/
example : ∃ w w' idx qp t, HumReaches (fun _ => .ok demoRect) oneOracle demoCostCalls w ∧
    HumGives (fun _ => .ok demoRect) w 1 w' qp ∧ 0 < w'.weighting.velocityTracking ∧
    0 < w'.weighting.jerkMinimization ∧ 0 < w'.weighting.copCentering ∧
    w.prepare (fun _ => .ok demoRect) 1 = .ok (w', idx, qp) ∧
    HWalkgen.convert { w' with X := demoPlan } = .ok t ∧ t.get 0 ≠ 0 ∧ w'.lip.N = 3 ∧
    (∀ k < 3, RowIsUnit w'.sup k k) ∧
    ∃ n, w'.sup.nbCalls = .ok n ∧ ∀ d B, computeCopDynamic ((n : ℚ) * w'.lip.fb) w'.lip.T w'.lip.N
      w'.lip.comHeight 0 GRAVITY_NORM 1 1 = .ok d → d.Uinv = some B → Spec.IsInverse w'.lip.N d.U B := by
  obtain ⟨r, h, hc⟩ := okAnd_true cost_checks
  obtain ⟨w, hw, h⟩ := bind_eq_ok.1 h
  obtain ⟨w0, h0, hw⟩ := bind_eq_ok.1 hw
  obtain ⟨⟨w', idx, qp⟩, hp, h⟩ := bind_eq_ok.1 h
  obtain ⟨t, ht, h⟩ := bind_eq_ok.1 h
  obtain ⟨n, hn, h⟩ := bind_eq_ok.1 h
  obtain ⟨d, hd, h⟩ := bind_eq_ok.1 h
  obtain ⟨B, hB, h⟩ := bind_eq_ok.1 h
  obtain ⟨P, hP, h⟩ := bind_eq_ok.1 h
  obtain ⟨Q, hQ, h⟩ := bind_eq_ok.1 h
  obtain rfl := Except.ok.inj h
  obtain ⟨c1, c2, c3, c4, c5, c6, c7, c8, c9, c10, c11, c12, c13⟩ := of_decide_eq_true hc
  refine ⟨w, w', idx, qp, t, ⟨w0, h0, hw⟩, ⟨idx, 10, 0, hp, c6⟩, c3, c4, c5, hp, ht, c10, c1, ?_, n, hn, ?_⟩
  · intro k hk
    have c7 : w'.sup.V.cols = 2 := c7
    exact ⟨by omega, c8 ⟨k, hk⟩, fun c hc => c9 ⟨k, hk⟩ ⟨c, by omega⟩⟩
  · intro d' B' hd' hB'
    obtain rfl := Except.ok.inj (hd'.symm.trans hd)
    obtain rfl := Option.some.inj (hB'.symm.trans (getInv_eq_ok hB))
    rw [show w'.lip.N = 3 from c1]
    obtain ⟨a1, a2, a3, a4⟩ := c11
    refine ⟨a1, a2, a3, a4, ⟨P, hP, ?_⟩, ⟨Q, hQ, ?_⟩⟩
    · obtain ⟨-, rfl⟩ := Mat.mul?_eq_ok hP
      exact ⟨a1, a4, fun i hi j hj => by
        have := c12 ⟨i, by rw [← a1]; exact hi⟩ ⟨j, by rw [← a4]; exact hj⟩
        simpa [Mat.one] using this⟩
    · obtain ⟨-, rfl⟩ := Mat.mul?_eq_ok hQ
      exact ⟨a3, a2, fun i hi j hj => by
        have := c13 ⟨i, by rw [← a3]; exact hi⟩ ⟨j, by rw [← a2]; exact hj⟩
        simpa [Mat.one] using this⟩

end MPC
