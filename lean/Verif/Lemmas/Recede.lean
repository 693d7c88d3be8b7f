import Verif.Spec.Recede
import Verif.Props.Trajectory

/-! Motions used for C58, C61–C63. -/

set_option linter.unusedSectionVars false

namespace MPC

open Finset

variable {K : Type} [Field K] [LinearOrder K] [IsStrictOrderedRing K]

theorem jerkTrajectory_alternate {T : K} (hT : T ≠ 0) (x : State3 K) (i : ℕ) :
    (Spec.jerkTrajectory T T x (fun k => (-1) ^ (k + 1) * (2 * x.a / T)) i).v = x.v ∧
    (Spec.jerkTrajectory T T x (fun k => (-1) ^ (k + 1) * (2 * x.a / T)) i).a = (-1) ^ (i + 1) * x.a := by
  induction i with
  | zero => simp only [Spec.jerkTrajectory, Spec.cubic]; constructor <;> field_simp <;> ring
  | succ i ih =>
    simp only [Spec.jerkTrajectory, Spec.cubic, ih.1, ih.2]
    constructor <;> field_simp <;> ring

/-- With strong enough jerk the velocity can be kept. -/
theorem withinLimits_alternate {s : Spec.TrajSettings K} (hT : 0 < s.period)
    (hJ : 2 * s.accLimit ≤ s.jerkLimit * s.period) {x : State3 K} (hx : Spec.StateWithin s x) :
    Spec.WithinLimits s x (fun k => (-1) ^ (k + 1) * (2 * x.a / s.period)) := by
  intro i _
  obtain ⟨h1, h2⟩ := jerkTrajectory_alternate hT.ne' x i
  rw [h1, h2]
  refine ⟨hx.1, by rw [abs_mul, abs_pow]; simpa using hx.2, ?_⟩
  rw [abs_mul, abs_pow, abs_div, abs_mul, abs_of_pos hT]
  simp only [abs_neg, abs_one, one_pow, one_mul, Nat.abs_ofNat]
  rw [div_le_iff₀ hT]
  linarith [hx.2]

/-- The QP is determined by `GivesToSolver`. -/
theorem GivesToSolver.unique {s : Spec.TrajSettings K} {w : TrajWalkgen K} (h : TrajInv s w) {fb : K}
    {qp qp' : QPMatrices K} (hg : GivesToSolver w fb qp) (hg' : GivesToSolver w fb qp') : qp = qp' := by
  classical
  by_contra hne
  obtain ⟨_, w1, e1, -, h1⟩ := hg fun _ q _ => (true, fun _ => if q = qp then 1 else 0)
  obtain ⟨_, w2, e2, -, h2⟩ := hg' fun _ q _ => (true, fun _ => if q = qp then 1 else 0)
  have hN : 0 < w.X.size := by rw [h.X_size]; exact h.N_pos
  rw [e1] at e2
  cases e2
  have a := h1 0 hN
  have b := h2 0 hN
  rw [a] at b
  simp only [if_true, if_neg (Ne.symm hne)] at b
  exact one_ne_zero (add_left_cancel b)

/-- The QP of `GivesToSolver` has consistent dimensions. -/
theorem GivesToSolver.consistent {s : Spec.TrajSettings K} {w : TrajWalkgen K} (h : TrajInv s w) {fb : K}
    {qp : QPMatrices K} (hg : GivesToSolver w fb qp) : ∃ a b, qp.DimensionsAreConsistent a b := by
  obtain ⟨b, w', e, -⟩ := hg fun _ _ _ => (true, fun _ => 0)
  obtain ⟨hfb, hr⟩ := codePre_of_ok h _ (.solve fb) e
  obtain ⟨qp', hg', hq, -⟩ := givesToSolver_of_prepared h hr hfb
  obtain rfl := hg.unique h hg'
  exact ⟨_, _, hq.consistent h⟩

theorem run_append (o : Oracle K) (w : TrajWalkgen K) (cs cs' : List (TrajCall K)) :
    w.run o (cs ++ cs') = (w.run o cs >>= fun w' => w'.run o cs') := by
  induction cs generalizing w with
  | nil => rfl
  | cons c cs ih =>
    simp only [List.cons_append, TrajWalkgen.run]
    cases w.step o c with
    | error e => rfl
    | ok r => exact ih _

theorem reaches_append {o : Oracle K} {cs cs' : List (TrajCall K)} {w w' : TrajWalkgen K}
    (h : TrajReaches o cs w) : TrajReaches o (cs ++ cs') w' ↔ w.run o cs' = .ok w' := by
  unfold TrajReaches at *
  cases e : (TrajWalkgen.make (K := K)) with
  | error e' => rw [e] at h; cases h
  | ok w0 =>
    rw [e] at h
    simp only [ok_bind] at h ⊢
    rw [run_append, h, ok_bind]

theorem settingsOf_append (cs : List (TrajCall K)) (c : TrajCall K) :
    settingsOf (cs ++ [c]) = (settingsOf cs).apply c := by
  simp [settingsOf, Spec.TrajSettings.after]

theorem computeConstantPart_model {w w' : TrajWalkgen K} (e : w.computeConstantPart = .ok w') :
    w'.model = w.model := by
  cases hb : w.withMotionConstraints
  · simp only [TrajWalkgen.computeConstantPart, hb, bind_eq_ok, res_pure, Except.ok.injEq,
      Bool.false_eq_true, if_false] at e
    obtain ⟨_, _, _, _, _, _, _, _, _, _, _, _, _, _, _, _, _, _, _, _, _, _, rfl⟩ := e
    rfl
  · simp only [TrajWalkgen.computeConstantPart, hb, bind_eq_ok, res_pure, Except.ok.injEq,
      if_true] at e
    obtain ⟨_, _, _, _, _, _, _, _, _, _, _, _, _, _, _, _, _, _, _, _, _, _, _, _, rfl⟩ := e
    rfl

/-- The setters used while tracking do not touch the state. -/
theorem step_state {s : Spec.TrajSettings K} {w w' : TrajWalkgen K} {o : Oracle K} {c : TrajCall K}
    {b : Bool} (h : TrajInv s w) (e : w.step o c = .ok (b, w')) (hc : Spec.Tracking s c)
    (hs : ∀ fb, c ≠ .solve fb) : w'.getState = w.getState := by
  cases c with
  | solve fb => exact absurd rfl (hs fb)
  | setVelRef v =>
    simp only [TrajWalkgen.step, bind_eq_ok, res_pure, Except.ok.injEq, Prod.mk.injEq] at e
    obtain ⟨_, _, _, rfl⟩ := e; rfl
  | setPosRef v =>
    simp only [TrajWalkgen.step, bind_eq_ok, res_pure, Except.ok.injEq, Prod.mk.injEq] at e
    obtain ⟨_, _, _, rfl⟩ := e; rfl
  | setWeightings wt =>
    simp only [TrajWalkgen.step, bind_eq_ok, res_pure, Except.ok.injEq, Prod.mk.injEq] at e
    obtain ⟨_, _, _, _, _, _, w1, e1, _, e2⟩ := e
    subst e2
    have := computeConstantPart_model e1
    rw [TrajWalkgen.getState, this]; rfl
  | _ => exact absurd hc (by simp [Spec.Tracking])

/-- What a `solve` does when the constraints are on. -/
theorem solve_constrained (o : Oracle K) {cs : List (TrajCall K)} {w : TrajWalkgen K}
    {o' : Oracle K} (hw : TrajReaches o cs w) (hr : (settingsOf cs).RefsCurrent)
    (hc : (settingsOf cs).constrained = true) {fb : K} (hfb : 0 < fb) :
    ∃ qp w', GivesToSolver w fb qp ∧ w.solve o' fb = .ok (true, w') ∧
      w'.getState = Spec.cubic w.getState (w'.X.get 0) fb ∧ w'.getJerk = .ok (w'.X.get 0) ∧
      (∀ d, Spec.Feasible qp d ↔
        Spec.WithinLimits (settingsOf cs) w.getState (fun i => w.X.get i + d i)) ∧
      (∀ d, Spec.cost qp d = Spec.trajCost (settingsOf cs) w.getState (fun i => w.X.get i + d i)
        - Spec.trajCost (settingsOf cs) w.getState w.X.get) ∧
      (Spec.Feasible qp (o' w.solver.calls qp 10000).2 →
        Spec.WithinLimits (settingsOf cs) w.getState w'.X.get) ∧
      (Spec.IsSolution qp (o' w.solver.calls qp 10000).2 →
        ∀ J, Spec.WithinLimits (settingsOf cs) w.getState J →
        Spec.trajCost (settingsOf cs) w.getState w'.X.get ≤
          Spec.trajCost (settingsOf cs) w.getState J) := by
  have h : TrajInv (settingsOf cs) w := reachable_inv hw
  obtain ⟨qp, hg, hq, hs⟩ := givesToSolver_of_prepared h hr hfb
  have hN : 0 < w.X.size := by rw [h.X_size]; exact h.N_pos
  have hst : (solveResult o' w qp fb).getState
      = Spec.cubic w.getState ((solveResult o' w qp fb).X.get 0) fb := by
    simp only [TrajWalkgen.getState, solveResult, stateStep, Spec.cubic, State3.mk.injEq]
    refine ⟨by ring, by ring, trivial⟩
  refine ⟨qp, _, hg, hs o', hst, Vec.at?_ok (by exact hN), prepared_feasible h hq hc, prepared_cost h hq, ?_, ?_⟩
  · intro hfeas
    exact (prepared_feasible h hq hc _).1 (feasible_congr (hq.consistent h)
      (y := fun i => if i < w.solver.nbVar then (o' w.solver.calls qp 10000).2 i else w.dX.get i)
      (fun i hi => by simp only [hi, if_true]) hfeas)
  · intro hsol J hJ
    have hd' := solution_congr (hq.consistent h)
      (y := fun i => if i < w.solver.nbVar then (o' w.solver.calls qp 10000).2 i else w.dX.get i)
      (fun i hi => by simp only [hi, if_true]) hsol
    have hJ' : J = fun i => w.X.get i + (J i - w.X.get i) := by funext i; ring
    have hf : Spec.Feasible qp (fun i => J i - w.X.get i) := by
      rw [prepared_feasible h hq hc]
      rw [hJ'] at hJ; exact hJ
    have h1 := hd'.2 _ hf
    rw [prepared_cost h hq, prepared_cost h hq, ← hJ'] at h1
    exact (sub_le_sub_iff_right _).1 h1

theorem prepared_unique {s : Spec.TrajSettings K} {w : TrajWalkgen K} {qp : QPMatrices K} (h : TrajInv s w)
    (hq : Prepared s w qp) (hwj : 0 < s.weighting.jerkMinimization) {x y : ℕ → K} (hx : Spec.IsSolution qp x)
    (hy : Spec.IsSolution qp y) : ∀ i < s.nbSamples, x i = y i := by
  intro i hi
  by_contra hne
  have h1 := solution_unique qp x y hx hy
  rw [quadForm_prepared h hq] at h1
  have h2 : 0 < ∑ i ∈ range s.nbSamples, (x i - y i) ^ 2 :=
    sum_pos' (fun k _ => sq_nonneg _) ⟨i, mem_range.2 hi, by
      have := sub_ne_zero.2 hne
      positivity⟩
  have h3 : 0 < max s.weighting.jerkMinimization 0 := lt_max_of_lt_left hwj
  have h4 := mul_pos h3 h2
  have h5 : 0 ≤ max s.weighting.velocityTracking 0 * ∑ k ∈ range s.nbSamples,
      (∑ j ∈ range s.nbSamples, velU s.period s.period k j * (x j - y j)) ^ 2 :=
    mul_nonneg (le_max_right _ _) (sum_nonneg fun k _ => sq_nonneg _)
  have h6 : 0 ≤ max s.weighting.positionTracking 0 * ∑ k ∈ range s.nbSamples,
      (∑ j ∈ range s.nbSamples, posU s.period s.period k j * (x j - y j)) ^ 2 :=
    mul_nonneg (le_max_right _ _) (sum_nonneg fun k _ => sq_nonneg _)
  linarith

theorem prepared_free {s : Spec.TrajSettings K} {w : TrajWalkgen K} {qp : QPMatrices K}
    (hq : Prepared s w qp) (hc : s.constrained = false) (d : ℕ → K) :
    Spec.Feasible qp d ↔ ∀ i < s.nbSamples, |d i| ≤ MAXBOUND := by
  have hM : trajM s = 0 := by simp [trajM, hc]
  have hf := hq.free hc
  unfold Spec.Feasible
  rw [hq.xl_size, hq.xu_size, hq.bl_size, hq.bu_size]
  simp only [hM, (hf _).1, (hf _).2, abs_le]
  constructor
  · rintro ⟨h1, h2, -, -⟩ i hi; exact ⟨h1 i hi, h2 i hi⟩
  · intro h1
    exact ⟨fun i hi => (h1 i hi).1, fun i hi => (h1 i hi).2, fun i hi => by omega, fun i hi => by omega⟩

theorem isSolution_of_min {s : Spec.TrajSettings K} {w : TrajWalkgen K} (h : TrajInv s w) {qp : QPMatrices K}
    (hq : Prepared s w qp) (J : ℕ → K) (hJ : Spec.Feasible qp (fun i => J i - w.X.get i))
    (hmin : ∀ d, Spec.Feasible qp d →
      Spec.trajCost s w.model.state J ≤ Spec.trajCost s w.model.state (fun i => w.X.get i + d i)) :
    Spec.IsSolution qp (fun i => J i - w.X.get i) := by
  refine ⟨hJ, fun y hy => ?_⟩
  rw [prepared_cost h hq, prepared_cost h hq]
  have e : (fun i => w.X.get i + (J i - w.X.get i)) = J := by funext i; ring
  rw [e]
  linarith [hmin y hy]

/-- Jerks that minimise the documented cost are the ones found, if they are feasible increments. -/
theorem solve_unique (o : Oracle K) {s : Spec.TrajSettings K} {w : TrajWalkgen K} (h : TrajInv s w) (fb : K)
    (hwj : 0 < s.weighting.jerkMinimization) {qp : QPMatrices K}
    (hq : Prepared s w qp) (hsol : Spec.IsSolution qp (o w.solver.calls qp 10000).2)
    (J : ℕ → K) (hJ : Spec.Feasible qp (fun i => J i - w.X.get i))
    (hmin : ∀ d, Spec.Feasible qp d →
      Spec.trajCost s w.model.state J ≤ Spec.trajCost s w.model.state (fun i => w.X.get i + d i)) :
    ∀ i < s.nbSamples, (solveResult o w qp fb).X.get i = J i := by
  intro i hi
  have hs := isSolution_of_min h hq J hJ hmin
  have := prepared_unique h hq hwj hsol hs i hi
  have hi' : i < w.solver.nbVar := by rw [h.nbVar]; exact hi
  simp only [solveResult, hi', if_true, this]
  ring

theorem jerkTrajectory_zero {T : K} (p v : K) (i : ℕ) :
    Spec.jerkTrajectory T T ⟨p, v, 0⟩ (fun _ => 0) i = ⟨p + v * T * (i + 1), v, 0⟩ := by
  induction i with
  | zero => simp only [Spec.jerkTrajectory, Spec.cubic, State3.mk.injEq]; refine ⟨?_, ?_, ?_⟩ <;> push_cast <;> ring
  | succ i ih =>
    simp only [Spec.jerkTrajectory, ih, Spec.cubic, State3.mk.injEq]; refine ⟨?_, ?_, ?_⟩ <;> push_cast <;> ring

theorem trajCost_nonneg (s : Spec.TrajSettings K) (x : State3 K) (J : ℕ → K) : 0 ≤ Spec.trajCost s x J := by
  unfold Spec.trajCost
  have hs : ∀ f : ℕ → K, 0 ≤ ∑ i ∈ range s.nbSamples, f i ^ 2 := fun f => sum_nonneg fun i _ => sq_nonneg _
  have h0 : ∀ c : K, 0 ≤ max c 0 := fun c => le_max_right _ _
  have h1 := mul_nonneg (h0 s.weighting.velocityTracking)
    (hs fun i => (Spec.jerkTrajectory s.period s.period x J i).v - s.velRef.get i)
  have h2 := mul_nonneg (h0 s.weighting.positionTracking)
    (hs fun i => (Spec.jerkTrajectory s.period s.period x J i).p - s.posRef.get i)
  have h3 := mul_nonneg (h0 s.weighting.jerkMinimization) (hs J)
  linarith

theorem run_limits {s : Spec.TrajSettings K} {w w' : TrajWalkgen K} (h : TrajInv s w) (o : Oracle K)
    (cs : List (TrajCall K)) (e : w.run o cs = .ok w')
    (hs : 0 ≤ s.velLimit ∧ 0 ≤ s.accLimit ∧ 0 ≤ s.jerkLimit) :
    0 ≤ (s.after cs).velLimit ∧ 0 ≤ (s.after cs).accLimit ∧ 0 ≤ (s.after cs).jerkLimit := by
  induction cs generalizing s w with
  | nil => exact hs
  | cons c cs ih =>
    simp only [TrajWalkgen.run, bind_eq_ok] at e
    obtain ⟨⟨b, w1⟩, e1, e⟩ := e
    have hp := codePre_of_ok h o c e1
    refine ih (step_inv h o c e1) e ?_
    cases c with
    | setVelLimit l => exact ⟨hp, hs.2⟩
    | setAccLimit l => exact ⟨hs.1, hp, hs.2.2⟩
    | setJerkLimit l => exact ⟨hs.1, hs.2.1, hp⟩
    | _ => exact hs

/-- The limits of a reachable state are not negative. -/
theorem reachable_limits {o : Oracle K} {cs : List (TrajCall K)} {w : TrajWalkgen K} (hw : TrajReaches o cs w) :
    0 ≤ (settingsOf cs).velLimit ∧ 0 ≤ (settingsOf cs).accLimit ∧ 0 ≤ (settingsOf cs).jerkLimit := by
  obtain ⟨w0, e0, h0⟩ := make_inv (K := K)
  unfold TrajReaches at hw
  rw [e0, ok_bind] at hw
  exact run_limits h0 o cs hw ⟨zero_le_one, zero_le_one, zero_le_one⟩

theorem jerkTrajectory_tail (T : K) (x : State3 K) (J : ℕ → K) (i : ℕ) :
    Spec.jerkTrajectory T T (Spec.cubic x (J 0) T) (fun k => J (k + 1)) i = Spec.jerkTrajectory T T x J (i + 1) := by
  induction i with
  | zero => rfl
  | succ i ih => simp only [Spec.jerkTrajectory] at ih ⊢; rw [ih]

theorem jerkTrajectory_shift (S T δ : K) (x : State3 K) (J : ℕ → K) (i : ℕ) :
    Spec.jerkTrajectory S T (Spec.State3.shift x δ) J i = Spec.State3.shift (Spec.jerkTrajectory S T x J i) δ := by
  induction i with
  | zero =>
    simp only [Spec.jerkTrajectory, Spec.State3.shift, Spec.cubic, State3.mk.injEq]
    exact ⟨by ring, trivial, trivial⟩
  | succ i ih =>
    simp only [Spec.jerkTrajectory, ih]
    simp only [Spec.State3.shift, Spec.cubic, State3.mk.injEq]
    exact ⟨by ring, trivial, trivial⟩

end MPC
