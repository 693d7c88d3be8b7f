import Verif.Spec.Room
import Verif.Lemmas.Rate
import Verif.Props.Units
import Mathlib.Topology.MetricSpace.Bounded
import Mathlib.Topology.Order.Compact

/-! Limits that leave room are not met near the references. -/

set_option linter.unusedSectionVars false

namespace MPC
open Finset Filter Topology

variable {vr pr fb : ℝ}

/-- Jerks that minimise the documented cost among all jerks, if they respect the limits, are found with and without limits. -/
theorem solve_within {o : Oracle ℝ} (ho : Spec.FindsSolution o) {cs : List (TrajCall ℝ)} {w : TrajWalkgen ℝ}
    (hw : TrajReaches o cs w) (hr : (settingsOf cs).RefsCurrent) (hj : 0 < (settingsOf cs).weighting.jerkMinimization) (J : ℕ → ℝ)
    (hmin : ∀ J', Spec.trajCost (settingsOf cs) w.getState J ≤ Spec.trajCost (settingsOf cs) w.getState J')
    (hX : ∀ i < (settingsOf cs).nbSamples, |w.X.get i| ≤ MAXBOUND / 2)
    (hJ : ∀ i < (settingsOf cs).nbSamples, |J i| ≤ MAXBOUND / 2) (hlim : Spec.WithinLimits (settingsOf cs) w.getState J) (hfb : 0 < fb) :
    ∃ w', TrajReaches o (cs ++ [.solve fb]) w' ∧ w'.getState = Spec.cubic w.getState (J 0) fb ∧
      ∀ i < (settingsOf cs).nbSamples, w'.X.get i = J i := by
  cases hc : (settingsOf cs).constrained with
  | false => exact solve_optimal ho hw hr hc hj J hmin hX hJ hfb
  | true =>
    have h : TrajInv (settingsOf cs) w := reachable_inv hw
    obtain ⟨qp, hg, hq, hs⟩ := givesToSolver_of_prepared h hr hfb
    have hfeas : Spec.Feasible qp (fun i => J i - w.X.get i) := by
      rw [prepared_feasible h hq hc]
      have e : (fun i => w.X.get i + (J i - w.X.get i)) = J := by funext i; ring
      rw [e]; exact hlim
    have hsol := ho w.solver.calls qp 10000 ⟨_, isSolution_of_min h hq J hfeas (fun d _ => hmin _)⟩
    have hX' := solve_unique o h fb hj hq hsol J hfeas (fun d _ => hmin _)
    refine ⟨solveResult o w qp fb, ?_, ?_, hX'⟩
    · rw [reaches_append hw]
      simp [TrajWalkgen.run, TrajWalkgen.step, hs o, ok_bind]
    · have e : (solveResult o w qp fb).getState = stateStep ((solveResult o w qp fb).X.get 0) fb w.model.state := rfl
      rw [e, hX' 0 h.N_pos]
      show stateStep (J 0) fb w.model.state = Spec.cubic w.model.state (J 0) fb
      simp only [stateStep, Spec.cubic, State3.mk.injEq]
      exact ⟨by ring, by ring, trivial⟩

theorem jerkTrajectory_continuous {N : ℕ} (T : ℝ) (x : State3 ℝ) (i : ℕ) (hi : i < N) :
    let z := fun J : Fin N → ℝ => Spec.jerkTrajectory T T x (fun k => if h : k < N then J ⟨k, h⟩ else 0) i
    Continuous (fun J => (z J).p) ∧ Continuous (fun J => (z J).v) ∧ Continuous (fun J => (z J).a) := by
  induction i with
  | zero =>
    simp only [Spec.jerkTrajectory, Spec.cubic, hi, dite_true]
    refine ⟨?_, ?_, ?_⟩ <;> fun_prop
  | succ i ih =>
    obtain ⟨h1, h2, h3⟩ := ih (by omega)
    simp only [Spec.jerkTrajectory, Spec.cubic, hi, dite_true]
    refine ⟨?_, ?_, ?_⟩ <;> fun_prop

theorem horizon_agree {N : ℕ} (T : ℝ) (x : State3 ℝ) {J J' : ℕ → ℝ} (h : ∀ i < N, J i = J' i) (i : ℕ) (hi : i < N) :
    Spec.jerkTrajectory T T x J i = Spec.jerkTrajectory T T x J' i := by
  induction i with
  | zero => simp only [Spec.jerkTrajectory, h 0 hi]
  | succ i ih => simp only [Spec.jerkTrajectory, h _ hi, ih (by omega)]

theorem trajCost_agree {s : Spec.TrajSettings ℝ} (x : State3 ℝ) {J J' : ℕ → ℝ} (h : ∀ i < s.nbSamples, J i = J' i) :
    Spec.trajCost s x J = Spec.trajCost s x J' := by
  unfold Spec.trajCost
  have e1 : ∑ i ∈ range s.nbSamples, ((Spec.jerkTrajectory s.period s.period x J i).v - s.velRef.get i) ^ 2
      = ∑ i ∈ range s.nbSamples, ((Spec.jerkTrajectory s.period s.period x J' i).v - s.velRef.get i) ^ 2 :=
    sum_congr rfl fun i hi => by rw [horizon_agree _ _ h i (mem_range.1 hi)]
  have e2 : ∑ i ∈ range s.nbSamples, ((Spec.jerkTrajectory s.period s.period x J i).p - s.posRef.get i) ^ 2
      = ∑ i ∈ range s.nbSamples, ((Spec.jerkTrajectory s.period s.period x J' i).p - s.posRef.get i) ^ 2 :=
    sum_congr rfl fun i hi => by rw [horizon_agree _ _ h i (mem_range.1 hi)]
  have e3 : ∑ i ∈ range s.nbSamples, J i ^ 2 = ∑ i ∈ range s.nbSamples, J' i ^ 2 := sum_congr rfl fun i hi => by rw [h i (mem_range.1 hi)]
  rw [e1, e2, e3]

theorem trajCost_jerk {s : Spec.TrajSettings ℝ} (hj : 0 < s.weighting.jerkMinimization) (x : State3 ℝ) (J : ℕ → ℝ) {i : ℕ}
    (hi : i < s.nbSamples) : s.weighting.jerkMinimization / 2 * J i ^ 2 ≤ Spec.trajCost s x J := by
  unfold Spec.trajCost
  rw [max_eq_left hj.le]
  have h1 : J i ^ 2 ≤ ∑ i ∈ range s.nbSamples, J i ^ 2 := single_le_sum (f := fun i => J i ^ 2) (fun k _ => sq_nonneg _) (mem_range.2 hi)
  have h2 : 0 ≤ max s.weighting.velocityTracking 0 *
      ∑ i ∈ range s.nbSamples, ((Spec.jerkTrajectory s.period s.period x J i).v - s.velRef.get i) ^ 2 :=
    mul_nonneg (le_max_right _ _) (sum_nonneg fun k _ => sq_nonneg _)
  have h3 : 0 ≤ max s.weighting.positionTracking 0 *
      ∑ i ∈ range s.nbSamples, ((Spec.jerkTrajectory s.period s.period x J i).p - s.posRef.get i) ^ 2 :=
    mul_nonneg (le_max_right _ _) (sum_nonneg fun k _ => sq_nonneg _)
  have h4 := mul_le_mul_of_nonneg_left h1 hj.le
  linarith

/-- With a positive jerk weight some jerks minimise the documented cost. -/
theorem trajCost_attained {s : Spec.TrajSettings ℝ} (hj : 0 < s.weighting.jerkMinimization) (x : State3 ℝ) :
    ∃ J, ∀ J', Spec.trajCost s x J ≤ Spec.trajCost s x J' := by
  set ext : (Fin s.nbSamples → ℝ) → ℕ → ℝ := fun J k => if h : k < s.nbSamples then J ⟨k, h⟩ else 0 with hext
  set c0 := Spec.trajCost s x (fun _ => 0) with hc0
  set R := 2 * c0 / s.weighting.jerkMinimization + 1 with hR
  have hc0' : 0 ≤ c0 := trajCost_nonneg s x _
  have hR1 : 1 ≤ R := by rw [hR]; have : 0 ≤ 2 * c0 / s.weighting.jerkMinimization := by positivity
                         linarith
  have hcont : Continuous (fun J => Spec.trajCost s x (ext J)) := by
    unfold Spec.trajCost
    refine continuous_const.mul (((continuous_const.mul ?_).add (continuous_const.mul ?_)).add (continuous_const.mul ?_))
    · exact continuous_finsetSum _ fun i hi => ((jerkTrajectory_continuous s.period x i (mem_range.1 hi)).2.1.sub continuous_const).pow 2
    · exact continuous_finsetSum _ fun i hi => ((jerkTrajectory_continuous s.period x i (mem_range.1 hi)).1.sub continuous_const).pow 2
    · refine continuous_finsetSum _ fun i hi => ?_
      simp only [hext, mem_range.1 hi, dite_true]
      fun_prop
  have hcomp : IsCompact (Set.Icc (fun _ : Fin s.nbSamples => -R) (fun _ => R)) := isCompact_Icc
  obtain ⟨J, hJ, hmin⟩ := hcomp.exists_isMinOn ⟨fun _ => 0, fun _ => by linarith, fun _ => by linarith⟩ hcont.continuousOn
  refine ⟨ext J, fun J' => ?_⟩
  by_cases hin : ∀ i < s.nbSamples, |J' i| ≤ R
  · have := hmin (show (fun i : Fin s.nbSamples => J' i) ∈ Set.Icc (fun _ : Fin s.nbSamples => -R) (fun _ => R) from
      ⟨fun i => (abs_le.1 (hin i i.2)).1, fun i => (abs_le.1 (hin i i.2)).2⟩)
    refine this.trans (le_of_eq (trajCost_agree x fun i hi => ?_))
    simp [hext, hi]
  · push Not at hin
    obtain ⟨i, hi, hlt⟩ := hin
    have h0 := hmin (show (fun _ : Fin s.nbSamples => (0 : ℝ)) ∈ Set.Icc (fun _ : Fin s.nbSamples => -R) (fun _ => R) from
      ⟨fun i => by simp; linarith, fun i => by simp; linarith⟩)
    have e0 : Spec.trajCost s x (ext fun _ => 0) = c0 := trajCost_agree x fun i hi => by simp [hext]
    refine h0.trans ?_
    show Spec.trajCost s x (ext fun _ => 0) ≤ _
    rw [e0]
    refine le_trans ?_ (trajCost_jerk hj x J' hi)
    have h1 : R ≤ J' i ^ 2 := by rw [← sq_abs]; nlinarith
    have h2 : s.weighting.jerkMinimization / 2 * R = c0 + s.weighting.jerkMinimization / 2 := by rw [hR]; field_simp
    have h3 := mul_le_mul_of_nonneg_left h1 (by positivity : 0 ≤ s.weighting.jerkMinimization / 2)
    linarith

/-- Near the references the best jerks are small. -/
theorem optimal_near {s : Spec.TrajSettings ℝ} (hj : 0 < s.weighting.jerkMinimization) {D : State3 ℝ → ℝ} {C : ℝ} (hD : ∀ x, 0 ≤ D x)
    (h0 : ∀ x, Spec.trajCost s x (fun _ => 0) ≤ C * D x ^ 2) :
    ∃ L ≥ 0, ∀ x, ∃ J, (∀ J', Spec.trajCost s x J ≤ Spec.trajCost s x J') ∧ ∀ i < s.nbSamples, |J i| ≤ L * D x := by
  refine ⟨2 * |C| / s.weighting.jerkMinimization + 1, by positivity, fun x => ?_⟩
  obtain ⟨J, hJ⟩ := trajCost_attained hj x
  refine ⟨J, hJ, fun i hi => ?_⟩
  have h1 := (trajCost_jerk hj x J hi).trans ((hJ _).trans (h0 x))
  set q := 2 * |C| / s.weighting.jerkMinimization with hq
  have q0 : 0 ≤ q := by positivity
  have h2 : C ≤ s.weighting.jerkMinimization / 2 * q := by
    rw [hq]; field_simp; exact le_abs_self C
  have h3 : J i ^ 2 ≤ q * D x ^ 2 := by
    have := mul_le_mul_of_nonneg_right h2 (sq_nonneg (D x))
    have h4 : s.weighting.jerkMinimization / 2 * J i ^ 2 ≤ s.weighting.jerkMinimization / 2 * (q * D x ^ 2) := by linarith
    exact le_of_mul_le_mul_left h4 (by positivity)
  refine abs_le_of_sq_le_sq ?_ (mul_nonneg (by linarith) (hD x))
  have := sq_nonneg (D x)
  nlinarith [mul_nonneg q0 this, mul_nonneg (mul_nonneg q0 q0) this]

/-- As `horizon_speed` without jerks, with the position. -/
theorem horizon_rest {T : ℝ} (hT : 0 < T) (pr : ℝ) (x : State3 ℝ) (i : ℕ) :
    |(Spec.jerkTrajectory T T x (fun _ => 0) i).p - pr| + |(Spec.jerkTrajectory T T x (fun _ => 0) i).v| +
        |(Spec.jerkTrajectory T T x (fun _ => 0) i).a| ≤
      (2 + T + T ^ 2) ^ (i + 1) * (|x.p - pr| + |x.v| + |x.a|) := by
  have step : ∀ (y : State3 ℝ),
      |(Spec.cubic y 0 T).p - pr| + |(Spec.cubic y 0 T).v| + |(Spec.cubic y 0 T).a| ≤ (2 + T + T ^ 2) * (|y.p - pr| + |y.v| + |y.a|) := by
    intro y
    have e0 : |(Spec.cubic y 0 T).p - pr| ≤ |y.p - pr| + |y.v| * T + |y.a| * T ^ 2 / 2 := by
      have : (Spec.cubic y 0 T).p - pr = (y.p - pr) + y.v * T + y.a * T ^ 2 / 2 := by simp only [Spec.cubic]; ring
      rw [this]
      refine (abs_add_three _ _ _).trans (le_of_eq ?_)
      rw [abs_mul, abs_div, abs_mul, abs_of_pos hT, abs_of_pos (show 0 < T ^ 2 by positivity), abs_of_pos (two_pos : (0 : ℝ) < 2)]
    have e1 : |(Spec.cubic y 0 T).v| ≤ |y.v| + |y.a| * T := by
      have : (Spec.cubic y 0 T).v = y.v + y.a * T := by simp only [Spec.cubic]; ring
      rw [this]
      refine (abs_add_le _ _).trans (le_of_eq ?_)
      rw [abs_mul, abs_of_pos hT]
    have e2 : (Spec.cubic y 0 T).a = y.a := by simp only [Spec.cubic]; ring
    rw [e2]
    have k3 : 0 ≤ |y.v| := abs_nonneg _
    have k4 : 0 ≤ |y.a| := abs_nonneg _
    have k5 : 0 ≤ |y.p - pr| := abs_nonneg _
    have k6 : 0 ≤ (1 + T + T ^ 2) * |y.p - pr| := by positivity
    have k7 : 0 ≤ (1 + T ^ 2) * |y.v| := by positivity
    have k8 : 0 ≤ (1 + T ^ 2) * |y.a| := by positivity
    nlinarith
  induction i with
  | zero => rw [pow_succ, pow_zero, one_mul]; exact step x
  | succ i ih =>
    refine (step _).trans ?_
    rw [pow_succ (2 + T + T ^ 2) (i + 1), mul_comm ((2 + T + T ^ 2) ^ (i + 1)), mul_assoc]
    exact mul_le_mul_of_nonneg_left ih (by positivity)

/-- Without jerks the cost is small near the references. -/
theorem cost_near {s : Spec.TrajSettings ℝ} {D : State3 ℝ → ℝ} {Q : ℝ}
    (hv : ∀ x, ∀ i < s.nbSamples, max s.weighting.velocityTracking 0 *
      ((Spec.jerkTrajectory s.period s.period x (fun _ => 0) i).v - s.velRef.get i) ^ 2 ≤ max s.weighting.velocityTracking 0 * (Q * D x) ^ 2)
    (hp : ∀ x, ∀ i < s.nbSamples, max s.weighting.positionTracking 0 *
      ((Spec.jerkTrajectory s.period s.period x (fun _ => 0) i).p - s.posRef.get i) ^ 2 ≤ max s.weighting.positionTracking 0 * (Q * D x) ^ 2)
    (x : State3 ℝ) :
    Spec.trajCost s x (fun _ => 0) ≤
      1 / 2 * (s.nbSamples * (max s.weighting.velocityTracking 0 + max s.weighting.positionTracking 0) * Q ^ 2) * D x ^ 2 := by
  unfold Spec.trajCost
  have h1 := sum_le_sum fun i hi => hv x i (mem_range.1 hi)
  have h2 := sum_le_sum fun i hi => hp x i (mem_range.1 hi)
  rw [← mul_sum, sum_const, card_range, nsmul_eq_mul] at h1 h2
  have h3 : ∑ i ∈ range s.nbSamples, (0 : ℝ) ^ 2 = 0 := by simp
  rw [h3, mul_zero, add_zero]
  nlinarith

/-- What the states reached by `solve(fb)` have in common near the references. -/
def StepsBy (s : Spec.TrajSettings ℝ) (Near : ℝ → State3 ℝ → Prop) (r fb : ℝ) (F : State3 ℝ → State3 ℝ) : Prop :=
  ∀ (o : Oracle ℝ) (cs : List (TrajCall ℝ)) (w : TrajWalkgen ℝ), Spec.FindsSolution o → TrajReaches o cs w →
    settingsOf cs = s → (∀ i < s.nbSamples, |w.X.get i| ≤ MAXBOUND / 2) → Near r w.getState →
    ∃ w', TrajReaches o (cs ++ [.solve fb]) w' ∧ w'.getState = F w.getState ∧ ∀ i < s.nbSamples, |w'.X.get i| ≤ MAXBOUND / 2

/-- Near the references, the same states are reached with and without limits that leave room. -/
theorem steps_alike {s : Spec.TrajSettings ℝ} (hT : 0 < s.period) (hj : 0 < s.weighting.jerkMinimization) (hr : s.RefsCurrent)
    (room : s.Room vr) {Near : ℝ → State3 ℝ → Prop} {D : State3 ℝ → ℝ} {C : ℝ} (hD : ∀ x, |x.v - vr| + |x.a| ≤ D x)
    (hN : ∀ r x, Near r x → D x ≤ 3 * r) (h0 : ∀ x, Spec.trajCost s x (fun _ => 0) ≤ C * D x ^ 2) (hfb : 0 < fb) :
    ∃ r > 0, ∃ F, ∀ b, StepsBy (s.limited b) Near r fb F := by
  have hD0 : ∀ x, 0 ≤ D x := fun x => le_trans (by positivity) (hD x)
  obtain ⟨L, hL, hex⟩ := optimal_near hj hD0 h0
  choose J hJ hJL using hex
  have hM : (0 : ℝ) < MAXBOUND := by norm_num [MAXBOUND]
  set Q := (2 + s.period + s.period ^ 2) ^ s.nbSamples * (1 + L) with hQ
  have hQ0 : 0 < Q := by positivity
  set m := min (min (MAXBOUND / 2) s.jerkLimit) (min s.accLimit (s.velLimit - |vr|)) with hm
  have hm0 : 0 < m := lt_min (lt_min (by positivity) room.jerk) (lt_min room.acc (by linarith [room.vel]))
  refine ⟨m / (3 * (L + Q)), by positivity, fun x => Spec.cubic x (J x 0) fb, fun b => ?_⟩
  intro o cs w ho hw hs hX hn
  set x := w.getState with hx
  have d1 : (L + Q) * D x ≤ m := by
    have := hN _ _ hn
    have e : (L + Q) * (3 * (m / (3 * (L + Q)))) = m := by field_simp
    nlinarith [mul_le_mul_of_nonneg_left this (by positivity : 0 ≤ L + Q)]
  have d2 : L * D x ≤ m := by nlinarith [mul_nonneg hQ0.le (hD0 x)]
  have d3 : Q * D x ≤ m := by nlinarith [mul_nonneg hL (hD0 x)]
  have m1 : m ≤ MAXBOUND / 2 := (min_le_left _ _).trans (min_le_left _ _)
  have m2 : m ≤ s.jerkLimit := (min_le_left _ _).trans (min_le_right _ _)
  have m3 : m ≤ s.accLimit := (min_le_right _ _).trans (min_le_left _ _)
  have m4 : m ≤ s.velLimit - |vr| := (min_le_right _ _).trans (min_le_right _ _)
  have hlim : Spec.WithinLimits (s.limited b) x (J x) := by
    intro i hi
    have hi' : i < s.nbSamples := hi
    have h1 := horizon_speed hT vr x (hJL x) i hi'
    have B0 : 0 ≤ L * D x := mul_nonneg hL (hD0 x)
    have h2 : (2 + s.period + s.period ^ 2) ^ (i + 1) * (|x.v - vr| + |x.a| + L * D x) ≤ Q * D x := by
      rw [hQ]
      have a1 : (2 + s.period + s.period ^ 2) ^ (i + 1) ≤ (2 + s.period + s.period ^ 2) ^ s.nbSamples :=
        pow_le_pow_right₀ (by nlinarith) (by omega)
      have a2 : |x.v - vr| + |x.a| + L * D x ≤ (1 + L) * D x := by linarith [hD x]
      have a3 : 0 ≤ |x.v - vr| + |x.a| + L * D x := by positivity
      calc (2 + s.period + s.period ^ 2) ^ (i + 1) * (|x.v - vr| + |x.a| + L * D x)
          ≤ (2 + s.period + s.period ^ 2) ^ s.nbSamples * ((1 + L) * D x) := mul_le_mul a1 a2 a3 (by positivity)
        _ = _ := by ring
    have h3 := h1.trans (h2.trans d3)
    set z := Spec.jerkTrajectory s.period s.period x (J x) i with hz
    have n1 : 0 ≤ |z.v - vr| := abs_nonneg _
    have n2 : 0 ≤ |z.a| := abs_nonneg _
    refine ⟨?_, ?_, ?_⟩
    · show |z.v| ≤ s.velLimit
      have : |z.v| ≤ |z.v - vr| + |vr| := by
        have := abs_add_le (z.v - vr) vr
        rwa [sub_add_cancel] at this
      linarith
    · show |z.a| ≤ s.accLimit
      linarith
    · exact (hJL x i hi').trans (d2.trans m2)
  obtain ⟨w', e1, e2, e3⟩ := solve_within ho hw (by rw [hs]; exact hr) (by rw [hs]; exact hj) (J x)
    (by rw [hs]; exact hJ x) (by rw [hs]; exact hX) (by rw [hs]; exact fun i hi => (hJL x i hi).trans (d2.trans m1))
    (by rw [hs]; exact hlim) hfb
  rw [hs] at e3
  exact ⟨w', e1, e2, fun i hi => by rw [e3 i hi]; exact (hJL x i hi).trans (d2.trans m1)⟩

/-- A robot settles with respect to `Near` and `Lim`. -/
def SettlesGen (Near : ℝ → State3 ℝ → Prop) (Lim : (ℕ → State3 ℝ) → Prop) (fb : ℝ) (s : Spec.TrajSettings ℝ) : Prop :=
  ∀ e > 0, ∃ d > 0, ∀ (o : Oracle ℝ) (cs : List (TrajCall ℝ)) (w : TrajWalkgen ℝ), Spec.FindsSolution o → TrajReaches o cs w →
    settingsOf cs = s → (∀ i < s.nbSamples, |w.X.get i| ≤ d) → Near d w.getState →
    ∃ W : ℕ → TrajWalkgen ℝ, (∀ n, TrajReaches o (cs ++ List.replicate n (.solve fb)) (W n)) ∧
      (∀ n, Near e (W n).getState) ∧ Lim (fun n => (W n).getState)

/-- Switching the limits on or off changes neither the state nor the planned jerks. -/
theorem reaches_setConfig {o : Oracle ℝ} {cs : List (TrajCall ℝ)} {w : TrajWalkgen ℝ} (hw : TrajReaches o cs w) (b : Bool) :
    ∃ w', TrajReaches o (cs ++ [.setConfig b]) w' ∧ w'.X = w.X ∧ w'.getState = w.getState := by
  have h : TrajInv (settingsOf cs) w := reachable_inv hw
  obtain ⟨b', w', e, -⟩ := step_ok h o (.setConfig b) trivial
  have e' := e
  simp only [TrajWalkgen.step, bind_eq_ok] at e'
  obtain ⟨w2, e2, e3⟩ := e'
  obtain rfl : w2 = w' := (Prod.mk.inj (Except.ok.inj e3)).2
  refine ⟨w2, trajReaches_append.2 ⟨w, b', hw, e⟩, (computeConstantPart_X e2).trans rfl, ?_⟩
  unfold TrajWalkgen.getState
  rw [computeConstantPart_model e2]

theorem gen_transfer {s : Spec.TrajSettings ℝ} {Near : ℝ → State3 ℝ → Prop} {Lim : (ℕ → State3 ℝ) → Prop} {r fb : ℝ} (hr : 0 < r)
    {F : State3 ℝ → State3 ℝ} (mono : ∀ d e x, d ≤ e → Near d x → Near e x) (steps : ∀ b, StepsBy (s.limited b) Near r fb F) (b b' : Bool)
    (h : SettlesGen Near Lim fb (s.limited b)) : SettlesGen Near Lim fb (s.limited b') := by
  intro e he
  have hM : (0 : ℝ) < MAXBOUND := by norm_num [MAXBOUND]
  obtain ⟨d, hd, h⟩ := h (min e r) (lt_min he hr)
  refine ⟨min d (MAXBOUND / 2), lt_min hd (by positivity), ?_⟩
  intro o cs w ho hw hs hX hn
  obtain ⟨w1, hw1, hX1, hst1⟩ := reaches_setConfig hw b
  have hs1 : settingsOf (cs ++ [.setConfig b]) = s.limited b := by rw [settingsOf_append, hs]; rfl
  obtain ⟨W, hW, near, lim⟩ := h o _ w1 ho hw1 hs1 (fun i hi => by rw [hX1]; exact (hX i hi).trans (min_le_left _ _))
    (by rw [hst1]; exact mono _ _ _ (min_le_left _ _) hn)
  have unique : ∀ {cs' : List (TrajCall ℝ)} {u1 u2 : TrajWalkgen ℝ}, TrajReaches o cs' u1 → TrajReaches o cs' u2 → u1 = u2 := by
    intro cs' u1 u2 e1 e2
    unfold TrajReaches at e1 e2
    rw [e1] at e2
    exact Except.ok.inj e2
  have set : ∀ (cs' : List (TrajCall ℝ)) n, settingsOf (cs' ++ List.replicate n (.solve fb)) = settingsOf cs' := by
    intro cs' n
    induction n with
    | zero => simp
    | succ n ih => rw [← traj_snoc, settingsOf_solve]; exact ih
  have small : ∀ n, ∀ i < s.nbSamples, |(W n).X.get i| ≤ MAXBOUND / 2 := by
    intro n
    induction n with
    | zero =>
      rw [unique (hW 0) (by simpa using hw1), hX1]
      exact fun i hi => (hX i hi).trans (min_le_right _ _)
    | succ n ih =>
      obtain ⟨w2, p1, -, p3⟩ := steps b o _ (W n) ho (hW n) (by rw [set, hs1]) ih (mono _ _ _ (min_le_right _ _) (near n))
      rw [traj_snoc] at p1
      rw [unique (hW (n + 1)) p1]
      exact p3
  have next : ∀ n, (W (n + 1)).getState = F (W n).getState := by
    intro n
    obtain ⟨w2, p1, p2, -⟩ := steps b o _ (W n) ho (hW n) (by rw [set, hs1]) (small n) (mono _ _ _ (min_le_right _ _) (near n))
    rw [traj_snoc] at p1
    rw [unique (hW (n + 1)) p1]
    exact p2
  have hex : ∀ n, ∃ w', TrajReaches o (cs ++ List.replicate n (.solve fb)) w' ∧ w'.getState = (W n).getState ∧
      ∀ i < s.nbSamples, |w'.X.get i| ≤ MAXBOUND / 2 := by
    intro n
    induction n with
    | zero =>
      refine ⟨w, by simpa using hw, ?_, fun i hi => (hX i hi).trans (min_le_right _ _)⟩
      rw [unique (hW 0) (by simpa using hw1), hst1]
    | succ n ih =>
      obtain ⟨w', q1, q2, q3⟩ := ih
      obtain ⟨w2, p1, p2, p3⟩ := steps b' o _ w' ho q1 (by rw [set, hs]) q3 (by rw [q2]; exact mono _ _ _ (min_le_right _ _) (near n))
      rw [traj_snoc] at p1
      exact ⟨w2, p1, by rw [p2, q2, next], p3⟩
  choose V hV using hex
  have eV : (fun n => (V n).getState) = fun n => (W n).getState := funext fun n => (hV n).2.1
  refine ⟨V, fun n => (hV n).1, fun n => ?_, ?_⟩
  · rw [(hV n).2.1]; exact mono _ _ _ (min_le_left _ _) (near n)
  · rw [eV]; exact lim

end MPC
