import Verif.Spec.Superpose
import Verif.Lemmas.Units
import Verif.Lemmas.Recede

/-! # Superposition (C91) -/

set_option linter.unusedSectionVars false

namespace MPC
open Finset

variable {K : Type} [Field K] [LinearOrder K] [IsStrictOrderedRing K]

theorem combine_cubic (a b : K) (x y : State3 K) (j k t : K) :
    Spec.cubic (Spec.superpose a b x y) (a * j + b * k) t = Spec.superpose a b (Spec.cubic x j t) (Spec.cubic y k t) := by
  simp only [Spec.cubic, Spec.superpose, State3.mk.injEq]
  exact ⟨by ring, by ring, by ring⟩

theorem combine_trajectory (a b S T : K) (x y : State3 K) (J L : ℕ → K) (i : ℕ) :
    Spec.jerkTrajectory S T (Spec.superpose a b x y) (fun k => a * J k + b * L k) i
      = Spec.superpose a b (Spec.jerkTrajectory S T x J i) (Spec.jerkTrajectory S T y L i) := by
  induction i with
  | zero => exact combine_cubic ..
  | succ i ih => simp only [Spec.jerkTrajectory]; rw [ih]; exact combine_cubic ..

/-- The motion of the jerks `d` from rest at the origin. -/
def fromRest (T : K) (d : ℕ → K) (i : ℕ) : State3 K := Spec.jerkTrajectory T T ⟨0, 0, 0⟩ d i

theorem trajectory_add (T : K) (x : State3 K) (J d : ℕ → K) (t : K) (i : ℕ) :
    Spec.jerkTrajectory T T x (fun k => J k + t * d k) i
      = Spec.superpose 1 t (Spec.jerkTrajectory T T x J i) (fromRest T d i) := by
  have := combine_trajectory 1 t T T x ⟨0, 0, 0⟩ J d i
  unfold fromRest
  rw [← this]
  simp [Spec.superpose]

/-- The slope of the cost at the jerks `J` in the direction `d`. -/
def trajSlope (s : Spec.TrajSettings K) (x : State3 K) (J d : ℕ → K) : K :=
  max s.weighting.velocityTracking 0 * ∑ i ∈ range s.nbSamples,
      ((Spec.jerkTrajectory s.period s.period x J i).v - s.velRef.get i) * (fromRest s.period d i).v
    + max s.weighting.positionTracking 0 * ∑ i ∈ range s.nbSamples,
      ((Spec.jerkTrajectory s.period s.period x J i).p - s.posRef.get i) * (fromRest s.period d i).p
    + max s.weighting.jerkMinimization 0 * ∑ i ∈ range s.nbSamples, J i * d i

/-- The curvature of the cost in the direction `d`. -/
def trajCurve (s : Spec.TrajSettings K) (d : ℕ → K) : K :=
  1 / 2 * (max s.weighting.velocityTracking 0 * ∑ i ∈ range s.nbSamples, (fromRest s.period d i).v ^ 2
    + max s.weighting.positionTracking 0 * ∑ i ∈ range s.nbSamples, (fromRest s.period d i).p ^ 2
    + max s.weighting.jerkMinimization 0 * ∑ i ∈ range s.nbSamples, d i ^ 2)

theorem trajCurve_nonneg (s : Spec.TrajSettings K) (d : ℕ → K) : 0 ≤ trajCurve s d := by
  unfold trajCurve
  have h1 : (0 : K) ≤ max s.weighting.velocityTracking 0 := le_max_right _ _
  have h2 : (0 : K) ≤ max s.weighting.positionTracking 0 := le_max_right _ _
  have h3 : (0 : K) ≤ max s.weighting.jerkMinimization 0 := le_max_right _ _
  have h4 : ∀ f : ℕ → K, 0 ≤ ∑ i ∈ range s.nbSamples, f i ^ 2 := fun f => sum_nonneg fun i _ => sq_nonneg _
  have := mul_nonneg h1 (h4 fun i => (fromRest s.period d i).v)
  have := mul_nonneg h2 (h4 fun i => (fromRest s.period d i).p)
  have := mul_nonneg h3 (h4 d)
  linarith

theorem trajCost_line (s : Spec.TrajSettings K) (x : State3 K) (J d : ℕ → K) (t : K) :
    Spec.trajCost s x (fun k => J k + t * d k) = Spec.trajCost s x J + t * trajSlope s x J d + t ^ 2 * trajCurve s d := by
  have key : ∀ f g : ℕ → K, ∑ i ∈ range s.nbSamples, (f i + t * g i) ^ 2
      = ∑ i ∈ range s.nbSamples, f i ^ 2 + 2 * t * ∑ i ∈ range s.nbSamples, f i * g i
        + t ^ 2 * ∑ i ∈ range s.nbSamples, g i ^ 2 := by
    intro f g
    rw [mul_sum, mul_sum, ← sum_add_distrib, ← sum_add_distrib]
    exact sum_congr rfl fun i _ => by ring
  have e1 : ∀ i, (Spec.jerkTrajectory s.period s.period x (fun k => J k + t * d k) i).v - s.velRef.get i
      = ((Spec.jerkTrajectory s.period s.period x J i).v - s.velRef.get i) + t * (fromRest s.period d i).v := by
    intro i; rw [trajectory_add]; simp only [Spec.superpose]; ring
  have e2 : ∀ i, (Spec.jerkTrajectory s.period s.period x (fun k => J k + t * d k) i).p - s.posRef.get i
      = ((Spec.jerkTrajectory s.period s.period x J i).p - s.posRef.get i) + t * (fromRest s.period d i).p := by
    intro i; rw [trajectory_add]; simp only [Spec.superpose]; ring
  unfold Spec.trajCost trajSlope trajCurve
  simp only [e1, e2, key]
  ring

/-- Jerks without slope are the best ones. -/
theorem trajCost_least {s : Spec.TrajSettings K} {x : State3 K} {J : ℕ → K} (h : ∀ d, trajSlope s x J d = 0) (L : ℕ → K) :
    Spec.trajCost s x J ≤ Spec.trajCost s x L := by
  have e := trajCost_line s x J (fun k => L k - J k) 1
  have : (fun k => J k + 1 * (L k - J k)) = L := by funext k; ring
  rw [this, h] at e
  have := trajCurve_nonneg s fun k => L k - J k
  rw [e]
  linarith

/-- The best jerks of a neighbourhood have no slope. -/
theorem slope_zero {s : Spec.TrajSettings K} {x : State3 K} {J : ℕ → K} {e : K} (he : 0 < e)
    (h : ∀ L : ℕ → K, (∀ i < s.nbSamples, |L i - J i| ≤ e) → Spec.trajCost s x J ≤ Spec.trajCost s x L) (d : ℕ → K) :
    trajSlope s x J d = 0 := by
  set g := trajSlope s x J d
  set q := trajCurve s d with hq
  have hq0 : 0 ≤ q := trajCurve_nonneg s d
  set M := ∑ i ∈ range s.nbSamples, |d i| with hM
  have hM0 : 0 ≤ M := sum_nonneg fun i _ => abs_nonneg _
  set D := 1 + q + |g| * M / e with hD
  have hg0 : 0 ≤ |g| * M / e := by positivity
  have hD0 : 0 < D := by linarith
  have hle := h (fun k => J k + (-g / D) * d k) (fun i hi => by
    have h1 : |d i| ≤ M := single_le_sum (f := fun i => |d i|) (fun i _ => abs_nonneg _) (mem_range.2 hi)
    rw [add_sub_cancel_left, abs_mul, abs_div, abs_neg, abs_of_pos hD0]
    calc |g| / D * |d i| ≤ |g| / D * M := by gcongr
      _ = (|g| * M / e) / D * e := by field_simp
      _ ≤ 1 * e := by
        gcongr
        rw [div_le_one hD0]
        linarith
      _ = e := one_mul e)
  rw [trajCost_line, ← hq] at hle
  have h2 : 0 ≤ -g / D * g + (-g / D) ^ 2 * q := by linarith
  have h3 : -g / D * g + (-g / D) ^ 2 * q = -(g ^ 2 * ((D - q) / D ^ 2)) := by field_simp; ring
  rw [h3] at h2
  have h4 : 0 < (D - q) / D ^ 2 := div_pos (by linarith) (by positivity)
  have h5 : g ^ 2 ≤ 0 := by
    by_contra hc
    push Not at hc
    have := mul_pos hc h4
    linarith
  exact pow_eq_zero_iff two_ne_zero |>.1 (le_antisymm h5 (sq_nonneg g))

theorem slope_combine {a b : K} {s₁ s₂ s₃ : Spec.TrajSettings K} (hs : Spec.SuperSettings a b s₁ s₂ s₃) (hr : s₁.RefsCurrent)
    (x y : State3 K) (J L d : ℕ → K) :
    trajSlope s₃ (Spec.superpose a b x y) (fun k => a * J k + b * L k) d = a * trajSlope s₁ x J d + b * trajSlope s₂ y L d := by
  have e1 : ∀ i ∈ range s₁.nbSamples, s₃.velRef.get i = a * s₁.velRef.get i + b * s₂.velRef.get i := fun i hi =>
    hs.velRef.get i (by rw [hr.1]; exact mem_range.1 hi)
  have e2 : ∀ i ∈ range s₁.nbSamples, s₃.posRef.get i = a * s₁.posRef.get i + b * s₂.posRef.get i := fun i hi =>
    hs.posRef.get i (by rw [hr.2]; exact mem_range.1 hi)
  unfold trajSlope
  rw [hs.N₂, hs.N₃, hs.T₂, hs.T₃, hs.weighting₂, hs.weighting₃]
  have k1 : ∑ i ∈ range s₁.nbSamples, ((Spec.jerkTrajectory s₁.period s₁.period (Spec.superpose a b x y)
        (fun k => a * J k + b * L k) i).v - s₃.velRef.get i) * (fromRest s₁.period d i).v
      = a * ∑ i ∈ range s₁.nbSamples, ((Spec.jerkTrajectory s₁.period s₁.period x J i).v - s₁.velRef.get i) * (fromRest s₁.period d i).v
      + b * ∑ i ∈ range s₁.nbSamples, ((Spec.jerkTrajectory s₁.period s₁.period y L i).v - s₂.velRef.get i)
        * (fromRest s₁.period d i).v := by
    rw [mul_sum, mul_sum, ← sum_add_distrib]
    refine sum_congr rfl fun i hi => ?_
    rw [combine_trajectory, e1 i hi]
    simp only [Spec.superpose]
    ring
  have k2 : ∑ i ∈ range s₁.nbSamples, ((Spec.jerkTrajectory s₁.period s₁.period (Spec.superpose a b x y)
        (fun k => a * J k + b * L k) i).p - s₃.posRef.get i) * (fromRest s₁.period d i).p
      = a * ∑ i ∈ range s₁.nbSamples, ((Spec.jerkTrajectory s₁.period s₁.period x J i).p - s₁.posRef.get i) * (fromRest s₁.period d i).p
      + b * ∑ i ∈ range s₁.nbSamples, ((Spec.jerkTrajectory s₁.period s₁.period y L i).p - s₂.posRef.get i)
        * (fromRest s₁.period d i).p := by
    rw [mul_sum, mul_sum, ← sum_add_distrib]
    refine sum_congr rfl fun i hi => ?_
    rw [combine_trajectory, e2 i hi]
    simp only [Spec.superpose]
    ring
  have k3 : ∑ i ∈ range s₁.nbSamples, (a * J i + b * L i) * d i
      = a * ∑ i ∈ range s₁.nbSamples, J i * d i + b * ∑ i ∈ range s₁.nbSamples, L i * d i := by
    rw [mul_sum, mul_sum, ← sum_add_distrib]
    exact sum_congr rfl fun i _ => by ring
  rw [k1, k2, k3]
  ring

/-- Plans that do not reach the bounds of the QP have no slope. -/
theorem solved_slope {s : Spec.TrajSettings K} {w : TrajWalkgen K} {qp : QPMatrices K} {o : Oracle K} {fb B : K} (h : TrajInv s w)
    (hq : Prepared s w qp) (hc : s.constrained = false) (hsol : Spec.IsSolution qp (o w.solver.calls qp 10000).2)
    (hB : 2 * B < MAXBOUND) (hX : ∀ i < s.nbSamples, |w.X.get i| ≤ B)
    (hX' : ∀ i < s.nbSamples, |(solveResult o w qp fb).X.get i| ≤ B) (d : ℕ → K) :
    trajSlope s w.model.state (solveResult o w qp fb).X.get d = 0 := by
  have hcong : ∀ (J L : ℕ → K), (∀ i < s.nbSamples, J i = L i) → Spec.trajCost s w.model.state J = Spec.trajCost s w.model.state L := by
    intro J L hJL
    have ht : ∀ i < s.nbSamples, Spec.jerkTrajectory s.period s.period w.model.state J i
        = Spec.jerkTrajectory s.period s.period w.model.state L i := by
      intro i
      induction i with
      | zero => intro hi; simp only [Spec.jerkTrajectory, hJL 0 hi]
      | succ i ih => intro hi; simp only [Spec.jerkTrajectory, hJL _ hi]; rw [ih (by omega)]
    have e1 : ∑ i ∈ range s.nbSamples, ((Spec.jerkTrajectory s.period s.period w.model.state J i).v - s.velRef.get i) ^ 2
        = ∑ i ∈ range s.nbSamples, ((Spec.jerkTrajectory s.period s.period w.model.state L i).v - s.velRef.get i) ^ 2 :=
      sum_congr rfl fun i hi => by rw [ht i (mem_range.1 hi)]
    have e2 : ∑ i ∈ range s.nbSamples, ((Spec.jerkTrajectory s.period s.period w.model.state J i).p - s.posRef.get i) ^ 2
        = ∑ i ∈ range s.nbSamples, ((Spec.jerkTrajectory s.period s.period w.model.state L i).p - s.posRef.get i) ^ 2 :=
      sum_congr rfl fun i hi => by rw [ht i (mem_range.1 hi)]
    have e3 : ∑ i ∈ range s.nbSamples, J i ^ 2 = ∑ i ∈ range s.nbSamples, L i ^ 2 :=
      sum_congr rfl fun i hi => by rw [hJL i (mem_range.1 hi)]
    unfold Spec.trajCost
    rw [e1, e2, e3]
  have he : ∀ i < s.nbSamples, (solveResult o w qp fb).X.get i = w.X.get i + (o w.solver.calls qp 10000).2 i := by
    intro i hi
    have hi' : i < w.solver.nbVar := by rw [h.nbVar]; exact hi
    simp only [solveResult, hi', if_true]
  refine slope_zero (e := MAXBOUND - 2 * B) (by linarith) (fun L hL => ?_) d
  have h1 := hsol.2 (fun i => L i - w.X.get i) ((prepared_free hq hc _).2 fun i hi => by
    have h2 := hL i hi
    have h3 := hX i hi
    have h4 := hX' i hi
    rw [abs_le] at *
    constructor <;> linarith)
  rw [prepared_cost h hq, prepared_cost h hq] at h1
  rw [hcong _ _ he]
  have : (fun i => w.X.get i + (L i - w.X.get i)) = L := by funext i; ring
  rw [this] at h1
  linarith

theorem computeConstantPart_plan {w w' : TrajWalkgen K} (e : w.computeConstantPart = .ok w') : w'.X = w.X := by
  cases hb : w.withMotionConstraints
  · simp only [TrajWalkgen.computeConstantPart, hb, bind_eq_ok, res_pure, Except.ok.injEq,
      Bool.false_eq_true, if_false] at e
    obtain ⟨_, _, _, _, _, _, _, _, _, _, _, _, _, _, _, _, _, _, _, _, _, _, rfl⟩ := e
    rfl
  · simp only [TrajWalkgen.computeConstantPart, hb, bind_eq_ok, res_pure, Except.ok.injEq,
      if_true] at e
    obtain ⟨_, _, _, _, _, _, _, _, _, _, _, _, _, _, _, _, _, _, _, _, _, _, _, _, rfl⟩ := e
    rfl

/-- What the setters do to the plan. -/
theorem setter_plan {s : Spec.TrajSettings K} {w w' : TrajWalkgen K} {o : Oracle K} {c : TrajCall K} {b : Bool} (h : TrajInv s w)
    (e : w.step o c = .ok (b, w')) :
    match c with
    | .solve _ => True
    | .setNbSamples n => w'.X = Vec.const n 0
    | _ => w'.X = w.X := by
  cases c with
  | solve fb => trivial
  | setNbSamples n =>
    obtain ⟨w1, e1, -, -, h1⟩ := setNbSamples_inv h (codePre_of_ok h o _ e) o
    rw [e] at e1; cases e1; exact h1
  | setSamplingPeriod T =>
    obtain ⟨w1, e1, -, -, h1⟩ := setSamplingPeriod_inv h (codePre_of_ok h o _ e) o
    rw [e] at e1; cases e1; exact h1
  | setWeightings wt =>
    simp only [TrajWalkgen.step, bind_eq_ok, res_pure, Except.ok.injEq, Prod.mk.injEq] at e
    obtain ⟨_, _, _, _, _, _, w1, e1, _, e2⟩ := e
    subst e2
    have := computeConstantPart_plan e1
    dsimp only
    rw [this]
  | setConfig c =>
    simp only [TrajWalkgen.step, bind_eq_ok, res_pure, Except.ok.injEq, Prod.mk.injEq] at e
    obtain ⟨w1, e1, _, e2⟩ := e
    subst e2
    have := computeConstantPart_plan e1
    dsimp only
    rw [this]
  | _ =>
    simp only [TrajWalkgen.step, bind_eq_ok, res_pure, Except.ok.injEq, Prod.mk.injEq] at e
    obtain ⟨_, _, _, rfl⟩ := e; rfl

/-- A generator just constructed is at rest. -/
theorem make_rest {w : TrajWalkgen K} (e : TrajWalkgen.make = .ok w) : w.getState = ⟨0, 0, 0⟩ ∧ w.X = Vec.const 1 0 := by
  unfold TrajWalkgen.make NoDynamicModel.make at e
  rw [computeDynamics_ok _ (by exact Nat.one_pos) (by exact one_pos)] at e
  simp only [ok_bind] at e
  obtain ⟨w1, e1, h1, h2, h3⟩ := refreshFunctions_inv (s := Spec.TrajSettings.init (K := K))
    (w :=
      { solver := SolverState.make 1 1
        model :=
          { nbSamples := 1, samplingPeriod := 1, state := ⟨0, 0, 0⟩, velocityLimit := 1
            accelerationLimit := 1, jerkLimit := 1, pos := posDyn 1 1 1, vel := velDyn 1 1 1
            acc := accDyn 1 1 1, jerk := computeJerkDynamic 1 }
        jerkHessian := Mat.zero 1 1
        velObj := ⟨Vec.const 1 0, Mat.zero 1 1⟩
        posObj := ⟨Vec.const 1 0, Mat.zero 1 1⟩
        motion := ⟨Mat.zero 1 1, 1⟩
        weighting := ⟨0, 0, 0⟩
        withMotionConstraints := false
        dX := Vec.const 1 0
        X := Vec.const 1 0
        qp := ⟨Mat.zero 0 0, Vec.const 0 0, Vec.const 0 0, Vec.const 0 0, Mat.zero 0 0,
          Vec.const 0 0, Vec.const 0 0⟩ })
    ⟨Nat.one_pos, one_pos, rfl, rfl, rfl, rfl, rfl, rfl, rfl, rfl, rfl, rfl, rfl, rfl, rfl, rfl⟩
  rw [e1, ok_bind] at e
  constructor
  · rw [TrajWalkgen.getState, computeConstantPart_model e, h2]
  · rw [computeConstantPart_plan e, h3]

/-- Calls that differ by superposed references only lead to such settings. -/
theorem superSettings {a b : K} {cs₁ cs₂ cs₃ : List (TrajCall K)} (h : Spec.SuperCalls a b cs₁ cs₂ cs₃) :
    Spec.SuperSettings a b (Spec.TrajSettings.init.after cs₁) (Spec.TrajSettings.init.after cs₂)
      (Spec.TrajSettings.init.after cs₃) := by
  have happ : ∀ (as : List (TrajCall K)) c, Spec.TrajSettings.init.after (as ++ [c]) = (Spec.TrajSettings.init.after as).apply c :=
    fun as c => by simp [Spec.TrajSettings.after]
  induction h with
  | nil =>
    refine ⟨rfl, rfl, rfl, rfl, rfl, rfl, rfl, rfl, rfl, ⟨rfl, rfl, ?_⟩, ⟨rfl, rfl, ?_⟩⟩ <;>
      · intro i hi
        simp [Spec.TrajSettings.after, Spec.TrajSettings.init, Vec.const]
  | setVelRef hv _ ih =>
    rw [happ, happ, happ]
    exact ⟨ih.1, ih.2, ih.3, ih.4, ih.5, ih.6, ih.7, ih.8, ih.9, hv, ih.11⟩
  | setPosRef hv _ ih =>
    rw [happ, happ, happ]
    exact ⟨ih.1, ih.2, ih.3, ih.4, ih.5, ih.6, ih.7, ih.8, ih.9, ih.10, hv⟩
  | setNbSamples n _ ih =>
    rw [happ, happ, happ]
    exact ⟨rfl, rfl, ih.3, ih.4, ih.5, ih.6, ih.7, ih.8, ih.9, ih.10, ih.11⟩
  | setSamplingPeriod T _ ih =>
    rw [happ, happ, happ]
    exact ⟨ih.1, ih.2, rfl, rfl, ih.5, ih.6, ih.7, ih.8, ih.9, ih.10, ih.11⟩
  | setWeightings n _ ih =>
    rw [happ, happ, happ]
    exact ⟨ih.1, ih.2, ih.3, ih.4, rfl, rfl, ih.7, ih.8, ih.9, ih.10, ih.11⟩
  | setConfig _ ih =>
    rw [happ, happ, happ]
    exact ⟨ih.1, ih.2, ih.3, ih.4, ih.5, ih.6, rfl, rfl, rfl, ih.10, ih.11⟩
  | _ =>
    rename_i ih
    rw [happ, happ, happ]
    exact ⟨ih.1, ih.2, ih.3, ih.4, ih.5, ih.6, ih.7, ih.8, ih.9, ih.10, ih.11⟩

end MPC
