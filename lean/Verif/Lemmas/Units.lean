import Verif.Spec.Units
import Verif.Lemmas.Recede
/-! # Units (C86) -/
set_option linter.unusedSectionVars false
namespace MPC
open Finset
variable {K : Type} [Field K] [LinearOrder K] [IsStrictOrderedRing K]
variable {u : Spec.Units K} {s : Spec.TrajSettings K}

theorem units_cubic (hu : u.Good) (x : State3 K) (j t : K) :
    Spec.cubic (u.state x) (u.jerk j) (u.time * t) = u.state (Spec.cubic x j t) := by
  have h := hu.time.ne'
  simp only [Spec.cubic, Spec.Units.state, Spec.Units.jerk, State3.mk.injEq]
  refine ⟨?_, ?_, ?_⟩ <;> field_simp
  all_goals ring

theorem units_trajectory (hu : u.Good) (S T : K) (x : State3 K) (J : ℕ → K) (i : ℕ) :
    Spec.jerkTrajectory (u.time * S) (u.time * T) (u.state x) (fun k => u.jerk (J k)) i
      = u.state (Spec.jerkTrajectory S T x J i) := by
  induction i with
  | zero => exact units_cubic hu _ _ _
  | succ i ih => simp only [Spec.jerkTrajectory, ih]; exact units_cubic hu _ _ _

theorem abs_scale {c x l : K} (hc : c ≠ 0) : |c * x| ≤ |c| * l ↔ |x| ≤ l := by
  rw [abs_mul]; exact mul_le_mul_iff_right₀ (abs_pos.2 hc)

theorem units_within (hu : u.Good) (x : State3 K) (J : ℕ → K) :
    Spec.WithinLimits (u.settings s) (u.state x) (fun k => u.jerk (J k)) ↔ Spec.WithinLimits s x J := by
  have h := hu.time.ne'
  have hl := hu.length
  unfold Spec.WithinLimits
  refine forall_congr' fun i => imp_congr_right fun _ => ?_
  simp only [Spec.Units.settings, units_trajectory hu]
  simp only [Spec.Units.state, Spec.Units.jerk]
  rw [abs_scale (div_ne_zero hl h), abs_scale (div_ne_zero hl (pow_ne_zero _ h)), abs_scale (div_ne_zero hl (pow_ne_zero _ h))]

theorem units_cost (hu : u.Good) (x : State3 K) (J : ℕ → K) :
    Spec.trajCost (u.settings s) (u.state x) (fun k => u.jerk (J k)) = u.scale * Spec.trajCost s x J := by
  have h := hu.time.ne'
  have hl := hu.length
  have hs := hu.scale.le
  unfold Spec.trajCost
  simp only [Spec.Units.settings, units_trajectory hu]
  simp only [Spec.Units.state, Spec.Units.jerk, Spec.Units.weighting, Spec.Units.velRef, Spec.Units.posRef]
  have m : ∀ a w : K, 0 ≤ a → max (a * w) 0 = a * max w 0 := fun a w ha => by
    rw [mul_max_of_nonneg _ _ ha, mul_zero]
  rw [m _ _ (by positivity), m _ _ (by positivity), m _ _ (by positivity)]
  have e1 : ∀ a b : K, (u.length / u.time * a - u.length / u.time * b) ^ 2 = (u.length / u.time) ^ 2 * (a - b) ^ 2 :=
    fun a b => by ring
  have e2 : ∀ a b : K, (u.length * a + u.origin - (u.length * b + u.origin)) ^ 2 = u.length ^ 2 * (a - b) ^ 2 :=
    fun a b => by ring
  simp only [e1, e2, mul_pow (u.length / u.time ^ 3), ← mul_sum]
  field_simp

/-- Every jerk is the conversion of one. -/
theorem units_jerk_surj (hu : u.Good) (j : K) : u.jerk (u.time ^ 3 / u.length * j) = j := by
  have h := hu.time.ne'
  have hl := hu.length
  unfold Spec.Units.jerk; field_simp

/-- The QPs of two generators that are in the same situation up to units. -/
theorem units_solution (hu : u.Good) {w w' : TrajWalkgen K} {qp qp' : QPMatrices K} (h : TrajInv s w)
    (h' : TrajInv (u.settings s) w') (hq : Prepared s w qp) (hq' : Prepared (u.settings s) w' qp') (hc : s.constrained = true)
    (hx : w'.model.state = u.state w.model.state) {d : ℕ → K} (hd : Spec.IsSolution qp d) :
    Spec.IsSolution qp' (fun i => u.jerk (w.X.get i + d i) - w'.X.get i) := by
  have hc' : (u.settings s).constrained = true := hc
  have ha : ∀ z : ℕ → K, (fun i => w'.X.get i + (z i - w'.X.get i)) = z := fun z => by funext i; ring
  refine isSolution_of_min h' hq' (fun i => u.jerk (w.X.get i + d i)) ?_ fun y hy => ?_
  · rw [prepared_feasible h' hq' hc', ha, hx, units_within hu]
    exact (prepared_feasible h hq hc d).1 hd.1
  · rw [prepared_feasible h' hq' hc', hx] at hy
    have e : (fun i => w'.X.get i + y i) = fun i => u.jerk (u.time ^ 3 / u.length * (w'.X.get i + y i)) := by
      funext i; rw [units_jerk_surj hu]
    rw [e] at hy ⊢
    rw [units_within hu] at hy
    rw [hx, units_cost hu, units_cost hu]
    apply mul_le_mul_of_nonneg_left _ hu.scale.le
    have b : (fun i => w.X.get i + (u.time ^ 3 / u.length * (w'.X.get i + y i) - w.X.get i))
        = fun i => u.time ^ 3 / u.length * (w'.X.get i + y i) := by funext i; ring
    have h3 := hd.2 (fun i => u.time ^ 3 / u.length * (w'.X.get i + y i) - w.X.get i)
      (by rw [prepared_feasible h hq hc, b]; exact hy)
    rw [prepared_cost h hq, prepared_cost h hq, b] at h3
    exact (sub_le_sub_iff_right _).1 h3

/-- A call in the other units sets the settings in the other units. -/
theorem units_apply (c : TrajCall K) : (u.settings s).apply (u.call c) = u.settings (s.apply c) := by
  cases c <;> rfl

theorem units_codePre (hu : u.Good) {c : TrajCall K} (h : CodePre s c) : CodePre (u.settings s) (u.call c) := by
  cases c with
  | setSamplingPeriod T => exact mul_pos hu.time h
  | setVelLimit l => exact mul_nonneg (abs_nonneg _) h
  | setAccLimit l => exact mul_nonneg (abs_nonneg _) h
  | setJerkLimit l => exact mul_nonneg (abs_nonneg _) h
  | setWeightings w =>
    have hs := hu.scale.le
    exact ⟨mul_nonneg (by positivity) h.1, mul_nonneg (by positivity) h.2⟩
  | solve fb => exact ⟨mul_pos hu.time h.1, h.2⟩
  | _ => exact h

/-- What the setters do to the state. -/
theorem setter_state {w w' : TrajWalkgen K} {o : Oracle K} {c : TrajCall K} {b : Bool} (h : TrajInv s w)
    (e : w.step o c = .ok (b, w')) :
    match c with
    | .solve _ => True
    | .setState v => w'.getState = ⟨v.get 0, v.get 1, v.get 2⟩
    | _ => w'.getState = w.getState := by
  cases c with
  | solve fb => trivial
  | setNbSamples n =>
    obtain ⟨w1, e1, -, h1, -⟩ := setNbSamples_inv h (codePre_of_ok h o _ e) o
    rw [e] at e1; cases e1; exact h1
  | setSamplingPeriod T =>
    obtain ⟨w1, e1, -, h1, -⟩ := setSamplingPeriod_inv h (codePre_of_ok h o _ e) o
    rw [e] at e1; cases e1; exact h1
  | setWeightings wt =>
    simp only [TrajWalkgen.step, bind_eq_ok, res_pure, Except.ok.injEq, Prod.mk.injEq] at e
    obtain ⟨_, _, _, _, _, _, w1, e1, _, e2⟩ := e
    subst e2
    have := computeConstantPart_model e1
    dsimp only
    rw [TrajWalkgen.getState, this]; rfl
  | setConfig c =>
    simp only [TrajWalkgen.step, bind_eq_ok, res_pure, Except.ok.injEq, Prod.mk.injEq] at e
    obtain ⟨w1, e1, _, e2⟩ := e
    subst e2
    have := computeConstantPart_model e1
    dsimp only
    rw [TrajWalkgen.getState, this]; rfl
  | _ =>
    simp only [TrajWalkgen.step, bind_eq_ok, res_pure, Except.ok.injEq, Prod.mk.injEq] at e
    obtain ⟨_, _, _, rfl⟩ := e; rfl

end MPC
