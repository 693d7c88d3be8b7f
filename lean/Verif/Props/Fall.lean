import Verif.Lemmas.Fall
import Mathlib.Algebra.Order.CompleteField
import Mathlib.Topology.Order.IntermediateValue
import Mathlib.Analysis.SpecificLimits.Basic

/-! # C90: the CoM of a standing robot returns above its feet -/

set_option linter.unusedSectionVars false

namespace MPC
open Finset

variable {K : Type} [Field K] [LinearOrder K] [IsStrictOrderedRing K] [FloorRing K]

/-- With one sample, and no sampling period or height that is out of reason, no coefficient is erased. -/
theorem exactCop_one {w : HWalkgen K} (hN : w.lip.N = 1) (hT' : w.lip.T ≤ 10) (hh : |w.lip.comHeight| ≤ 1000) :
    Spec.ExactCop w := by
  intro d B hd hB
  rw [hN] at hd ⊢
  obtain ⟨h1, h2, h3, -, -, -, -, rfl⟩ := computeCopDynamic_eq_ok hd
  have hst := copDyn_stored hB
  obtain ⟨Bs, e1, e2⟩ := C09_exact_partial 1 _ hst (fun B' hB' i hi j hj => by
    obtain rfl : i = 0 := by omega
    obtain rfl : j = 0 := by omega
    right
    obtain ⟨r1, r2, r3, r4, ⟨P, hP, hPs⟩, -⟩ := hB'
    rw [Mat.mul?_ok (by rw [r2, r3])] at hP
    obtain rfl := Except.ok.inj hP
    have h0 := hPs.2.2 0 (by simp [copDyn]) 0 (by simp [r4])
    rw [r2] at h0
    simp only [sum_range_succ, sum_range_zero, zero_add, copDyn, div_one, Mat.one, if_true] at h0
    have hm := copU_modest (S := w.lip.T) (T := w.lip.T) (h := w.lip.comHeight) h1 (by have := EPS_pos (K := K); linarith) h1 hT' hh 0
    have hB0 : |copU w.lip.T w.lip.T w.lip.comHeight GRAVITY_NORM 1 0 0| * |B'.get 0 0| = 1 := by
      rw [← abs_mul, h0, abs_one]
    calc EPS = EPS * |copU w.lip.T w.lip.T w.lip.comHeight GRAVITY_NORM 1 0 0| * |B'.get 0 0| := by rw [mul_assoc, hB0, mul_one]
      _ ≤ 1 * |B'.get 0 0| := mul_le_mul_of_nonneg_right hm (abs_nonneg _)
      _ = _ := one_mul _)
  rw [hB] at e1
  cases e1
  exact e2

/-! ### Only the CoP is centred -/

/-- C90 is violated when only the CoP is centred, for any number of samples and with or without the CoP constraint: the CoP
stays in the middle of the feet, and the distance of the CoM grows exponentially if `T² g < 6 h`. -/
theorem C90_falls_centring [Archimedean K] (hull : Vec (Pt K) → Res (Polygon K)) (o : Oracle K) (w : HWalkgen K)
    (h : Spec.Stands hull w) (he : Spec.ExactCop w) (hT : 20 * EPS ≤ w.lip.T)
    (hlow : w.lip.T ^ 2 * GRAVITY_NORM < 6 * w.lip.comHeight) (hc : 0 < w.weighting.copCentering)
    (hv : w.weighting.velocityTracking ≤ 0) (hj : w.weighting.jerkMinimization ≤ 0)
    (hin : w.withCop = true → ∀ q g, Spec.IsUnion w.sup ⟨w.sup.left.x.state.p, w.sup.left.y.state.p⟩
      ⟨w.sup.right.x.state.p, w.sup.right.y.state.p⟩ (Spec.midFeet w.sup) q → hull q = .ok g →
      Spec.SatisfiesConstraints g ⟨0, 0⟩) (hX : ∀ i < 2 * w.lip.N, w.X.get i = 0)
    (ho : ∀ n qp it, w.calls ≤ n → (∃ d, Spec.IsSolution qp d) → Spec.IsSolution qp (o n qp it).2)
    (hp : 0 < (Spec.comX w).p) (hpv : 0 ≤ (Spec.comX w).v) (hpa : 0 ≤ (Spec.comX w).a) (n : ℕ) :
    ∃ w2, w.run hull o (Spec.standCalls w n) = .ok w2 ∧ w2.sup.left = w.sup.left ∧ w2.sup.right = w.sup.right ∧
      (Spec.comX w).p * (6 * w.lip.comHeight / (6 * w.lip.comHeight - GRAVITY_NORM * w.lip.T ^ 2)) ^ n ≤ (Spec.comX w2).p := by
  have hE : (0 : K) < EPS := EPS_pos
  have hT0 : 0 < w.lip.T := by linarith
  have hG : (0 : K) < GRAVITY_NORM := by unfold GRAVITY_NORM; norm_num
  have hh : 0 < w.lip.comHeight := by nlinarith [mul_pos (pow_pos hT0 2) hG]
  have hD : 0 < 6 * w.lip.comHeight - GRAVITY_NORM * w.lip.T ^ 2 := by linarith
  set r := 6 * w.lip.comHeight / (6 * w.lip.comHeight - GRAVITY_NORM * w.lip.T ^ 2) with hr
  have hr0 : 0 < r := div_pos (by linarith) hD
  obtain ⟨w2, e, -, a, -, hP⟩ := Stands.runs (P := fun n w1 => (∀ i < 2 * w1.lip.N, w1.X.get i = 0) ∧
      (Spec.comX w).p * r ^ n ≤ (Spec.comX w1).p ∧ 0 ≤ (Spec.comX w1).v ∧ 0 ≤ (Spec.comX w1).a) (o := o) h
    ⟨hX, by simp, hpv, hpa⟩ (fun n w1 w2 b e1 s1 a1 c1 p1 e2 a2 => by
      obtain ⟨q1, q2, q3, q4⟩ := p1
      have hmid := a1.mid
      have hzero := Stands.centred s1 (by rw [a1.T]; exact hT) (by rw [a1.weighting]; exact hc)
        (by rw [a1.weighting]; exact hv) (by rw [a1.weighting]; exact hj)
        (fun hw q g hq hg => hin (by rw [← a1.withCop]; exact hw) q g (by
          rw [← a1.left, ← a1.right]
          rw [hmid] at hq
          simpa only [Spec.IsUnion, a1.left, a1.right] using hq) hg) q1 (fun qp it hd => ho _ qp it (by omega) hd) e2
      obtain ⟨⟨j, hc1⟩, -, z, -⟩ := Stands.cop s1 (a1.exactCop he) e2
      have hN0 : 0 < w1.lip.N := by
        by_contra h0
        have h0 : w1.lip.N = 0 := by omega
        obtain ⟨p, hp, e⟩ := s1.usable.grid.step
        have h1 := s1.usable.grid.horizon
        rw [s1.history.inv.N, h0, e, Nat.cast_zero, zero_mul] at h1
        have h2 : (0 : K) < p * w1.lip.T := mul_pos (by exact_mod_cast hp) (by rw [a1.T]; exact hT0)
        linarith
      rw [hzero 0 (by omega), a1.height, hc1, a1.T] at z
      refine ⟨by rw [a2.N]; exact hzero, ?_⟩
      rw [hc1, a1.T]
      have hp1 : 0 < (Spec.comX w1).p := lt_of_lt_of_le (by positivity) q2
      generalize Spec.comX w1 = x at *
      simp only [Spec.cubic] at z ⊢
      set p' := x.p + x.v * w.lip.T + x.a * w.lip.T ^ 2 / 2 + j * w.lip.T ^ 3 / 6 with hp'
      have ha' : x.a + j * w.lip.T = GRAVITY_NORM / w.lip.comHeight * p' := by
        have : p' = w.lip.comHeight / GRAVITY_NORM * (x.a + j * w.lip.T) := by linarith
        rw [this]
        field_simp
      have key : p' * (6 * w.lip.comHeight - GRAVITY_NORM * w.lip.T ^ 2)
          = 6 * w.lip.comHeight * (x.p + x.v * w.lip.T + x.a * w.lip.T ^ 2 / 3) := by
        have : w.lip.comHeight * (x.a + j * w.lip.T) = GRAVITY_NORM * p' := by rw [ha']; field_simp
        linear_combination (6 * w.lip.comHeight) * hp' + w.lip.T ^ 2 * this
      have hp2 : x.p * r ≤ p' := by
        rw [hr, ← mul_div_assoc, div_le_iff₀ hD, key]
        have := mul_nonneg q3 hT0.le
        have := mul_nonneg q4 (pow_pos hT0 2).le
        nlinarith
      have hp3 : 0 < p' := lt_of_lt_of_le (mul_pos hp1 hr0) hp2
      have ha3 : 0 ≤ x.a + j * w.lip.T := by rw [ha']; positivity
      refine ⟨?_, ?_, ha3⟩
      · rw [pow_succ, ← mul_assoc]
        exact (mul_le_mul_of_nonneg_right q2 hr0.le).trans hp2
      · have : x.v + x.a * w.lip.T + j * w.lip.T ^ 2 / 2 = x.v + w.lip.T * (x.a + (x.a + j * w.lip.T)) / 2 := by ring
        rw [this]
        positivity) n
  exact ⟨w2, e, a.left, a.right, hP.2.1⟩

/-! ### The CoM is beyond the feet -/

/-- One period of a CoM with `p, v, a ≥ 0` whose CoP at the end is not positive. -/
theorem beyond_step {T h G p v a j : K} (hT : 0 < T) (hG : 0 < G) (hh : 0 < h) (hD : 0 < 6 * h - G * T ^ 2) (hp : 0 < p) (hv : 0 ≤ v)
    (ha : 0 ≤ a)
    (hz : p + v * T + a * T ^ 2 / 2 + j * T ^ 3 / 6 - h / G * (a + j * T) ≤ 0) :
    p * (6 * h / (6 * h - G * T ^ 2)) ≤ p + v * T + a * T ^ 2 / 2 + j * T ^ 3 / 6 ∧
    0 ≤ v + a * T + j * T ^ 2 / 2 ∧ 0 ≤ a + j * T := by
  set p' := p + v * T + a * T ^ 2 / 2 + j * T ^ 3 / 6 with hp'
  have hz' : G * p' ≤ h * (a + j * T) := by
    have h1 : p' ≤ h / G * (a + j * T) := by linarith
    calc G * p' ≤ G * (h / G * (a + j * T)) := by gcongr
      _ = h * (a + j * T) := by field_simp
  have key : 6 * h * (p + v * T + a * T ^ 2 / 3) ≤ p' * (6 * h - G * T ^ 2) := by
    have h1 := mul_le_mul_of_nonneg_left hz' (sq_nonneg T)
    have h2 : p' * (6 * h - G * T ^ 2) = 6 * h * (p + v * T + a * T ^ 2 / 3) + (T ^ 2 * (h * (a + j * T)) - T ^ 2 * (G * p')) := by
      linear_combination (6 * h) * hp'
    linarith
  have hp2 : p * (6 * h / (6 * h - G * T ^ 2)) ≤ p' := by
    rw [← mul_div_assoc, div_le_iff₀ hD]
    refine le_trans ?_ key
    have h1 := mul_nonneg hv hT.le
    have h2 := mul_nonneg ha (pow_pos hT 2).le
    nlinarith
  have hp3 : 0 < p' := lt_of_lt_of_le (by positivity) hp2
  have ha3 : 0 ≤ a + j * T := by
    by_contra hc
    push Not at hc
    nlinarith [mul_pos hG hp3]
  refine ⟨hp2, ?_, ha3⟩
  have : v + a * T + j * T ^ 2 / 2 = v + T * (a + (a + j * T)) / 2 := by ring
  rw [this]
  positivity

/-- C90 is violated, whatever is weighted and whatever the references, the number of samples and the choice of the solver among
the plans that it may choose: once the CoM is beyond the polygon of the feet and does not come back by itself, the CoP
constraint makes it go away exponentially if `T² g < 6 h`, since the CoP stays behind the CoM. Only steps could help. -/
theorem C90_beyond [Archimedean K] (hull : Vec (Pt K) → Res (Polygon K)) (o : Oracle K) (w : HWalkgen K) (g : Polygon K)
    (h : Spec.Stands hull w) (he : Spec.ExactCop w) (hlow : w.lip.T ^ 2 * GRAVITY_NORM < 6 * w.lip.comHeight)
    (hcop : w.withCop = true)
    (hin : ∀ q, Spec.IsUnion w.sup ⟨w.sup.left.x.state.p, w.sup.left.y.state.p⟩
      ⟨w.sup.right.x.state.p, w.sup.right.y.state.p⟩ (Spec.midFeet w.sup) q → hull q = .ok g)
    (hX : ∀ i < w.lip.N, Spec.SatisfiesConstraints g (Spec.localCop w.lip.N w.X.get i))
    (ho : ∀ n qp it, w.calls ≤ n → (∃ d, Spec.Feasible qp d) → Spec.Feasible qp (o n qp it).2)
    (hp : g.xSup < (Spec.comX w).p) (hv : 0 ≤ (Spec.comX w).v) (ha : 0 ≤ (Spec.comX w).a) (n : ℕ) :
    ∃ w2, w.run hull o (Spec.standCalls w n) = .ok w2 ∧ w2.sup.left = w.sup.left ∧ w2.sup.right = w.sup.right ∧
      (∀ i < w.lip.N, Spec.SatisfiesConstraints g (Spec.localCop w.lip.N w2.X.get i)) ∧
      g.xSup + ((Spec.comX w).p - g.xSup) * (6 * w.lip.comHeight / (6 * w.lip.comHeight - GRAVITY_NORM * w.lip.T ^ 2)) ^ n
        ≤ (Spec.comX w2).p := by
  have hT0 : 0 < w.lip.T := lt_trans EPS_pos h.usable.grid.pos
  have hG : (0 : K) < GRAVITY_NORM := by unfold GRAVITY_NORM; norm_num
  have hh : 0 < w.lip.comHeight := by nlinarith [mul_pos (pow_pos hT0 2) hG]
  have hD : 0 < 6 * w.lip.comHeight - GRAVITY_NORM * w.lip.T ^ 2 := by linarith
  set r := 6 * w.lip.comHeight / (6 * w.lip.comHeight - GRAVITY_NORM * w.lip.T ^ 2) with hr
  have hr0 : 0 < r := div_pos (by linarith) hD
  obtain ⟨w2, e, -, a, -, hP⟩ := Stands.runs (P := fun n w1 =>
      (∀ i < w.lip.N, Spec.SatisfiesConstraints g (Spec.localCop w.lip.N w1.X.get i)) ∧
      ((Spec.comX w).p - g.xSup) * r ^ n ≤ (Spec.comX w1).p - g.xSup ∧ 0 ≤ (Spec.comX w1).v ∧ 0 ≤ (Spec.comX w1).a) (o := o) h
    ⟨hX, by simp, hv, ha⟩ (fun n w1 w2 b e1 s1 a1 c1 p1 e2 a2 => by
      obtain ⟨q1, q2, q3, q4⟩ := p1
      have hmid := a1.mid
      have hins := Stands.inside (g := g) s1 (by rw [a1.withCop, hcop])
        (fun q hq => hin q (by
          rw [← a1.left, ← a1.right]
          rw [hmid] at hq
          simpa only [Spec.IsUnion, a1.left, a1.right] using hq)) (by rw [a1.N]; exact q1)
        (fun qp it hd => ho _ qp it (by omega) hd) e2
      rw [a1.N] at hins
      obtain ⟨⟨j, hc1⟩, -, z, -⟩ := Stands.cop s1 (a1.exactCop he) e2
      have hN0 : 0 < w.lip.N := by
        by_contra h0
        have h0 : w.lip.N = 0 := by omega
        obtain ⟨p, hp, e⟩ := h.usable.grid.step
        have h1 := h.usable.grid.horizon
        rw [h.history.inv.N, h0, e, Nat.cast_zero, zero_mul] at h1
        have h2 : (0 : K) < p * w.lip.T := mul_pos (by exact_mod_cast hp) hT0
        linarith
      have hz := (hins 0 hN0).2.1
      simp only [Spec.localCop] at hz
      rw [a1.height, hc1, a1.T] at z
      refine ⟨hins, ?_⟩
      rw [hc1, a1.T]
      have hp1 : 0 < (Spec.comX w1).p - g.xSup := lt_of_lt_of_le (mul_pos (by linarith) (pow_pos hr0 n)) q2
      generalize Spec.comX w1 = x at *
      simp only [Spec.cubic] at z ⊢
      obtain ⟨k1, k2, k3⟩ := beyond_step hT0 hG hh hD hp1 q3 q4 (j := j) (by linarith)
      rw [← hr] at k1
      refine ⟨?_, k2, k3⟩
      rw [pow_succ, ← mul_assoc]
      have := mul_le_mul_of_nonneg_right q2 hr0.le
      linarith) n
  exact ⟨w2, e, a.left, a.right, hP.1, by linarith [hP.2.1]⟩

/-! ### One sample -/

/-- A cubic polynomial with a negative constant has a positive root. -/
theorem cubic_root_pos (b c d : ℝ) (hd : d < 0) : ∃ m, 0 < m ∧ m ^ 3 + b * m ^ 2 + c * m + d = 0 := by
  set M := 1 + |b| + |c| + |d|
  have hM : 1 ≤ M := by simp only [M]; have := abs_nonneg b; have := abs_nonneg c; have := abs_nonneg d; linarith
  have h1 : 0 ≤ M ^ 3 + b * M ^ 2 + c * M + d := by
    have e : M ^ 3 = M ^ 2 + |b| * M ^ 2 + |c| * M ^ 2 + |d| * M ^ 2 := by
      have : M ^ 3 = M * M ^ 2 := by ring
      rw [this]
      simp only [M]
      ring
    have h2 : M ≤ M ^ 2 := by nlinarith
    have h3 : 1 ≤ M ^ 2 := by nlinarith
    have := neg_abs_le b
    have := neg_abs_le c
    have := neg_abs_le d
    have : -(|b| * M ^ 2) ≤ b * M ^ 2 := by nlinarith
    have : -(|c| * M ^ 2) ≤ c * M := by nlinarith [abs_nonneg c, mul_le_mul_of_nonneg_left h2 (abs_nonneg c)]
    have : -(|d| * M ^ 2) ≤ d := by nlinarith [mul_le_mul_of_nonneg_left h3 (abs_nonneg d)]
    nlinarith
  have hcont : ContinuousOn (fun m : ℝ => m ^ 3 + b * m ^ 2 + c * m + d) (Set.Icc 0 M) := by fun_prop
  obtain ⟨m, ⟨m0, -⟩, hm⟩ := intermediate_value_Icc (by linarith) hcont (show (0 : ℝ) ∈ Set.Icc _ _ from ⟨by simpa using hd.le, h1⟩)
  refine ⟨m, lt_of_le_of_ne m0 ?_, hm⟩
  rintro rfl
  simp at hm
  linarith

/-- A cubic polynomial that is positive at `-2` has a root below. -/
theorem cubic_root_neg (b c d : ℝ) (hd : 0 < -8 + 4 * b - 2 * c + d) : ∃ m, m < -2 ∧ m ^ 3 + b * m ^ 2 + c * m + d = 0 := by
  obtain ⟨k, hk, e⟩ := cubic_root_pos (6 - b) (12 - 4 * b + c) (8 - 4 * b + 2 * c - d) (by linarith)
  exact ⟨-2 - k, by linarith, by linear_combination -e⟩

/-- A left eigenvector of the motion of the CoM under a linear feedback. -/
theorem feedback_eigen {T m kp kv ka : ℝ} (hm : m ≠ 0)
    (hg : m ^ 3 - (T ^ 3 / 6 * kp + T ^ 2 / 2 * kv + T * ka) * m ^ 2 - (T ^ 3 * kp + T ^ 2 * kv) * m - T ^ 3 * kp = 0)
    {lp lv la : ℝ} (h1 : m * lp = kp) (h2 : m * lv = kv + T * lp) (h3 : m * la = ka + T ^ 2 / 2 * lp + T * lv)
    (p v a j : ℝ) (hj : j = kp * p + kv * v + ka * a) :
    lp * (p + v * T + a * T ^ 2 / 2 + j * T ^ 3 / 6) + lv * (v + a * T + j * T ^ 2 / 2) + la * (a + j * T)
      = (1 + m) * (lp * p + lv * v + la * a) := by
  have hB : T ^ 3 / 6 * lp + T ^ 2 / 2 * lv + T * la = 1 := by
    have : m ^ 3 * (T ^ 3 / 6 * lp + T ^ 2 / 2 * lv + T * la - 1) = 0 := by
      linear_combination -hg + (T ^ 3 / 6 * m ^ 2 + T ^ 3 / 2 * m + T ^ 3 / 2 * m + T ^ 3) * h1
        + (T ^ 2 / 2 * m ^ 2 + T ^ 2 * m) * h2 + T * m ^ 2 * h3
    have := (mul_eq_zero.1 this).resolve_left (pow_ne_zero 3 hm)
    linarith
  linear_combination j * hB - p * h1 - v * h2 - a * h3 + hj

/-- The feedback of the generator is linear. -/
theorem bestJerk_linear (wg : HWeighting K) (T l : K) (x : State3 K) :
    Spec.bestJerk wg T l x = Spec.bestJerk wg T l ⟨1, 0, 0⟩ * x.p + Spec.bestJerk wg T l ⟨0, 1, 0⟩ * x.v
      + Spec.bestJerk wg T l ⟨0, 0, 1⟩ * x.a := by
  unfold Spec.bestJerk Spec.freeCop
  ring

/-- A standing robot falls when the motion of its CoM has a real eigenvalue `1 + m` outside of the unit disk. -/
theorem falls_of_eigen [Archimedean K] {hull : Vec (Pt K) → Res (Polygon K)} {o : Oracle K} {w : HWalkgen K}
    (h : Spec.Stands hull w) (hN : w.lip.N = 1) (hT : 20 * EPS ≤ w.lip.T) (hT' : w.lip.T ≤ 10)
    (hh : |w.lip.comHeight| ≤ 1000) (hc : 0 < w.weighting.copCentering)
    (hv : 0 < w.weighting.velocityTracking → ∀ i < 2, w.velRef.get i = 0) (hcop : w.withCop = false)
    (ho : ∀ n qp it, w.calls ≤ n → (∃ d, Spec.IsSolution qp d) → Spec.IsSolution qp (o n qp it).2)
    (hX : |w.X.get 0| ≤ MAXBOUND / 2 ∧ |w.X.get 1| ≤ MAXBOUND / 2)
    {l kp kv ka : K} (hl : l = w.lip.comHeight / GRAVITY_NORM)
    (hkp : kp = Spec.bestJerk w.weighting w.lip.T l ⟨1, 0, 0⟩) (hkv : kv = Spec.bestJerk w.weighting w.lip.T l ⟨0, 1, 0⟩)
    (hka : ka = Spec.bestJerk w.weighting w.lip.T l ⟨0, 0, 1⟩) (hkp0 : kp ≠ 0)
    (hx : (Spec.comX w).v = 0 ∧ (Spec.comX w).a = 0 ∧ (Spec.comX w).p ≠ 0) (f : K →+*o ℝ) {m : ℝ} (hm : m ≠ 0)
    (hm1 : 1 < |1 + m|)
    (hg : m ^ 3 - (f w.lip.T ^ 3 / 6 * f kp + f w.lip.T ^ 2 / 2 * f kv + f w.lip.T * f ka) * m ^ 2
      - (f w.lip.T ^ 3 * f kp + f w.lip.T ^ 2 * f kv) * m - f w.lip.T ^ 3 * f kp = 0) (R : K)
    (hR : ∀ x : State3 K, |x.p| ≤ R → |x.v| ≤ R → |x.a| ≤ R → |Spec.bestCop w.weighting w.lip.T l x| ≤ MAXBOUND / 2) :
    ∃ n w2, w.run hull o (Spec.standCalls w n) = .ok w2 ∧ w2.sup.left = w.sup.left ∧ w2.sup.right = w.sup.right ∧
      ((R < |(Spec.comX w2).p| ∨ R < |(Spec.comX w2).v| ∨ R < |(Spec.comX w2).a|) ∨
        R < |(Spec.comY w2).p| ∨ R < |(Spec.comY w2).v| ∨ R < |(Spec.comY w2).a|) := by
  by_contra hno
  push Not at hno
  have he := exactCop_one hN hT' hh
  set lp := f kp / m with hlp
  set lv := (f kv + f w.lip.T * lp) / m with hlv
  set la := (f ka + f w.lip.T ^ 2 / 2 * lp + f w.lip.T * lv) / m with hla
  let L : State3 K → ℝ := fun x => lp * f x.p + lv * f x.v + la * f x.a
  have hruns := Stands.runs (o := o) (P := fun n w1 => |w1.X.get 0| ≤ MAXBOUND / 2 ∧ |w1.X.get 1| ≤ MAXBOUND / 2 ∧
      L (Spec.comX w1) = (1 + m) ^ n * L (Spec.comX w)) h ⟨hX.1, hX.2, by simp⟩
    (fun n w1 w2 b e1 s1 a1 c1 p1 e2 a2 => by
      obtain ⟨q1, q2, q3⟩ := p1
      obtain ⟨⟨r1, r2, r3⟩, r4, r5, r6⟩ := hno n w1 e1 a1.left a1.right
      have b1 := hR _ r1 r2 r3
      have b2 := hR _ r4 r5 r6
      obtain ⟨t1, -, t3, t4⟩ := Stands.best s1 (a1.exactCop he) (by rw [a1.N, hN]) (by rw [a1.T]; exact hT)
        (by rw [a1.weighting]; exact hc) (by rw [a1.weighting, a1.velRef]; exact hv) (fun hw => by simp [a1.withCop, hcop] at hw)
        (by rw [a1.weighting, a1.T, a1.height, ← hl]; exact (abs_sub _ _).trans (by linarith))
        (by rw [a1.weighting, a1.T, a1.height, ← hl]; exact (abs_sub _ _).trans (by linarith))
        (fun qp it hd => ho _ qp it (by omega) hd) e2
      rw [a1.weighting, a1.T, a1.height, ← hl] at t1 t3 t4
      refine ⟨by rw [t3]; exact b1, by rw [t4]; exact b2, ?_⟩
      rw [pow_succ', mul_assoc, ← q3, t1, bestJerk_linear, ← hkp, ← hkv, ← hka]
      have := feedback_eigen (T := f w.lip.T) hm hg (lp := lp) (lv := lv) (la := la) (by rw [hlp]; field_simp)
        (by rw [hlv]; field_simp) (by rw [hla]; field_simp) (f (Spec.comX w1).p) (f (Spec.comX w1).v) (f (Spec.comX w1).a) _ rfl
      simp only [L, Spec.cubic, map_add, map_mul, map_div₀, map_pow, map_ofNat]
      exact this)
  have hL0 : L (Spec.comX w) ≠ 0 := by
    simp only [L, hx.1, hx.2.1, map_zero, mul_zero, add_zero]
    refine mul_ne_zero (div_ne_zero ?_ hm) ?_
    · rwa [Ne, map_eq_zero]
    · rw [Ne, map_eq_zero]; exact hx.2.2
  obtain ⟨n, hn⟩ := pow_unbounded_of_one_lt ((|lp| + |lv| + |la|) * f R / |L (Spec.comX w)|) hm1
  obtain ⟨w1, e1, s1, a1, -, -, -, q3⟩ := hruns n
  obtain ⟨⟨r1, r2, r3⟩, -⟩ := hno n w1 e1 a1.left a1.right
  have hf : ∀ x : K, |x| ≤ R → |f x| ≤ f R := by
    intro x hx
    rw [abs_le] at hx ⊢
    rw [← map_neg]
    exact ⟨f.monotone' hx.1, f.monotone' hx.2⟩
  rw [div_lt_iff₀ (abs_pos.2 hL0), ← abs_pow, ← abs_mul, ← q3] at hn
  have : |L (Spec.comX w1)| ≤ (|lp| + |lv| + |la|) * f R := by
    simp only [L]
    calc _ ≤ |lp * f (Spec.comX w1).p| + |lv * f (Spec.comX w1).v| + |la * f (Spec.comX w1).a| := abs_add_three _ _ _
      _ ≤ |lp| * f R + |lv| * f R + |la| * f R := by
        rw [abs_mul, abs_mul, abs_mul]
        gcongr
        · exact hf _ r1
        · exact hf _ r2
        · exact hf _ r3
      _ = _ := by ring
  linarith

/-- C90 is violated: a robot that stands with a horizon of one sample, pushed away from the middle of its feet, falls.
This is so for every choice of weights when the sampling period is short, `T² g < 6 h`, and for every longer sampling
period when the jerk is not weighted enough, whatever the weight of the velocity. The state of the CoM leaves every
ball in which the bounds `MAXBOUND` of the QP are not felt. -/
theorem C90_falls [Archimedean K] (hull : Vec (Pt K) → Res (Polygon K)) (o : Oracle K) (w : HWalkgen K) (l : K)
    (h : Spec.Stands hull w) (hN : w.lip.N = 1) (hT : 20 * EPS ≤ w.lip.T) (hT' : w.lip.T ≤ 10)
    (hh : |w.lip.comHeight| ≤ 1000) (hc : 0 < w.weighting.copCentering)
    (hv : 0 < w.weighting.velocityTracking → ∀ i < 2, w.velRef.get i = 0) (hcop : w.withCop = false)
    (ho : ∀ n qp it, w.calls ≤ n → (∃ d, Spec.IsSolution qp d) → Spec.IsSolution qp (o n qp it).2)
    (hX : |w.X.get 0| ≤ MAXBOUND / 2 ∧ |w.X.get 1| ≤ MAXBOUND / 2) (hl : l = w.lip.comHeight / GRAVITY_NORM)
    (hunstable : w.lip.T ^ 2 < 6 * l ∨ 6 * l < w.lip.T ^ 2 ∧ 0 ≤ l ∧
      6 * w.weighting.jerkMinimization < 5 * w.weighting.copCentering * w.lip.T ^ 2 * (w.lip.T ^ 2 / 6 - l) * (w.lip.T ^ 2 + 12 * l))
    (hx : (Spec.comX w).v = 0 ∧ (Spec.comX w).a = 0 ∧ (Spec.comX w).p ≠ 0) (R : K)
    (hR : ∀ x : State3 K, |x.p| ≤ R → |x.v| ≤ R → |x.a| ≤ R → |Spec.bestCop w.weighting w.lip.T l x| ≤ MAXBOUND / 2) :
    ∃ n w2, w.run hull o (Spec.standCalls w n) = .ok w2 ∧ w2.sup.left = w.sup.left ∧ w2.sup.right = w.sup.right ∧
      ((R < |(Spec.comX w2).p| ∨ R < |(Spec.comX w2).v| ∨ R < |(Spec.comX w2).a|) ∨
        R < |(Spec.comY w2).p| ∨ R < |(Spec.comY w2).v| ∨ R < |(Spec.comY w2).a|) := by
  have hE : (0 : K) < EPS := EPS_pos
  have hT0 : 0 < w.lip.T := by linarith
  let f : K →+*o ℝ := ConditionallyCompleteLinearOrderedField.inducedOrderRingHom K ℝ
  have hfm : StrictMono f := f.monotone'.strictMono_of_injective f.injective
  have hf0 : ∀ x : K, 0 < x → 0 < f x := fun x hx => by
    have := hfm hx
    rwa [map_zero] at this
  have hU : Spec.copStep w.lip.T l = w.lip.T * (w.lip.T ^ 2 / 6 - l) := by unfold Spec.copStep; ring
  have hU0 : Spec.copStep w.lip.T l ≠ 0 := by
    rw [hU]
    refine mul_ne_zero hT0.ne' fun h0 => ?_
    rcases hunstable with h1 | ⟨h1, -⟩ <;> linarith
  have hc' : 0 < max w.weighting.copCentering 0 := lt_max_of_lt_left hc
  have hD0 : 0 < Spec.jerkCurve w.weighting w.lip.T l := by
    unfold Spec.jerkCurve
    have h2 : (0 : K) ≤ max w.weighting.velocityTracking 0 := le_max_right _ _
    have h3 : (0 : K) ≤ max w.weighting.jerkMinimization 0 := le_max_right _ _
    positivity
  have ekp : Spec.bestJerk w.weighting w.lip.T l ⟨1, 0, 0⟩
      = -(max w.weighting.copCentering 0 * Spec.copStep w.lip.T l) / Spec.jerkCurve w.weighting w.lip.T l := by
    unfold Spec.bestJerk Spec.freeCop; ring
  have hkp0 : Spec.bestJerk w.weighting w.lip.T l ⟨1, 0, 0⟩ ≠ 0 := by
    rw [ekp]
    exact div_ne_zero (neg_ne_zero.2 (mul_ne_zero hc'.ne' hU0)) hD0.ne'
  rcases hunstable with h1 | ⟨h1, hl0, h2⟩
  · have hkp : 0 < Spec.bestJerk w.weighting w.lip.T l ⟨1, 0, 0⟩ := by
      rw [ekp]
      refine div_pos ?_ hD0
      have : Spec.copStep w.lip.T l < 0 := by rw [hU]; exact mul_neg_of_pos_of_neg hT0 (by linarith)
      nlinarith
    obtain ⟨m, hm, e⟩ := cubic_root_pos
      (-(f w.lip.T ^ 3 / 6 * f (Spec.bestJerk w.weighting w.lip.T l ⟨1, 0, 0⟩)
        + f w.lip.T ^ 2 / 2 * f (Spec.bestJerk w.weighting w.lip.T l ⟨0, 1, 0⟩)
        + f w.lip.T * f (Spec.bestJerk w.weighting w.lip.T l ⟨0, 0, 1⟩)))
      (-(f w.lip.T ^ 3 * f (Spec.bestJerk w.weighting w.lip.T l ⟨1, 0, 0⟩)
        + f w.lip.T ^ 2 * f (Spec.bestJerk w.weighting w.lip.T l ⟨0, 1, 0⟩)))
      (-(f w.lip.T ^ 3 * f (Spec.bestJerk w.weighting w.lip.T l ⟨1, 0, 0⟩)))
      (by have := mul_pos (pow_pos (hf0 _ hT0) 3) (hf0 _ hkp); linarith)
    exact falls_of_eigen h hN hT hT' hh hc hv hcop ho hX hl rfl rfl rfl hkp0 hx f hm.ne'
      (by rw [abs_of_pos (by linarith)]; linarith) (by linear_combination e) R hR
  · have hcrit : 24 + 12 * w.lip.T * Spec.bestJerk w.weighting w.lip.T l ⟨0, 0, 1⟩
        < w.lip.T ^ 3 * Spec.bestJerk w.weighting w.lip.T l ⟨1, 0, 0⟩ := by
      have eka : Spec.bestJerk w.weighting w.lip.T l ⟨0, 0, 1⟩
          = -(max w.weighting.velocityTracking 0 / 20 * (w.lip.T ^ 2 / 2) * w.lip.T
            + max w.weighting.copCentering 0 * Spec.copStep w.lip.T l * (w.lip.T ^ 2 / 2 - l))
            / Spec.jerkCurve w.weighting w.lip.T l := by
        unfold Spec.bestJerk Spec.freeCop; ring
      have h3 : 6 * max w.weighting.jerkMinimization 0
          < 5 * max w.weighting.copCentering 0 * w.lip.T ^ 2 * (w.lip.T ^ 2 / 6 - l) * (w.lip.T ^ 2 + 12 * l) := by
        rw [max_eq_left hc.le]
        rcases le_total w.weighting.jerkMinimization 0 with h0 | h0
        · rw [max_eq_right h0, mul_zero]
          have : 0 < w.lip.T ^ 2 / 6 - l := by linarith
          positivity
        · rwa [max_eq_left h0]
      rw [ekp, eka, ← sub_pos]
      have : w.lip.T ^ 3 * (-(max w.weighting.copCentering 0 * Spec.copStep w.lip.T l) / Spec.jerkCurve w.weighting w.lip.T l)
          - (24 + 12 * w.lip.T * (-(max w.weighting.velocityTracking 0 / 20 * (w.lip.T ^ 2 / 2) * w.lip.T
            + max w.weighting.copCentering 0 * Spec.copStep w.lip.T l * (w.lip.T ^ 2 / 2 - l))
            / Spec.jerkCurve w.weighting w.lip.T l))
          = (5 * max w.weighting.copCentering 0 * w.lip.T ^ 2 * (w.lip.T ^ 2 / 6 - l) * (w.lip.T ^ 2 + 12 * l)
            - 6 * max w.weighting.jerkMinimization 0) / 5 / Spec.jerkCurve w.weighting w.lip.T l := by
        field_simp
        unfold Spec.jerkCurve
        rw [hU]
        ring
      rw [this]
      exact div_pos (div_pos (by linarith) (by norm_num)) hD0
    obtain ⟨m, hm, e⟩ := cubic_root_neg
      (-(f w.lip.T ^ 3 / 6 * f (Spec.bestJerk w.weighting w.lip.T l ⟨1, 0, 0⟩)
        + f w.lip.T ^ 2 / 2 * f (Spec.bestJerk w.weighting w.lip.T l ⟨0, 1, 0⟩)
        + f w.lip.T * f (Spec.bestJerk w.weighting w.lip.T l ⟨0, 0, 1⟩)))
      (-(f w.lip.T ^ 3 * f (Spec.bestJerk w.weighting w.lip.T l ⟨1, 0, 0⟩)
        + f w.lip.T ^ 2 * f (Spec.bestJerk w.weighting w.lip.T l ⟨0, 1, 0⟩)))
      (-(f w.lip.T ^ 3 * f (Spec.bestJerk w.weighting w.lip.T l ⟨1, 0, 0⟩)))
      (by
        have := hfm hcrit
        simp only [map_add, map_mul, map_pow, map_ofNat] at this
        linarith)
    exact falls_of_eigen h hN hT hT' hh hc hv hcop ho hX hl rfl rfl rfl hkp0 hx f (by linarith [hm] : m < 0).ne
      (by rw [abs_of_neg (by linarith)]; linarith) (by linear_combination e) R hR

/-! ### A robot that does not fall -/

/-- The energy of a state of the CoM. -/
def standEnergy (x : State3 K) : K :=
  33 * x.p ^ 2 + 40 * x.p * x.v + 16 * x.p * x.a + 57 * x.v ^ 2 + 28 * x.v * x.a + 17 * x.a ^ 2

theorem standEnergy_ge (x : State3 K) : x.p ^ 2 + x.v ^ 2 + x.a ^ 2 ≤ standEnergy x := by
  unfold standEnergy
  nlinarith [sq_nonneg (x.p + x.v), sq_nonneg (x.p + x.a), sq_nonneg (x.v + x.a), sq_nonneg x.p, sq_nonneg x.v, sq_nonneg x.a]

/-- The jerk for a period of one second, a height of one metre and the weights `10`, `1`, `1`. -/
theorem bestJerk_stand (x : State3 K) : Spec.bestJerk ⟨10, 1, 1⟩ 1 (1 / GRAVITY_NORM) x
    = -(2491740 / 6897817 * x.p + 637650 / 363043 * x.v + 10615480 / 6897817 * x.a) := by
  unfold Spec.bestJerk Spec.jerkCurve Spec.freeCop Spec.copStep GRAVITY_NORM
  norm_num
  ring

theorem standEnergy_step (x : State3 K) :
    standEnergy (Spec.cubic x (Spec.bestJerk ⟨10, 1, 1⟩ 1 (1 / GRAVITY_NORM) x) 1) ≤ 19 / 20 * standEnergy x := by
  rw [bestJerk_stand]
  obtain ⟨p, v, a⟩ := x
  simp only [standEnergy, Spec.cubic]
  nlinarith [sq_nonneg (p - v / 11), sq_nonneg p, sq_nonneg v, sq_nonneg a, sq_nonneg (p + v), sq_nonneg (p - v), sq_nonneg (p + a),
    sq_nonneg (p - a), sq_nonneg (v + a), sq_nonneg (v - a)]

theorem standCop_le (x : State3 K) (R : K) (hp : |x.p| ≤ R) (hv : |x.v| ≤ R) (ha : |x.a| ≤ R) :
    |Spec.bestCop ⟨10, 1, 1⟩ 1 (1 / GRAVITY_NORM) x| ≤ 10 * R := by
  unfold Spec.bestCop
  rw [bestJerk_stand]
  unfold Spec.freeCop Spec.copStep GRAVITY_NORM
  rw [abs_le] at *
  constructor <;> linarith

/-- What holds of C90: with a sampling period of one second, a CoM one metre high, and the weights `10`, `1`, `1` for the
velocity, the centring of the CoP and the jerk, the CoM of a standing robot returns above the middle of its feet and
stops there, from every initial state that is not out of reason. -/
theorem C90_returns_partial [Archimedean K] (hull : Vec (Pt K) → Res (Polygon K)) (o : Oracle K) (w : HWalkgen K)
    (h : Spec.Stands hull w) (hN : w.lip.N = 1) (hT : w.lip.T = 1) (hh : w.lip.comHeight = 1)
    (hwg : w.weighting = ⟨10, 1, 1⟩) (hv : ∀ i < 2, w.velRef.get i = 0) (hcop : w.withCop = false)
    (ho : ∀ n qp it, w.calls ≤ n → (∃ d, Spec.IsSolution qp d) → Spec.IsSolution qp (o n qp it).2)
    (hX : |w.X.get 0| ≤ 1000000 ∧ |w.X.get 1| ≤ 1000000)
    (hx : |(Spec.comX w).p| ≤ 1000 ∧ |(Spec.comX w).v| ≤ 1000 ∧ |(Spec.comX w).a| ≤ 1000)
    (hy : |(Spec.comY w).p| ≤ 1000 ∧ |(Spec.comY w).v| ≤ 1000 ∧ |(Spec.comY w).a| ≤ 1000) (e : K) (he : 0 < e) :
    ∃ n₀, ∀ n, n₀ ≤ n → ∃ w2, w.run hull o (Spec.standCalls w n) = .ok w2 ∧ w2.sup.left = w.sup.left ∧
      w2.sup.right = w.sup.right ∧
      (|(Spec.comX w2).p| < e ∧ |(Spec.comX w2).v| < e ∧ |(Spec.comX w2).a| < e) ∧
      |(Spec.comY w2).p| < e ∧ |(Spec.comY w2).v| < e ∧ |(Spec.comY w2).a| < e := by
  have hE : (EPS : K) = 1 / 10000 := rfl
  have hM : (MAXBOUND : K) = 100000000000 := by unfold MAXBOUND; norm_num
  have hcopx := exactCop_one hN (by rw [hT]; norm_num) (by rw [hh]; norm_num)
  have h0 : ∀ x : State3 K, |x.p| ≤ 1000 ∧ |x.v| ≤ 1000 ∧ |x.a| ≤ 1000 → standEnergy x ≤ 200000000 := by
    rintro ⟨p, v, a⟩ ⟨h1, h2, h3⟩
    have k1 : p ^ 2 ≤ 1000 ^ 2 := by rw [← sq_abs]; gcongr
    have k2 : v ^ 2 ≤ 1000 ^ 2 := by rw [← sq_abs]; gcongr
    have k3 : a ^ 2 ≤ 1000 ^ 2 := by rw [← sq_abs]; gcongr
    simp only [standEnergy]
    nlinarith [sq_nonneg (p - v), sq_nonneg (p - a), sq_nonneg (v - a)]
  have hsmall : ∀ (x : State3 K) (r : K), 0 ≤ r → standEnergy x ≤ r ^ 2 → |x.p| ≤ r ∧ |x.v| ≤ r ∧ |x.a| ≤ r := by
    intro x r hr hxr
    have := standEnergy_ge x
    refine ⟨abs_le_of_sq_le_sq (by nlinarith [sq_nonneg x.v, sq_nonneg x.a]) hr,
      abs_le_of_sq_le_sq (by nlinarith [sq_nonneg x.p, sq_nonneg x.a]) hr,
      abs_le_of_sq_le_sq (by nlinarith [sq_nonneg x.v, sq_nonneg x.p]) hr⟩
  have hruns := Stands.runs (o := o) (P := fun n w1 => (|w1.X.get 0| ≤ 1000000 ∧ |w1.X.get 1| ≤ 1000000) ∧
      standEnergy (Spec.comX w1) ≤ (19 / 20) ^ n * 200000000 ∧ standEnergy (Spec.comY w1) ≤ (19 / 20) ^ n * 200000000) h
    ⟨hX, by simpa using h0 _ hx, by simpa using h0 _ hy⟩ (fun n w1 w2 b e1 s1 a1 c1 p1 e2 a2 => by
      obtain ⟨⟨q1, q2⟩, q3, q4⟩ := p1
      have hpow : ((19 : K) / 20) ^ n ≤ 1 := pow_le_one₀ (by norm_num) (by norm_num)
      obtain ⟨x1, x2, x3⟩ := hsmall (Spec.comX w1) 20000 (by norm_num) (by nlinarith)
      obtain ⟨y1, y2, y3⟩ := hsmall (Spec.comY w1) 20000 (by norm_num) (by nlinarith)
      have b1 := standCop_le _ _ x1 x2 x3
      have b2 := standCop_le _ _ y1 y2 y3
      obtain ⟨t1, t2, t3, t4⟩ := Stands.best s1 (a1.exactCop hcopx) (by rw [a1.N, hN]) (by rw [a1.T, hT, hE]; norm_num)
        (by rw [a1.weighting, hwg]; norm_num) (by rw [a1.velRef]; exact fun _ => hv) (fun hw => by simp [a1.withCop, hcop] at hw)
        (by rw [a1.weighting, a1.T, a1.height, hwg, hT, hh, hM]; exact (abs_sub _ _).trans (by linarith))
        (by rw [a1.weighting, a1.T, a1.height, hwg, hT, hh, hM]; exact (abs_sub _ _).trans (by linarith))
        (fun qp it hd => ho _ qp it (by omega) hd) e2
      rw [a1.weighting, a1.T, a1.height, hwg, hT, hh] at t1 t2 t3 t4
      refine ⟨⟨by rw [t3]; linarith, by rw [t4]; linarith⟩, ?_, ?_⟩
      · rw [t1, pow_succ', mul_assoc]
        exact (standEnergy_step _).trans (mul_le_mul_of_nonneg_left q3 (by norm_num))
      · rw [t2, pow_succ', mul_assoc]
        exact (standEnergy_step _).trans (mul_le_mul_of_nonneg_left q4 (by norm_num)))
  obtain ⟨n₀, hn₀⟩ := exists_pow_lt_of_lt_one (show (0 : K) < (e / 2) ^ 2 / 200000000 by positivity)
    (show (19 : K) / 20 < 1 by norm_num)
  refine ⟨n₀, fun n hn => ?_⟩
  obtain ⟨w2, r1, -, a1, -, -, r2, r3⟩ := hruns n
  have hpow : ((19 : K) / 20) ^ n * 200000000 ≤ (e / 2) ^ 2 := by
    have h1 : ((19 : K) / 20) ^ n ≤ (19 / 20) ^ n₀ := pow_le_pow_of_le_one (by norm_num) (by norm_num) hn
    rw [lt_div_iff₀ (by norm_num)] at hn₀
    linarith
  obtain ⟨x1, x2, x3⟩ := hsmall (Spec.comX w2) (e / 2) (by linarith) (r2.trans hpow)
  obtain ⟨y1, y2, y3⟩ := hsmall (Spec.comY w2) (e / 2) (by linarith) (r3.trans hpow)
  exact ⟨w2, r1, a1.left, a1.right, ⟨by linarith, by linarith, by linarith⟩, by linarith, by linarith, by linarith⟩

/-! ### Robots that stand -/

/-- A user of one sample configures the generator. -/
def standSetup (T : ℚ) (wg : HWeighting ℚ) (cop : Bool) : List (HCall ℚ) :=
  [.setSamplingPeriod T, .setInitialDoubleSupportLength T, .setStepPeriod T, .setKin true demoRect, .setKin false demoRect,
    .setCop true demoRect, .setCop false demoRect, .setConfig cop false, .setWeightings wg]

/-- The generator is configured and solves once. Then the CoM is pushed to the position `p`. -/
noncomputable def standStart (T : ℚ) (wg : HWeighting ℚ) (cop : Bool) (p : ℚ) : Res (HWalkgen ℚ × HWalkgen ℚ) := do
  let w ← HWalkgen.make >>= fun w => w.run (fun _ => .ok demoRect) restOracle (standSetup T wg cop)
  let w1 ← w.step (fun _ => .ok demoRect) restOracle (.solve T)
  let w2 ← w1.2.step (fun _ => .ok demoRect) restOracle (.setComState .x ⟨3, fun i => if i = 0 then p else 0⟩)
  pure (w, w2.2)

/-- What is checked of both generators. -/
def standCheck (T : ℚ) (wg : HWeighting ℚ) (cop : Bool) (p : ℚ) (r : HWalkgen ℚ × HWalkgen ℚ) : Bool :=
  decide ((r.1.sup.N = 1 ∧ r.1.sup.T = T ∧ r.1.sup.stepPeriod = T ∧
      r.1.sup.dsPeriod = T ∧ (0 < r.1.sup.left.kin.vertices.size ∧ 0 < r.1.sup.right.kin.vertices.size) ∧
      (r.1.sup.timeline.map fun p => (p.type, p.duration)) = [(.DS, T)] ∧ r.1.sup.ttnp = T ∧ r.1.sup.M = 0 ∧
      r.1.sup.move = false ∧ r.1.X.size = 2 ∧
      (r.1.sup.left.x.factor.size = 12 ∧ r.1.sup.left.y.factor.size = 12 ∧ r.1.sup.left.z.factor.size = 12) ∧
      (r.1.sup.right.x.factor.size = 12 ∧ r.1.sup.right.y.factor.size = 12 ∧ r.1.sup.right.z.factor.size = 12))) &&
  decide ((r.2.sup.N = 1 ∧ r.2.sup.T = T ∧ r.2.sup.stepPeriod = T ∧ r.2.sup.dsPeriod = T ∧ r.2.sup.move = false ∧
      (r.2.sup.timeline.map fun p => p.type) = [.DS, .DS]) ∧
    (r.2.lip.N = 1 ∧ r.2.lip.T = T ∧ r.2.lip.fb = T ∧ r.2.lip.comHeight = 1 ∧ r.2.velRef.size = 2) ∧
    (r.2.lip.x = ⟨p, 0, 0⟩ ∧ r.2.lip.y = ⟨0, 0, 0⟩) ∧ (r.2.sup.left.x.state.p = 0 ∧ r.2.sup.left.y.state.p = 0 ∧
      r.2.sup.right.x.state.p = 0 ∧ r.2.sup.right.y.state.p = 0) ∧ (r.2.first = false ∧ r.2.withCop = cop ∧ r.2.withFeet = false ∧
      r.2.calls = 1)) &&
  decide ((∀ i : Fin 2, r.2.X.get i = 0) ∧ (∀ i : Fin 2, r.2.velRef.get i = 0) ∧
    r.2.weighting.velocityTracking = wg.velocityTracking ∧ r.2.weighting.copCentering = wg.copCentering ∧
    r.2.weighting.jerkMinimization = wg.jerkMinimization) &&
  decide ((r.2.sup.left.cop.nbGeneral ≤ r.2.sup.left.cop.coefX.size ∧ r.2.sup.left.cop.nbGeneral ≤ r.2.sup.left.cop.coefY.size ∧
      r.2.sup.left.cop.nbGeneral ≤ r.2.sup.left.cop.vertices.size) ∧
    (r.2.sup.right.cop.nbGeneral ≤ r.2.sup.right.cop.coefX.size ∧ r.2.sup.right.cop.nbGeneral ≤ r.2.sup.right.cop.coefY.size ∧
      r.2.sup.right.cop.nbGeneral ≤ r.2.sup.right.cop.vertices.size) ∧
    (if cop then r.2.sup.maxNbCop * 1 else 0) ≤ r.2.maxCtr)

theorem stands_of_check {T : ℚ} {wg : HWeighting ℚ} {cop : Bool} {p : ℚ}
    (hc : okAnd (standCheck T wg cop p) (standStart T wg cop p) = true) (hT : EPS < T) (hreg : T ^ 2 * GRAVITY_NORM ≠ 6) :
    ∃ w, Spec.Stands (fun _ => .ok demoRect) w ∧ w.lip.N = 1 ∧ w.lip.T = T ∧ w.lip.comHeight = 1 ∧ w.weighting = wg ∧
      (∀ i < 2, w.velRef.get i = 0) ∧ w.withCop = cop ∧ w.calls = 1 ∧ (∀ i < 2, w.X.get i = 0) ∧
      Spec.comX w = ⟨p, 0, 0⟩ ∧ Spec.comY w = ⟨0, 0, 0⟩ := by
  obtain ⟨r, h, hc⟩ := okAnd_true hc
  unfold standStart at h
  obtain ⟨w, hw, h⟩ := bind_eq_ok.1 h
  obtain ⟨w0, h0, hw⟩ := bind_eq_ok.1 hw
  obtain ⟨⟨b1, w1⟩, h1, h⟩ := bind_eq_ok.1 h
  obtain ⟨⟨b2, w2⟩, h2, h⟩ := bind_eq_ok.1 h
  obtain rfl := Except.ok.inj h
  simp only [standCheck, Bool.and_eq_true, decide_eq_true_eq] at hc
  obtain ⟨⟨⟨⟨c1, c2, c3, c4, c5, c6, c7, c8, c9, c10, c11, c12⟩, ⟨d1, d2, d3, d4, d5, d6⟩, ⟨e1, e2, e3, e4, e5⟩, ⟨e6, e7⟩,
    ⟨f1, f2, f3, f4⟩, e8, e9, e10, e11⟩, g1, g2, g3, g4, g5⟩, ⟨a1, a2, a3⟩, ⟨a4, a5, a6⟩, a7⟩ := hc
  have hrc : HumReaches (fun _ => .ok demoRect) restOracle (standSetup T wg cop) w := ⟨w0, h0, hw⟩
  have hready : Ready (w.sup, w.X) := by
    refine ⟨by simp [c1], by simp [c2, hT.le], by simp [c3, hT.le], by simp [c4, hT.le], c5, ?_, ?_, c8, c9, ?_, c11, c12⟩
    · simp only [c4]; exact timeline_of_map c6
    · simp only [c4]; exact c7
    · simp only [c1]; exact c10
  have hsame : w2.sup = w1.sup ∧ w2.X = w1.X := by
    simp only [HWalkgen.step] at h2
    obtain ⟨lip, -, h2⟩ := bind_eq_ok.1 h2
    cases h2
    exact ⟨rfl, rfl⟩
  have hreach : Reach (· = T) CanStop (w2.sup, w2.X) := by
    rw [hsame.1, hsame.2]
    exact .cycle (.start hready) rfl (C64_cycle _ _ _ _ _ _ hrc.history h1)
  have hinv := ((hrc.call h1).call h2)
  have hu : HumUsable T w2 := ⟨⟨hT, ⟨1, by omega, by simp [d2]⟩, ⟨1, by omega, by simp [d3]⟩, ⟨1, by omega, by simp [d4]⟩,
    by simp [d1, d2, d3]⟩, .inl e3, fun _ => by rw [e5, e1], fun c hc1 hc2 => by
      rw [e2] at hc2
      have hT0 : (0 : ℚ) < T := lt_trans EPS_pos hT
      have : (c : ℚ) ≤ 1 := by
        by_contra hcc
        push Not at hcc
        nlinarith
      obtain rfl : c = 1 := by have : c ≤ 1 := by exact_mod_cast this
                               omega
      rw [e4, Nat.cast_one, one_mul, mul_one]; exact hreg,
    fun _ => ⟨⟨a1, a2, a3⟩, ⟨a4, a5, a6⟩⟩, by simp [e10], by rw [e9, e10, e1]; simpa using a7⟩
  refine ⟨fitted w2, ⟨.solvers _ hinv.history, ?_, ?_, fitted_fit hinv.inv.N, ⟨d5, ?_⟩, e8, fun _ q _ => demoRect_works q⟩,
    e1, e2, e4, ?_, fun i hi => g2 ⟨i, hi⟩, e9, e11, fun i hi => g1 ⟨i, hi⟩, ?_, ?_⟩
  · change Reach (· = w2.lip.T) CanStop (w2.sup, w2.X)
    rw [e2]; exact hreach
  · change HumUsable w2.lip.T (fitted w2)
    rw [e2]
    exact ⟨hu.1, hu.2, hu.3, hu.4, hu.5, hu.6, hu.7⟩
  · intro ph hph
    have := List.mem_map_of_mem (f := fun p : Phase ℚ => p.type) hph
    change _ ∈ w2.sup.timeline.map _ at this
    rw [d6] at this
    simpa using this
  · have : ∀ a b : HWeighting ℚ, a.velocityTracking = b.velocityTracking → a.copCentering = b.copCentering →
        a.jerkMinimization = b.jerkMinimization → a = b := by
      rintro ⟨_, _, _⟩ ⟨_, _, _⟩ rfl rfl rfl
      rfl
    exact this _ _ g3 g4 g5
  · simp [Spec.comX, Spec.midFeet, fitted, f1, f3, e6]
  · simp [Spec.comY, Spec.midFeet, fitted, f2, f4, e7]

set_option maxRecDepth 100000 in
theorem stand_falls_check : okAnd (standCheck (1 / 2) ⟨1, 1, 1⟩ false (1 / 100)) (standStart (1 / 2) ⟨1, 1, 1⟩ false (1 / 100)) = true := by
  decide +kernel

set_option maxRecDepth 100000 in
theorem stand_centred_check :
    okAnd (standCheck (1 / 2) ⟨0, 1, 0⟩ true (1 / 100)) (standStart (1 / 2) ⟨0, 1, 0⟩ true (1 / 100)) = true := by
  decide +kernel

set_option maxRecDepth 100000 in
theorem stand_beyond_check :
    okAnd (standCheck (1 / 2) ⟨10, 1, 1⟩ true 3) (standStart (1 / 2) ⟨10, 1, 1⟩ true 3) = true := by
  decide +kernel

set_option maxRecDepth 100000 in
theorem stand_jerk_check : okAnd (standCheck 1 ⟨1, 1, 0⟩ false (1 / 100)) (standStart 1 ⟨1, 1, 0⟩ false (1 / 100)) = true := by
  decide +kernel

set_option maxRecDepth 100000 in
theorem stand_returns_check : okAnd (standCheck 1 ⟨10, 1, 1⟩ false 1) (standStart 1 ⟨10, 1, 1⟩ false 1) = true := by
  decide +kernel

/-- **C90 is violated**, with all weights equal to one: one centimetre away from the middle of its feet, the CoM, one metre
high, leaves with a sampling period of half a second. The solver finds a solution of every QP. -/
theorem C90_violated : ∃ w : HWalkgen ℚ, HumHistory (fun _ => .ok demoRect) w ∧ Spec.StandingFeet w.sup ∧ w.lip.N = 1 ∧
    w.lip.T = 1 / 2 ∧ w.weighting = ⟨1, 1, 1⟩ ∧ Spec.comX w = ⟨1 / 100, 0, 0⟩ ∧ Spec.comY w = ⟨0, 0, 0⟩ ∧
    (∀ n qp it, w.calls ≤ n → (∃ d, Spec.IsSolution qp d) → Spec.IsSolution qp (restOracle n qp it).2) ∧
    ∃ n w2, w.run (fun _ => .ok demoRect) restOracle (Spec.standCalls w n) = .ok w2 ∧ w2.sup.left = w.sup.left ∧
      w2.sup.right = w.sup.right ∧
      ((1000000 < |(Spec.comX w2).p| ∨ 1000000 < |(Spec.comX w2).v| ∨ 1000000 < |(Spec.comX w2).a|) ∨
        1000000 < |(Spec.comY w2).p| ∨ 1000000 < |(Spec.comY w2).v| ∨ 1000000 < |(Spec.comY w2).a|) := by
  obtain ⟨w, h, hN, hT, hh, hwg, hv, hcop, hcalls, hX, hx, hy⟩ := stands_of_check stand_falls_check (by norm_num [EPS])
    (by norm_num [GRAVITY_NORM])
  have ho : ∀ n qp it, w.calls ≤ n → (∃ d, Spec.IsSolution qp d) → Spec.IsSolution qp (restOracle n qp it).2 :=
    fun n qp it hn => restOracle_finds n qp it (by omega)
  refine ⟨w, h.history, h.feet, hN, hT, hwg, hx, hy, ho, ?_⟩
  refine C90_falls _ _ w (1 / GRAVITY_NORM) h hN (by rw [hT]; norm_num [EPS]) (by rw [hT]; norm_num) (by rw [hh]; norm_num)
    (by rw [hwg]; norm_num) (fun _ => hv) hcop ho ?_ (by rw [hh]) (.inl (by rw [hT]; norm_num [GRAVITY_NORM])) ?_ _ ?_
  · rw [hX 0 (by omega), hX 1 (by omega)]; norm_num [MAXBOUND]
  · rw [hx]; norm_num
  · rintro ⟨p, v, a⟩ k1 k2 k3
    rw [hwg, hT]
    simp only [Spec.bestCop, Spec.bestJerk, Spec.jerkCurve, Spec.freeCop, Spec.copStep, GRAVITY_NORM, MAXBOUND] at *
    norm_num at *
    rw [abs_le] at *
    constructor <;> linarith

/-- The hypotheses of `C90_falls` are met with a longer sampling period, without weight on the jerk. -/
example : ∃ (w : HWalkgen ℚ) (l : ℚ), Spec.Stands (fun _ => .ok demoRect) w ∧ w.lip.N = 1 ∧ 20 * EPS ≤ w.lip.T ∧ w.lip.T ≤ 10 ∧
    |w.lip.comHeight| ≤ 1000 ∧ 0 < w.weighting.copCentering ∧ (∀ i < 2, w.velRef.get i = 0) ∧ w.withCop = false ∧
    (∀ n qp it, w.calls ≤ n → (∃ d, Spec.IsSolution qp d) → Spec.IsSolution qp (restOracle n qp it).2) ∧
    (|w.X.get 0| ≤ MAXBOUND / 2 ∧ |w.X.get 1| ≤ MAXBOUND / 2) ∧ l = w.lip.comHeight / GRAVITY_NORM ∧
    (6 * l < w.lip.T ^ 2 ∧ 0 ≤ l ∧ 6 * w.weighting.jerkMinimization
      < 5 * w.weighting.copCentering * w.lip.T ^ 2 * (w.lip.T ^ 2 / 6 - l) * (w.lip.T ^ 2 + 12 * l)) ∧
    ((Spec.comX w).v = 0 ∧ (Spec.comX w).a = 0 ∧ (Spec.comX w).p ≠ 0) ∧
    ∀ x : State3 ℚ, |x.p| ≤ 1000000 → |x.v| ≤ 1000000 → |x.a| ≤ 1000000 →
      |Spec.bestCop w.weighting w.lip.T l x| ≤ MAXBOUND / 2 := by
  obtain ⟨w, h, hN, hT, hh, hwg, hv, hcop, hcalls, hX, hx, hy⟩ := stands_of_check stand_jerk_check (by norm_num [EPS])
    (by norm_num [GRAVITY_NORM])
  refine ⟨w, 1 / GRAVITY_NORM, h, hN, by rw [hT]; norm_num [EPS], by rw [hT]; norm_num, by rw [hh]; norm_num,
    by rw [hwg]; norm_num, hv, hcop, fun n qp it hn => restOracle_finds n qp it (by omega), ?_, by rw [hh], ?_, ?_, ?_⟩
  · rw [hX 0 (by omega), hX 1 (by omega)]; norm_num [MAXBOUND]
  · rw [hT, hwg]; norm_num [GRAVITY_NORM]
  · rw [hx]; norm_num
  · rintro ⟨p, v, a⟩ k1 k2 k3
    rw [hwg, hT]
    simp only [Spec.bestCop, Spec.bestJerk, Spec.jerkCurve, Spec.freeCop, Spec.copStep, GRAVITY_NORM, MAXBOUND] at *
    norm_num at *
    rw [abs_le] at *
    constructor <;> linarith

/-- **C90 is violated within the CoP constraint**: when only the CoP is centred, the plan is perfect and the CoM, one centimetre
away from the middle of the feet, goes farther than any distance. -/
theorem C90_violated_centring : ∃ w : HWalkgen ℚ, HumHistory (fun _ => .ok demoRect) w ∧ Spec.StandingFeet w.sup ∧
    w.withCop = true ∧ w.lip.T = 1 / 2 ∧ w.weighting = ⟨0, 1, 0⟩ ∧ Spec.comX w = ⟨1 / 100, 0, 0⟩ ∧
    (∀ n qp it, w.calls ≤ n → (∃ d, Spec.IsSolution qp d) → Spec.IsSolution qp (restOracle n qp it).2) ∧
    ∀ B : ℚ, ∃ n w2, w.run (fun _ => .ok demoRect) restOracle (Spec.standCalls w n) = .ok w2 ∧ w2.sup.left = w.sup.left ∧
      w2.sup.right = w.sup.right ∧ B < (Spec.comX w2).p := by
  obtain ⟨w, h, hN, hT, hh, hwg, hv, hcop, hcalls, hX, hx, hy⟩ := stands_of_check stand_centred_check (by norm_num [EPS])
    (by norm_num [GRAVITY_NORM])
  have ho : ∀ n qp it, w.calls ≤ n → (∃ d, Spec.IsSolution qp d) → Spec.IsSolution qp (restOracle n qp it).2 :=
    fun n qp it hn => restOracle_finds n qp it (by omega)
  refine ⟨w, h.history, h.feet, hcop, hT, hwg, hx, ho, fun B => ?_⟩
  have hr : (1 : ℚ) < 6 * w.lip.comHeight / (6 * w.lip.comHeight - GRAVITY_NORM * w.lip.T ^ 2) := by
    rw [hh, hT]; norm_num [GRAVITY_NORM]
  obtain ⟨n, hn⟩ := pow_unbounded_of_one_lt (100 * B) hr
  obtain ⟨w2, k1, k2, k3, k4⟩ := C90_falls_centring _ _ w h (exactCop_one hN (by rw [hT]; norm_num) (by rw [hh]; norm_num))
    (by rw [hT]; norm_num [EPS]) (by rw [hT, hh]; norm_num [GRAVITY_NORM]) (by rw [hwg]; norm_num) (by rw [hwg])
    (by rw [hwg]) (fun _ q g _ hg => by
      obtain rfl := Except.ok.inj hg
      refine ⟨?_, ?_, ?_, ?_, fun r hr => absurd hr (Nat.not_lt_zero r)⟩ <;> norm_num [demoRect])
    (by rw [hN]; exact hX) ho (by rw [hx]; norm_num) (by rw [hx]) (by rw [hx]) n
  refine ⟨n, w2, k1, k2, k3, lt_of_lt_of_le ?_ k4⟩
  rw [hx]
  linarith

/-- The hypotheses of `C90_beyond` are met: all objectives are weighted and the CoM is one metre beyond the feet. -/
example : ∃ w : HWalkgen ℚ, Spec.Stands (fun _ => .ok demoRect) w ∧ Spec.ExactCop w ∧
    w.lip.T ^ 2 * GRAVITY_NORM < 6 * w.lip.comHeight ∧ w.withCop = true ∧ 0 < w.lip.N ∧ w.weighting = ⟨10, 1, 1⟩ ∧
    (∀ i < w.lip.N, Spec.SatisfiesConstraints demoRect (Spec.localCop w.lip.N w.X.get i)) ∧
    (∃ o : Oracle ℚ, ∀ n qp it, w.calls ≤ n → (∃ d, Spec.Feasible qp d) → Spec.Feasible qp (o n qp it).2) ∧
    demoRect.xSup + 1 = (Spec.comX w).p ∧ (Spec.comX w).v = 0 ∧ (Spec.comX w).a = 0 := by
  obtain ⟨w, h, hN, hT, hh, hwg, hv, hcop, hcalls, hX, hx, hy⟩ := stands_of_check stand_beyond_check (by norm_num [EPS])
    (by norm_num [GRAVITY_NORM])
  classical
  refine ⟨w, h, exactCop_one hN (by rw [hT]; norm_num) (by rw [hh]; norm_num), by rw [hT, hh]; norm_num [GRAVITY_NORM], hcop,
    by omega, hwg, fun i hi => ?_,
    ⟨fun n qp it => (true, if hd : ∃ d, Spec.Feasible qp d then hd.choose else fun _ => 0), fun n qp it _ hd => ?_⟩,
    by rw [hx]; norm_num [demoRect], by rw [hx], by rw [hx]⟩
  · rw [hN] at hi ⊢
    obtain rfl : i = 0 := by omega
    simp only [Spec.localCop, hX 0 (by omega), hX (1 + 0) (by omega)]
    refine ⟨?_, ?_, ?_, ?_, fun r hr => absurd hr (Nat.not_lt_zero r)⟩ <;> norm_num [demoRect]
  · simp only [dif_pos hd]
    exact hd.choose_spec

/-- The hypotheses of `C90_returns_partial` are met, one metre away from the middle of the feet. -/
example : ∃ w : HWalkgen ℚ, Spec.Stands (fun _ => .ok demoRect) w ∧ w.lip.N = 1 ∧ w.lip.T = 1 ∧ w.lip.comHeight = 1 ∧
    w.weighting = ⟨10, 1, 1⟩ ∧ (∀ i < 2, w.velRef.get i = 0) ∧ w.withCop = false ∧
    (∀ n qp it, w.calls ≤ n → (∃ d, Spec.IsSolution qp d) → Spec.IsSolution qp (restOracle n qp it).2) ∧
    (|w.X.get 0| ≤ 1000000 ∧ |w.X.get 1| ≤ 1000000) ∧ Spec.comX w = ⟨1, 0, 0⟩ ∧ Spec.comY w = ⟨0, 0, 0⟩ := by
  obtain ⟨w, h, hN, hT, hh, hwg, hv, hcop, hcalls, hX, hx, hy⟩ := stands_of_check stand_returns_check (by norm_num [EPS])
    (by norm_num [GRAVITY_NORM])
  refine ⟨w, h, hN, hT, hh, hwg, hv, hcop, fun n qp it hn => restOracle_finds n qp it (by omega), ?_, hx, hy⟩
  rw [hX 0 (by omega), hX 1 (by omega)]; norm_num

end MPC
