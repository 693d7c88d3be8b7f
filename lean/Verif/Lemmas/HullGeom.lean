import Verif.Spec.Hull
import Mathlib.Analysis.SpecialFunctions.Trigonometric.Bounds

/-! # Plane geometry for the Jarvis march -/

namespace MPC

theorem Pt.ext' {K : Type} {a b : Pt K} (hx : a.x = b.x) (hy : a.y = b.y) : a = b := by
  cases a; cases b; simp_all

theorem EPS_lt_pi : (EPS : ℝ) < Real.pi := by
  have := Real.two_le_pi
  unfold EPS
  norm_num
  linarith

namespace Pt

theorem normSq_nonneg (a : Pt ℝ) : 0 ≤ a.normSq := by
  unfold normSq; nlinarith [mul_self_nonneg a.x, mul_self_nonneg a.y]

theorem normSq_pos {a : Pt ℝ} (h : a ≠ ⟨0, 0⟩) : 0 < a.normSq := by
  rcases (normSq_nonneg a).lt_or_eq with h1 | h1
  · exact h1
  · exfalso
    apply h
    unfold normSq at h1
    have hx : a.x * a.x = 0 := by nlinarith [mul_self_nonneg a.x, mul_self_nonneg a.y]
    have hy : a.y * a.y = 0 := by nlinarith [mul_self_nonneg a.x, mul_self_nonneg a.y]
    exact Pt.ext' (mul_self_eq_zero.1 hx) (mul_self_eq_zero.1 hy)

theorem norm_nonneg (a : Pt ℝ) : 0 ≤ a.norm := Real.sqrt_nonneg _

theorem norm_mul_self (a : Pt ℝ) : a.norm * a.norm = a.normSq :=
  Real.mul_self_sqrt (normSq_nonneg a)

theorem norm_pos {a : Pt ℝ} (h : a ≠ ⟨0, 0⟩) : 0 < a.norm := Real.sqrt_pos.2 (normSq_pos h)

theorem lagrange (a b : Pt ℝ) :
    a.dot b * a.dot b + a.cross b * a.cross b = a.normSq * b.normSq := by
  unfold dot cross normSq; ring

theorem sub_ne_zero {a b : Pt ℝ} (h : a ≠ b) : a.sub b ≠ ⟨0, 0⟩ := by
  intro h'
  apply h
  have hx : a.x - b.x = 0 := congrArg Pt.x h'
  have hy : a.y - b.y = 0 := congrArg Pt.y h'
  exact Pt.ext' (sub_eq_zero.1 hx) (sub_eq_zero.1 hy)

/-- Angle from `d` to `v` for `v` on the left of `d`. -/
noncomputable def theta (d v : Pt ℝ) : ℝ := Real.arccos (d.dot v / (d.norm * v.norm))

theorem cos_theta {d v : Pt ℝ} (hd : d ≠ ⟨0, 0⟩) (hv : v ≠ ⟨0, 0⟩) :
    Real.cos (theta d v) = d.dot v / (d.norm * v.norm) := by
  have hp : 0 < d.norm * v.norm := mul_pos (norm_pos hd) (norm_pos hv)
  have hsq : d.dot v ^ 2 ≤ (d.norm * v.norm) ^ 2 := by
    have := lagrange d v
    have h2 : (d.norm * v.norm) ^ 2 = d.normSq * v.normSq := by
      rw [← norm_mul_self d, ← norm_mul_self v]; ring
    rw [h2]
    nlinarith [mul_self_nonneg (d.cross v)]
  have habs := abs_le_of_sq_le_sq' hsq hp.le
  apply Real.cos_arccos
  · rw [le_div_iff₀ hp]; linarith [habs.1]
  · rw [div_le_iff₀ hp]; linarith [habs.2]

theorem sin_theta {d v : Pt ℝ} (hd : d ≠ ⟨0, 0⟩) (hv : v ≠ ⟨0, 0⟩) (hc : 0 ≤ d.cross v) :
    Real.sin (theta d v) = d.cross v / (d.norm * v.norm) := by
  have hp : 0 < d.norm * v.norm := mul_pos (norm_pos hd) (norm_pos hv)
  have h0 : 0 ≤ Real.sin (theta d v) :=
    Real.sin_nonneg_of_nonneg_of_le_pi (Real.arccos_nonneg _) (Real.arccos_le_pi _)
  have h1 : 0 ≤ d.cross v / (d.norm * v.norm) := div_nonneg hc hp.le
  have h2 : (d.norm * v.norm) ^ 2 = d.normSq * v.normSq := by
    rw [← norm_mul_self d, ← norm_mul_self v]; ring
  have h3 : Real.sin (theta d v) ^ 2 = (d.cross v / (d.norm * v.norm)) ^ 2 := by
    have := Real.sin_sq_add_cos_sq (theta d v)
    rw [cos_theta hd hv] at this
    have h4 : (d.dot v / (d.norm * v.norm)) ^ 2 + (d.cross v / (d.norm * v.norm)) ^ 2 = 1 := by
      rw [div_pow, div_pow, ← add_div, div_eq_one_iff_eq (pow_pos hp 2).ne', h2, ← lagrange]
      ring
    linarith
  exact (sq_eq_sq₀ h0 h1).1 h3

/-- Difference of two angles measured from the same direction. -/
theorem sin_sub {d a b : Pt ℝ} (hd : d ≠ ⟨0, 0⟩) (ha : a ≠ ⟨0, 0⟩) (hb : b ≠ ⟨0, 0⟩)
    (hca : 0 ≤ d.cross a) (hcb : 0 ≤ d.cross b) :
    Real.sin (theta d b - theta d a) = a.cross b / (a.norm * b.norm) := by
  have hpd := norm_pos hd
  have hpa := norm_pos ha
  have hpb := norm_pos hb
  rw [Real.sin_sub, sin_theta hd hb hcb, sin_theta hd ha hca, cos_theta hd ha, cos_theta hd hb]
  have key : d.cross b * d.dot a - d.dot b * d.cross a = d.normSq * a.cross b := by
    unfold dot cross normSq; ring
  have : d.cross b / (d.norm * b.norm) * (d.dot a / (d.norm * a.norm)) -
      d.dot b / (d.norm * b.norm) * (d.cross a / (d.norm * a.norm)) =
      (d.cross b * d.dot a - d.dot b * d.cross a) / (d.normSq * (a.norm * b.norm)) := by
    rw [← norm_mul_self d]
    field_simp
  rw [this, key, mul_div_mul_left _ _ (normSq_pos hd).ne']

theorem theta_mem (d v : Pt ℝ) : 0 ≤ theta d v ∧ theta d v ≤ Real.pi :=
  ⟨Real.arccos_nonneg _, Real.arccos_le_pi _⟩

/-- Smaller angle: the other point is on the left. -/
theorem cross_nonneg_of_theta_le {d a b : Pt ℝ} (hd : d ≠ ⟨0, 0⟩) (ha : a ≠ ⟨0, 0⟩)
    (hb : b ≠ ⟨0, 0⟩) (hca : 0 ≤ d.cross a) (hcb : 0 ≤ d.cross b) (h : theta d a ≤ theta d b) :
    0 ≤ a.cross b := by
  have h1 := sin_sub hd ha hb hca hcb
  have h2 : 0 ≤ Real.sin (theta d b - theta d a) := by
    apply Real.sin_nonneg_of_nonneg_of_le_pi
    · linarith
    · linarith [(theta_mem d b).2, (theta_mem d a).1]
  rw [h1] at h2
  have hp : 0 < a.norm * b.norm := mul_pos (norm_pos ha) (norm_pos hb)
  by_contra hn
  have := div_neg_of_neg_of_pos (not_le.1 hn) hp
  linarith

/-- Angles that differ by less than `EPS` are equal if the points are separated. -/
theorem theta_eq_of_close {d a b : Pt ℝ} (hd : d ≠ ⟨0, 0⟩) (ha : a ≠ ⟨0, 0⟩)
    (hb : b ≠ ⟨0, 0⟩) (hca : 0 ≤ d.cross a) (hcb : 0 ≤ d.cross b)
    (hs : a.cross b = 0 ∨ EPS * (a.norm * b.norm) < |a.cross b|)
    (h : |theta d a - theta d b| < EPS) : theta d a = theta d b := by
  have h1 := sin_sub hd ha hb hca hcb
  have hp : 0 < a.norm * b.norm := mul_pos (norm_pos ha) (norm_pos hb)
  rw [abs_sub_comm] at h
  rcases hs with hs | hs
  · rw [hs, zero_div] at h1
    have hpi := EPS_lt_pi
    have := (Real.sin_eq_zero_iff_of_lt_of_lt (x := theta d b - theta d a)
      (by linarith [(abs_lt.1 h).1]) (by linarith [(abs_lt.1 h).2])).1 h1
    linarith
  · exfalso
    have h2 : |Real.sin (theta d b - theta d a)| ≤ |theta d b - theta d a| := Real.abs_sin_le_abs
    rw [h1, abs_div, abs_of_pos hp] at h2
    have h3 : EPS < |a.cross b| / (a.norm * b.norm) := by
      rw [lt_div_iff₀ hp]; exact hs
    linarith

/-- Same direction, same angle. -/
theorem theta_smul {d a b : Pt ℝ} (ha : a ≠ ⟨0, 0⟩) {s : ℝ}
    (hs : 0 < s) (h : b = ⟨s * a.x, s * a.y⟩) : theta d b = theta d a := by
  have hn : b.norm = s * a.norm := by
    rw [norm, norm, show b.normSq = s ^ 2 * a.normSq by rw [h]; unfold normSq; ring,
      Real.sqrt_mul (sq_nonneg s), Real.sqrt_sq hs.le]
  have hd : d.dot b = s * d.dot a := by rw [h]; unfold dot; ring
  unfold theta
  rw [hn, hd]
  congr 1
  have := norm_pos ha
  rcases eq_or_lt_of_le (norm_nonneg d) with h0 | h0
  · rw [← h0]; simp
  · field_simp

theorem dot_pos_of_approx {d v : Pt ℝ} (hd : d ≠ ⟨0, 0⟩) (h : d.isApprox v) : 0 < d.dot v := by
  unfold isApprox at h
  have h1 : EPS * EPS * min d.normSq v.normSq ≤ EPS * EPS * d.normSq :=
    mul_le_mul_of_nonneg_left (min_le_left _ _) (mul_self_nonneg _)
  have h2 : (d.sub v).normSq = d.normSq - 2 * d.dot v + v.normSq := by
    unfold sub dot normSq; ring
  have h3 : EPS * EPS * d.normSq < d.normSq := by
    have := normSq_pos hd
    have : (EPS : ℝ) * EPS < 1 := by unfold EPS; norm_num
    nlinarith
  have := normSq_nonneg v
  linarith

theorem cross_le_of_approx {d v : Pt ℝ} (h : d.isApprox v) :
    |d.cross v| ≤ EPS * (d.norm * v.norm) := by
  unfold isApprox at h
  have h1 : EPS * EPS * min d.normSq v.normSq ≤ EPS * EPS * d.normSq :=
    mul_le_mul_of_nonneg_left (min_le_left _ _) (mul_self_nonneg _)
  have h2 : d.cross v = (d.sub v).cross v := by unfold sub cross; ring
  have h3 := lagrange (d.sub v) v
  rw [← h2] at h3
  have h4 : d.cross v ^ 2 ≤ (EPS * (d.norm * v.norm)) ^ 2 := by
    have e : (EPS * (d.norm * v.norm)) ^ 2 = EPS * EPS * d.normSq * v.normSq := by
      rw [← norm_mul_self d, ← norm_mul_self v]; ring
    rw [e]
    have := mul_le_mul_of_nonneg_right (h.trans h1) (normSq_nonneg v)
    nlinarith [mul_self_nonneg ((d.sub v).dot v)]
  exact abs_le_of_sq_le_sq h4
    (mul_nonneg EPS_pos.le (mul_nonneg (norm_nonneg d) (norm_nonneg v)))

theorem norm_neg (v : Pt ℝ) : v.neg.norm = v.norm := by
  unfold norm neg normSq; simp

theorem neg_ne_zero {v : Pt ℝ} (h : v ≠ ⟨0, 0⟩) : v.neg ≠ ⟨0, 0⟩ := by
  intro h'
  apply h
  have hx : -v.x = 0 := congrArg Pt.x h'
  have hy : -v.y = 0 := congrArg Pt.y h'
  exact Pt.ext' (neg_eq_zero.1 hx) (neg_eq_zero.1 hy)

theorem cross_neg (d v : Pt ℝ) : d.cross v.neg = -d.cross v := by unfold cross neg; ring
theorem dot_neg (d v : Pt ℝ) : d.dot v.neg = -d.dot v := by unfold dot neg; ring

theorem dot_sq_of_cross {d v : Pt ℝ} (h : d.cross v = 0) :
    d.dot v ^ 2 = (d.norm * v.norm) ^ 2 := by
  have := lagrange d v
  rw [h] at this
  have e : (d.norm * v.norm) ^ 2 = d.normSq * v.normSq := by
    rw [← norm_mul_self d, ← norm_mul_self v]; ring
  rw [e]; linarith

/-- `angleBetweenVecs` is the angle, for separated vectors on the left. -/
theorem angle_eq_theta {δ : ℝ} {d v : Pt ℝ} (hd : d ≠ ⟨0, 0⟩) (hv : v ≠ ⟨0, 0⟩)
    (hdz : ¬ d.isZero δ) (hvz : ¬ v.isZero δ) (hc : 0 ≤ d.cross v)
    (h1 : d.isApprox v → d.cross v = 0) (h2 : d.isApprox v.neg → d.cross v = 0) :
    angleBetweenVecs δ d v = theta d v := by
  have hp : 0 < d.norm * v.norm := mul_pos (norm_pos hd) (norm_pos hv)
  unfold angleBetweenVecs theta
  by_cases ha : d.isApprox v
  · rw [if_pos (Or.inr (Or.inr ha))]
    have h3 := dot_pos_of_approx hd ha
    have h4 := (sq_eq_sq₀ h3.le hp.le).1 (dot_sq_of_cross (h1 ha))
    rw [h4, div_self hp.ne', Real.arccos_one]
  · rw [if_neg (by tauto)]
    by_cases hb : d.isApprox v.neg
    · rw [if_pos hb]
      have h3 := dot_pos_of_approx hd hb
      rw [dot_neg] at h3
      have h5 : (-d.dot v) ^ 2 = (d.norm * v.norm) ^ 2 := by
        rw [neg_sq]; exact dot_sq_of_cross (h2 hb)
      have h4 := (sq_eq_sq₀ h3.le hp.le).1 h5
      rw [show d.dot v = -(d.norm * v.norm) by linarith, neg_div, div_self hp.ne',
        Real.arccos_neg_one]
    · rw [if_neg hb]
      simp only [hc, if_true]

end Pt
end MPC
