import Verif.Lemmas.Gains

/-! # Linear feedback of the jerk (C94)

A body moves during periods of constant jerk, and the jerk of each period is a linear function of the state at its
beginning. Exact condition for the motion to vanish. The unit of time is the period. -/

set_option linter.unusedSectionVars false

namespace MPC
open Finset Filter Topology

/-- The motion with the jerk `-(a P + b V + c A)`. -/
def TripleLoop (a b c : ℝ) (P V A : ℕ → ℝ) : Prop :=
  ∀ n, P (n + 1) = P n + V n + A n / 2 - (a * P n + b * V n + c * A n) / 6 ∧
    V (n + 1) = V n + A n - (a * P n + b * V n + c * A n) / 2 ∧ A (n + 1) = A n - (a * P n + b * V n + c * A n)

/-- The recurrence of each coordinate. -/
def TripleRec (a b c : ℝ) (y : ℕ → ℝ) : Prop :=
  ∀ n, y (n + 3) = (3 - (a / 6 + b / 2 + c)) * y (n + 2) - (3 - 2 * (a / 6 + b / 2 + c) + (a + b)) * y (n + 1)
    + (1 - (a / 6 + b / 2 + c) + b) * y n

/-- When the motion vanishes. -/
def TripleStable (a b c : ℝ) : Prop := 0 < a ∧ a < 2 * b ∧ 12 * c < 24 + a ∧ 2 * a < b * (2 * c - b + a / 3)

variable {a b c : ℝ}

theorem TripleLoop.recs {P V A : ℕ → ℝ} (h : TripleLoop a b c P V A) :
    TripleRec a b c P ∧ TripleRec a b c V ∧ TripleRec a b c A := by
  refine ⟨fun n => ?_, fun n => ?_, fun n => ?_⟩ <;>
  · obtain ⟨p1, v1, a1⟩ := h n
    obtain ⟨p2, v2, a2⟩ := h (n + 1)
    obtain ⟨p3, v3, a3⟩ := h (n + 2)
    rw [show n + 1 + 1 = n + 2 from rfl] at *
    rw [show n + 2 + 1 = n + 3 from rfl] at *
    simp only [p3, v3, a3, p2, v2, a2, p1, v1, a1]
    ring

theorem triple_factor (ha : 0 < a) (hc : 12 * c < 24 + a) :
    ∃ r t q : ℝ, -1 < r ∧ r < 1 ∧ r + t = 3 - (a / 6 + b / 2 + c) ∧ r * t + q = 3 - 2 * (a / 6 + b / 2 + c) + (a + b) ∧
      r * q = 1 - (a / 6 + b / 2 + c) + b := by
  set F : ℝ → ℝ := fun z => z ^ 3 - (3 - (a / 6 + b / 2 + c)) * z ^ 2 + (3 - 2 * (a / 6 + b / 2 + c) + (a + b)) * z
    - (1 - (a / 6 + b / 2 + c) + b) with hF
  have hcont : Continuous F := by rw [hF]; fun_prop
  have h0 : F (-1) < 0 := by simp only [hF]; linarith
  have h1 : 0 < F 1 := by simp only [hF]; linarith
  obtain ⟨r, ⟨hr0, hr1⟩, hr⟩ := intermediate_value_Icc (by norm_num : (-1 : ℝ) ≤ 1) hcont.continuousOn ⟨h0.le, h1.le⟩
  have r0 : -1 < r := lt_of_le_of_ne hr0 (by rintro rfl; linarith)
  have r1 : r < 1 := lt_of_le_of_ne hr1 (by rintro rfl; linarith)
  refine ⟨r, 3 - (a / 6 + b / 2 + c) - r, 3 - 2 * (a / 6 + b / 2 + c) + (a + b) - r * (3 - (a / 6 + b / 2 + c) - r), r0, r1,
    by ring, by ring, ?_⟩
  simp only [hF] at hr
  linear_combination hr

/-- The condition of stability in terms of the factors. -/
theorem triple_stable {r t q : ℝ} (ha : 0 < a) (hc : 12 * c < 24 + a) (r0 : -1 < r) (r1 : r < 1)
    (e1 : r + t = 3 - (a / 6 + b / 2 + c)) (e2 : r * t + q = 3 - 2 * (a / 6 + b / 2 + c) + (a + b))
    (e3 : r * q = 1 - (a / 6 + b / 2 + c) + b) :
    0 < 1 + t + q ∧ 0 < 1 - t + q ∧ (q < 1 ↔ a < 2 * b ∧ 2 * a < b * (2 * c - b + a / 3)) := by
  have f1 : (1 + r) * (1 + t + q) = 8 - 4 * c + a / 3 := by linear_combination e1 + e2 + e3
  have f2 : (1 - r) * (1 - t + q) = a := by linear_combination -e1 + e2 - e3
  have f3 : 2 * (1 + r) * (1 - q) + (1 - r) * (1 + t + q) = 4 * c - 2 * b - a / 3 := by linear_combination -e1 - e2 + (-3) * e3 + 2 * e1
  have f4 : (1 + r) * (1 - t + q) + 2 * (1 - r) * (1 - q) = 2 * b - a := by linear_combination -e1 - e2 + 3 * e3
  have p1 : 0 < 1 + t + q := by
    refine (mul_pos_iff_of_pos_left (by linarith : 0 < 1 + r)).1 ?_
    rw [f1]; linarith
  have p2 : 0 < 1 - t + q := by
    refine (mul_pos_iff_of_pos_left (by linarith : 0 < 1 - r)).1 ?_
    rw [f2]; exact ha
  refine ⟨p1, p2, ?_⟩
  -- the determinant of Hurwitz
  have key : (4 * c - 2 * b - a / 3) * (2 * b - a) - (8 - 4 * c + a / 3) * a = 4 * (b * (2 * c - b + a / 3) - 2 * a) := by ring
  rw [← f1, ← f3, ← f4] at key
  have key2 : 2 * (1 - q) * ((1 + r) * ((1 + r) * (1 - t + q) + 2 * (1 - r) * (1 - q)) + (1 - r) ^ 2 * (1 + t + q))
      = 4 * (b * (2 * c - b + a / 3) - 2 * a) := by
    linear_combination key - (1 + r) * (1 + t + q) * f2
  have rp : 0 < 1 + r := by linarith
  have rm : 0 < 1 - r := by linarith
  have p3 : 0 < (1 - r) ^ 2 * (1 + t + q) := by positivity
  constructor
  · intro hq
    have q1 : 0 < 1 - q := by linarith
    have h1 : 0 < (1 + r) * (1 - t + q) + 2 * (1 - r) * (1 - q) := by positivity
    have h2 : 0 < 2 * (1 - q) * ((1 + r) * ((1 + r) * (1 - t + q) + 2 * (1 - r) * (1 - q)) + (1 - r) ^ 2 * (1 + t + q)) := by
      positivity
    rw [key2] at h2
    rw [f4] at h1
    exact ⟨by linarith, by linarith⟩
  · rintro ⟨h1, h2⟩
    have h3 : 0 < (1 + r) * (1 - t + q) + 2 * (1 - r) * (1 - q) := by rw [f4]; linarith
    have h4 : 0 < (1 + r) * ((1 + r) * (1 - t + q) + 2 * (1 - r) * (1 - q)) + (1 - r) ^ 2 * (1 + t + q) := by positivity
    have h5 : 0 < 2 * (1 - q) * ((1 + r) * ((1 + r) * (1 - t + q) + 2 * (1 - r) * (1 - q)) + (1 - r) ^ 2 * (1 + t + q)) := by
      rw [key2]; linarith
    have := (mul_pos_iff_of_pos_right h4).1 h5
    linarith

theorem filter_bounded_abs {y w : ℕ → ℝ} {r B : ℝ} (hr : |r| < 1) (h : ∀ n, y (n + 1) = r * y n + w n) (hw : ∀ n, |w n| ≤ B)
    (n : ℕ) : |y n| ≤ |y 0| + B / (1 - |r|) := by
  have h1 : 0 < 1 - |r| := by linarith
  have hB : 0 ≤ B := (abs_nonneg _).trans (hw 0)
  have hd : 0 ≤ B / (1 - |r|) := by positivity
  have he : |r| * (B / (1 - |r|)) + B = B / (1 - |r|) := by field_simp; ring
  induction n with
  | zero => linarith
  | succ n ih =>
    rw [h]
    refine (abs_add_le _ _).trans ?_
    rw [abs_mul]
    have h2 := mul_le_mul_of_nonneg_left ih (abs_nonneg r)
    have h3 : |r| * |y 0| ≤ |y 0| := by nlinarith [abs_nonneg (y 0)]
    have := hw n
    rw [mul_add] at h2
    linarith

/-- A stable loop vanishes, and is bounded by its beginning. -/
theorem triple_returns (hs : TripleStable a b c) :
    ∃ B > 0, ∀ (e : ℝ) (P V A : ℕ → ℝ), TripleLoop a b c P V A → |P 0| ≤ e → |V 0| ≤ e → |A 0| ≤ e →
      ((∀ n, |P n| ≤ B * e) ∧ Tendsto P atTop (𝓝 0)) ∧ ((∀ n, |V n| ≤ B * e) ∧ Tendsto V atTop (𝓝 0)) ∧
        (∀ n, |A n| ≤ B * e) ∧ Tendsto A atTop (𝓝 0) := by
  obtain ⟨ha, b1, b2, b3⟩ := hs
  obtain ⟨r, t, q, r0, r1, e1, e2, e3⟩ := triple_factor (b := b) ha b2
  obtain ⟨f1, f2, f3⟩ := triple_stable ha b2 r0 r1 e1 e2 e3
  have hq : q < 1 := f3.2 ⟨b1, b3⟩
  have ht : |t| < 1 + q := abs_lt.2 ⟨by linarith, by linarith⟩
  have hc0 : 0 < 1 - (t / (1 + q)) ^ 2 := ratio_sq ht
  set c0 := 1 - (t / (1 + q)) ^ 2
  have hr : |r| < 1 := abs_lt.2 ⟨r0, r1⟩
  have r1' : 0 < 1 - |r| := by linarith
  set L := 3 + |a| + |b| + |c| with hL
  have hL0 : 3 ≤ L := by rw [hL]; linarith [abs_nonneg a, abs_nonneg b, abs_nonneg c]
  refine ⟨1 + (L + 1) ^ 2 / c0 / (1 - |r|), by positivity, ?_⟩
  intro e P V A h hP hV hA
  have he : 0 ≤ e := (abs_nonneg _).trans hP
  have main : ∀ y : ℕ → ℝ, TripleRec a b c y → |y 0| ≤ e → |y 1| ≤ L * e → |y 2| ≤ L * (L * e) →
      (∀ n, |y n| ≤ (1 + (L + 1) ^ 2 / c0 / (1 - |r|)) * e) ∧ Tendsto y atTop (𝓝 0) := by
    intro y hy h0 h1 h2
    have hw2 : ∀ n, (y (n + 2 + 1) - r * y (n + 2)) = t * (y (n + 1 + 1) - r * y (n + 1)) - q * (y (n + 1) - r * y n) := by
      intro n
      have := hy n
      rw [← e1, ← e2, ← e3] at this
      rw [show n + 2 + 1 = n + 3 from rfl, show n + 1 + 1 = n + 2 from rfl, this]
      ring
    have one : ∀ a b E F : ℝ, |a| ≤ E → |b| ≤ F → |a - r * b| ≤ E + F := by
      intro a b E F ha hb
      refine (abs_sub _ _).trans (add_le_add ha ?_)
      rw [abs_mul]
      calc |r| * |b| ≤ 1 * F := mul_le_mul hr.le hb (abs_nonneg _) zero_le_one
        _ = F := one_mul F
    have hw0 : ∀ n, |y (n + 1) - r * y n| ≤ (L + 1) ^ 2 * e / c0 := by
      intro n
      refine (recurrence_bounded (y := fun n => y (n + 1) - r * y n) ht hq hw2 n).trans ?_
      rw [div_le_div_iff_of_pos_right hc0]
      have g1 := one _ _ _ _ h1 h0
      have g2 := one _ _ _ _ h2 h1
      have : (L + 1) ^ 2 * e = (L * e + e) + (L * (L * e) + L * e) := by ring
      rw [this]
      exact add_le_add g1 g2
    constructor
    · intro n
      have := filter_bounded_abs (y := y) (w := fun n => y (n + 1) - r * y n) hr (fun n => by ring) hw0 n
      have e4 : (1 + (L + 1) ^ 2 / c0 / (1 - |r|)) * e = e + (L + 1) ^ 2 * e / c0 / (1 - |r|) := by ring
      linarith
    · exact filter_tendsto (y := y) (w := fun n => y (n + 1) - r * y n) (r := r) hr (fun n => by ring)
        (recurrence_tendsto (y := fun n => y (n + 1) - r * y n) ht hq hw2)
  have grow : ∀ n Q, |P n| ≤ Q → |V n| ≤ Q → |A n| ≤ Q →
      |P (n + 1)| ≤ L * Q ∧ |V (n + 1)| ≤ L * Q ∧ |A (n + 1)| ≤ L * Q := by
    intro n Q h1 h2 h3
    obtain ⟨g1, g2, g3⟩ := h n
    rw [g1, g2, g3]
    have Q0 : 0 ≤ Q := (abs_nonneg _).trans h1
    have s1 : |a * P n| ≤ |a| * Q := by rw [abs_mul]; exact mul_le_mul_of_nonneg_left h1 (abs_nonneg a)
    have s2 : |b * V n| ≤ |b| * Q := by rw [abs_mul]; exact mul_le_mul_of_nonneg_left h2 (abs_nonneg b)
    have s3 : |c * A n| ≤ |c| * Q := by rw [abs_mul]; exact mul_le_mul_of_nonneg_left h3 (abs_nonneg c)
    have s6 : |a * P n + b * V n + c * A n| ≤ (L - 3) * Q := by
      refine (abs_add_le _ _).trans ?_
      have := abs_add_le (a * P n) (b * V n)
      rw [hL]
      linarith
    have s7 : 0 ≤ (L - 3) * Q := mul_nonneg (by linarith) Q0
    generalize a * P n + b * V n + c * A n = J at *
    have s8 : L * Q = 3 * Q + (L - 3) * Q := by ring
    rw [s8]
    generalize (L - 3) * Q = M at *
    clear s1 s2 s3
    simp only [abs_le] at h1 h2 h3 s6 ⊢
    refine ⟨⟨?_, ?_⟩, ⟨?_, ?_⟩, ⟨?_, ?_⟩⟩ <;> linarith
  obtain ⟨hrP, hrV, hrA⟩ := h.recs
  have i1 := grow 0 e hP hV hA
  have i2 := grow 1 (L * e) i1.1 i1.2.1 i1.2.2
  exact ⟨main P hrP hP i1.1 i2.1, main V hrV hV i1.2.1 i2.2.1, main A hrA hA i1.2.2 i2.2.2⟩

/-- A real root of the polynomial out of the unit disk gives a motion that does not vanish. -/
theorem triple_eigen {x : ℝ} (h1 : 1 ≤ |x|)
    (hx : x ^ 3 - (3 - (a / 6 + b / 2 + c)) * x ^ 2 + (3 - 2 * (a / 6 + b / 2 + c) + (a + b)) * x - (1 - (a / 6 + b / 2 + c) + b) = 0) :
    ∃ p v k : ℝ, ∀ s ≠ 0, ∀ P V A : ℕ → ℝ, TripleLoop a b c P V A → P 0 = s * p → V 0 = s * v → A 0 = s * k →
      Tendsto P atTop (𝓝 0) → Tendsto A atTop (𝓝 0) → False := by
  set d := x - 1 with hd
  have hxd : x = d + 1 := by rw [hd]; ring
  clear_value d
  subst hxd
  have hcub : d ^ 3 = -(a * (1 + d + d ^ 2 / 6) + b * (d + d ^ 2 / 2) + c * d ^ 2) := by
    linear_combination hx
  refine ⟨1 + d + d ^ 2 / 6, d + d ^ 2 / 2, d ^ 2, fun s hs P V A h hP hV hA lP lA => ?_⟩
  have inv : ∀ n, P n = (d + 1) ^ n * (s * (1 + d + d ^ 2 / 6)) ∧ V n = (d + 1) ^ n * (s * (d + d ^ 2 / 2)) ∧
      A n = (d + 1) ^ n * (s * d ^ 2) := by
    intro n
    induction n with
    | zero => simp [hP, hV, hA]
    | succ n ih =>
      obtain ⟨g1, g2, g3⟩ := h n
      rw [ih.1, ih.2.1, ih.2.2] at g1 g2 g3
      rw [g1, g2, g3, pow_succ (d + 1) n]
      generalize (d + 1) ^ n = u
      refine ⟨?_, ?_, ?_⟩
      · linear_combination -(u * s / 6) * hcub
      · linear_combination -(u * s / 2) * hcub
      · linear_combination -(u * s) * hcub
  by_cases hd0 : d = 0
  · subst hd0
    have : ∀ n, P n = s := fun n => by rw [(inv n).1]; simp
    exact hs (tendsto_nhds_unique lP (tendsto_const_nhds.congr fun n => (this n).symm)).symm
  · refine real_not_tendsto (y := A) h1 ?_ ?_ lA
    · intro n
      rw [(inv n).2.2, (inv (n + 1)).2.2, pow_succ (d + 1) n]; ring
    · rw [(inv 0).2.2, pow_zero, one_mul]
      exact mul_ne_zero hs (pow_ne_zero 2 hd0)

/-- A loop that is not stable has a direction from which no motion vanishes. -/
theorem triple_leaves (hs : ¬ TripleStable a b c) :
    ∃ p v k : ℝ, ∀ s ≠ 0, ∀ P V A : ℕ → ℝ, TripleLoop a b c P V A → P 0 = s * p → V 0 = s * v → A 0 = s * k →
      Tendsto P atTop (𝓝 0) → Tendsto A atTop (𝓝 0) → False := by
  set F : ℝ → ℝ := fun z => z ^ 3 - (3 - (a / 6 + b / 2 + c)) * z ^ 2 + (3 - 2 * (a / 6 + b / 2 + c) + (a + b)) * z
    - (1 - (a / 6 + b / 2 + c) + b) with hF
  have hcont : Continuous F := by rw [hF]; fun_prop
  have hFd : ∀ d, F (1 + d) = d ^ 3 + (a / 6 + b / 2 + c) * d ^ 2 + (a + b) * d + a := fun d => by simp only [hF]; ring
  set E := |a / 6 + b / 2 + c| + |a + b| + |a| + 2 with hE
  have E2 : 2 ≤ E := by rw [hE]; linarith [abs_nonneg (a / 6 + b / 2 + c), abs_nonneg (a + b), abs_nonneg a]
  -- the cube dominates
  have big : ∀ u : ℝ, |u| ≤ 1 → |(a / 6 + b / 2 + c) * u * E ^ 2| + |(a + b) * E| + |a| ≤ E ^ 3 := by
    intro u hu
    have g1 : |(a / 6 + b / 2 + c) * u * E ^ 2| ≤ |a / 6 + b / 2 + c| * E ^ 2 := by
      rw [abs_mul, abs_mul, abs_of_pos (show 0 < E ^ 2 by positivity)]
      have := mul_le_mul_of_nonneg_left hu (abs_nonneg (a / 6 + b / 2 + c))
      rw [mul_one] at this
      exact mul_le_mul_of_nonneg_right this (by positivity)
    have g2 : |(a + b) * E| ≤ |a + b| * E ^ 2 := by
      rw [abs_mul, abs_of_pos (by linarith : 0 < E)]
      exact mul_le_mul_of_nonneg_left (by nlinarith) (abs_nonneg _)
    have g3 : |a| ≤ |a| * E ^ 2 := le_mul_of_one_le_right (abs_nonneg _) (by nlinarith)
    have g4 : E ^ 3 = |a / 6 + b / 2 + c| * E ^ 2 + |a + b| * E ^ 2 + |a| * E ^ 2 + 2 * E ^ 2 := by
      rw [pow_succ', ← add_mul, ← add_mul, ← add_mul, ← hE]
    nlinarith [sq_nonneg E]
  rcases le_or_gt a 0 with ha | ha
  · have h0 : F 1 ≤ 0 := by have := hFd 0; rw [add_zero] at this; rw [this]; linarith
    have h1 : 0 ≤ F (1 + E) := by
      rw [hFd]
      have := big 1 (by simp)
      rw [mul_one] at this
      have k1 := neg_abs_le ((a / 6 + b / 2 + c) * E ^ 2)
      have k2 := neg_abs_le ((a + b) * E)
      have k3 := neg_abs_le a
      linarith
    obtain ⟨x, ⟨hx1, -⟩, hx⟩ := intermediate_value_Icc (by linarith : (1 : ℝ) ≤ 1 + E) hcont.continuousOn ⟨h0, h1⟩
    exact triple_eigen (x := x) (by rw [abs_of_pos (by linarith)]; exact hx1) hx
  rcases le_or_gt (24 + a) (12 * c) with hc | hc
  · have h0 : F (1 + -E) ≤ 0 := by
      rw [hFd]
      have := big (-1) (by simp)
      have k1 := neg_abs_le ((a / 6 + b / 2 + c) * -1 * E ^ 2)
      have k2 := neg_abs_le ((a + b) * E)
      have k3 := le_abs_self a
      have : (-E) ^ 3 = -E ^ 3 := by ring
      rw [this, neg_sq]
      linarith
    have h1 : 0 ≤ F (-1) := by
      have := hFd (-2)
      rw [show (1 : ℝ) + -2 = -1 by norm_num] at this
      rw [this]; linarith
    obtain ⟨x, ⟨-, hx1⟩, hx⟩ := intermediate_value_Icc (by linarith : (1 : ℝ) + -E ≤ -1) hcont.continuousOn ⟨h0, h1⟩
    exact triple_eigen (x := x) (by rw [abs_of_neg (by linarith)]; linarith) hx
  obtain ⟨r, t, q, r0, r1, e1, e2, e3⟩ := triple_factor (b := b) ha hc
  obtain ⟨f1, f2, f3⟩ := triple_stable ha hc r0 r1 e1 e2 e3
  have hq : 1 ≤ q := by
    by_contra hq
    push Not at hq
    exact hs ⟨ha, (f3.1 hq).1, hc, (f3.1 hq).2⟩
  rcases unstable_root (.inl hq : 1 ≤ q ∨ 1 + t + q ≤ 0) with ⟨h1, h2⟩ | ⟨x, hx, h1⟩
  · refine ⟨-c / a, 0, 1, fun s hs0 P V A h hP hV hA lP lA => ?_⟩
    refine pair_not_tendsto (y := fun n => A (n + 1) - r * A n) h1 h2 ?_ ?_ ?_
    · intro n
      have h := h.recs.2.2 n
      rw [← e1, ← e2, ← e3] at h
      change A (n + 3) - r * A (n + 2) = _
      rw [h]
      change _ = t * (A (n + 2) - r * A (n + 1)) - q * (A (n + 1) - r * A n)
      ring
    · have h3 := (h 0).2.2
      rw [hP, hV, hA] at h3
      change A (0 + 1) - r * A 0 ≠ 0
      rw [h3, hA]
      have : s * 1 - (a * (s * (-c / a)) + b * (s * 0) + c * (s * 1)) - r * (s * 1) = s * (1 - r) := by field_simp; ring
      rw [this]
      exact mul_ne_zero hs0 (by linarith)
    · have := (lA.comp (tendsto_add_atTop_nat 1)).sub (lA.const_mul r)
      simpa using this
  · refine triple_eigen h1 ?_
    rw [← e1, ← e2, ← e3]
    linear_combination (x - r) * hx

end MPC
