import Verif.Lemmas.Gains
import Verif.Props.Fall
import Verif.Spec.Return

/-! # Stability of a standing robot with one sample (C93) -/

set_option linter.unusedSectionVars false

namespace MPC
open Finset Filter Topology

/-- The motion of the CoM of a standing robot in units of the sampling period: position, velocity and acceleration. -/
def StandLoop {K : Type} [Field K] (g q l : K) (P V A : ℕ → K) : Prop :=
  ∀ n, P (n + 1) = P n + V n + A n / 2 - (2 * l * (V n + A n) + g * q * (P n + V n + (1 / 3 + q) * A n)) / 6 ∧
    V (n + 1) = V n + A n - (2 * l * (V n + A n) + g * q * (P n + V n + (1 / 3 + q) * A n)) / 2 ∧
    A (n + 1) = A n - (2 * l * (V n + A n) + g * q * (P n + V n + (1 / 3 + q) * A n))

/-- The recurrence of each coordinate. -/
def StandRec (g q l : ℝ) (y : ℕ → ℝ) : Prop :=
  ∀ n, y (n + 3) = (3 - 3 * l - g * q ^ 2 - g * q) * y (n + 2) - (3 - 4 * l - 2 * (g * q ^ 2)) * y (n + 1)
    + (1 - l - g * q ^ 2) * y n

variable {g q l : ℝ}

theorem StandLoop.recs {P V A : ℕ → ℝ} (h : StandLoop g q l P V A) : StandRec g q l P ∧ StandRec g q l V ∧ StandRec g q l A := by
  refine ⟨fun n => ?_, fun n => ?_, fun n => ?_⟩ <;>
  · obtain ⟨p1, v1, a1⟩ := h n
    obtain ⟨p2, v2, a2⟩ := h (n + 1)
    obtain ⟨p3, v3, a3⟩ := h (n + 2)
    rw [show n + 1 + 1 = n + 2 from rfl] at *
    rw [show n + 2 + 1 = n + 3 from rfl] at *
    simp only [p3, v3, a3, p2, v2, a2, p1, v1, a1]
    ring

/-- The polynomial has a root between 0 and 1, and the others are those of `z² - t z + c`. -/
theorem stand_factor (hg : 0 < g) (hq : 0 < q) (hm : g * q ^ 2 + l < 1) :
    ∃ r t c : ℝ, 0 < r ∧ r < 1 ∧ r + t = 3 - 3 * l - g * q ^ 2 - g * q ∧ r * t + c = 3 - 4 * l - 2 * (g * q ^ 2) ∧
      r * c = 1 - l - g * q ^ 2 := by
  have hb : 0 < g * q := mul_pos hg hq
  set F : ℝ → ℝ := fun z => z ^ 3 - (3 - 3 * l - g * q ^ 2 - g * q) * z ^ 2 + (3 - 4 * l - 2 * (g * q ^ 2)) * z - (1 - l - g * q ^ 2) with hF
  have hc : Continuous F := by rw [hF]; fun_prop
  have h0 : F 0 < 0 := by simp only [hF]; linarith
  have h1 : 0 < F 1 := by simp only [hF]; linarith
  obtain ⟨r, ⟨hr0, hr1⟩, hr⟩ := intermediate_value_Icc (zero_le_one' ℝ) hc.continuousOn ⟨h0.le, h1.le⟩
  have r0 : 0 < r := lt_of_le_of_ne hr0 (by rintro rfl; linarith)
  have r1 : r < 1 := lt_of_le_of_ne hr1 (by rintro rfl; linarith)
  refine ⟨r, 3 - 3 * l - g * q ^ 2 - g * q - r, 3 - 4 * l - 2 * (g * q ^ 2) - r * (3 - 3 * l - g * q ^ 2 - g * q - r), r0, r1,
    by ring, by ring, ?_⟩
  simp only [hF] at hr
  linear_combination hr

/-- The condition of stability in terms of the factors. -/
theorem stand_stable {r t c : ℝ} (hg : 0 < g) (hq : 0 < q) (hl : 0 ≤ l) (hm : g * q ^ 2 + l < 1) (r0 : 0 < r) (r1 : r < 1)
    (e1 : r + t = 3 - 3 * l - g * q ^ 2 - g * q) (e2 : r * t + c = 3 - 4 * l - 2 * (g * q ^ 2))
    (e3 : r * c = 1 - l - g * q ^ 2) :
    (c < 1 ↔ g * q * (1 - l - g * q ^ 2) < 2 * l * (g * q ^ 2 + l)) ∧
    (0 < 1 + t + c ↔ g * q * (1 - 4 * q) < 8 * (1 - l - g * q ^ 2)) ∧ 0 < 1 - t + c := by
  have hb : 0 < g * q := mul_pos hg hq
  have hk : 0 < g * q ^ 2 := by positivity
  have hkb : g * q * (1 - 4 * q) = g * q - 4 * (g * q ^ 2) := by ring
  rw [hkb]
  generalize g * q ^ 2 = k at *
  generalize g * q = b at *
  have f1 : (1 + r) * (1 + t + c) = 8 - 8 * l - 4 * k - b := by linear_combination e1 + e2 + e3
  have f2 : (1 - r) * (1 - t + c) = b := by linear_combination -e1 + e2 - e3
  -- the polynomial at `1 - k - l = r c`
  have f3 : (r * c - r) * ((r * c) ^ 2 - t * (r * c) + c) = (1 - l - k) * (b * (1 - l - k) - 2 * l * (k + l)) := by
    have : ∀ z, (z - r) * (z ^ 2 - t * z + c) = z ^ 3 - (r + t) * z ^ 2 + (r * t + c) * z - r * c := fun z => by ring
    rw [this, e1, e2, e3]
    ring
  have f4 : 0 < 1 - t + c := by
    by_contra h
    push Not at h
    have := mul_nonneg (by linarith : 0 ≤ 1 - r) (by linarith : 0 ≤ -(1 - t + c))
    nlinarith
  have hc : 0 < c := by
    by_contra h
    push Not at h
    nlinarith
  refine ⟨?_, ?_, f4⟩
  · have hQ : 0 < (r * c) ^ 2 - t * (r * c) + c := by
      by_contra h
      push Not at h
      have h1 : c * (r ^ 2 * c - t * r + 1) ≤ 0 := by linarith [h]
      have h2 : r ^ 2 * c - t * r + 1 ≤ 0 := by
        by_contra h3
        push Not at h3
        linarith [mul_pos hc h3]
      have h3 : t * r < (1 + c) * r := mul_lt_mul_of_pos_right (by linarith) r0
      have h4 : 0 < (r * c - 1) * (1 - r) := by nlinarith
      rw [e3] at h4
      have := mul_nonneg (by linarith : 0 ≤ k + l) (by linarith : 0 ≤ 1 - r)
      nlinarith
    have hm0 : 0 < 1 - l - k := by linarith
    have f5 : r * (c - 1) * ((r * c) ^ 2 - t * (r * c) + c) = (1 - l - k) * (b * (1 - l - k) - 2 * l * (k + l)) := by
      rw [← f3]; ring
    constructor
    · intro h
      have h1 := mul_pos (mul_pos r0 (by linarith : 0 < 1 - c)) hQ
      have h2 : 0 < (1 - l - k) * (2 * l * (k + l) - b * (1 - l - k)) := by linarith
      have := (mul_pos_iff_of_pos_left hm0).1 h2
      linarith
    · intro h
      by_contra h'
      push Not at h'
      have h1 := mul_nonneg (mul_nonneg r0.le (by linarith : 0 ≤ c - 1)) hQ.le
      have h2 := mul_pos hm0 (by linarith : 0 < 2 * l * (k + l) - b * (1 - l - k))
      linarith
  · constructor
    · intro h; nlinarith [mul_pos (by linarith : 0 < 1 + r) h]
    · intro h
      by_contra h'
      push Not at h'
      nlinarith [mul_nonneg (by linarith : 0 ≤ 1 + r) (by linarith : 0 ≤ -(1 + t + c))]

/-- When the loop is stable. -/
def StandStable {K : Type} [Field K] [LinearOrder K] (g q l : K) : Prop :=
  0 < q ∧ g * q * (1 - 4 * q) < 8 * (1 - l - g * q ^ 2) ∧ g * q * (1 - l - g * q ^ 2) < 2 * l * (g * q ^ 2 + l)

/-- A stable loop vanishes, and is bounded by its beginning. -/
theorem stand_returns (hg : 0 < g) (hl : 0 ≤ l) (hm : g * q ^ 2 + l < 1) (hs : StandStable g q l) :
    ∃ B > 0, ∀ (e : ℝ) (P V A : ℕ → ℝ), StandLoop g q l P V A → |P 0| ≤ e → |V 0| ≤ e → |A 0| ≤ e →
      ((∀ n, |P n| ≤ B * e) ∧ Tendsto P atTop (𝓝 0)) ∧ ((∀ n, |V n| ≤ B * e) ∧ Tendsto V atTop (𝓝 0)) ∧
        (∀ n, |A n| ≤ B * e) ∧ Tendsto A atTop (𝓝 0) := by
  obtain ⟨hq, b1, b2⟩ := hs
  obtain ⟨r, t, c, r0, r1, e1, e2, e3⟩ := stand_factor hg hq hm
  obtain ⟨f1, f2, f3⟩ := stand_stable hg hq hl hm r0 r1 e1 e2 e3
  have hc : c < 1 := f1.2 b2
  have ht : |t| < 1 + c := abs_lt.2 ⟨by linarith [f2.2 b1], by linarith⟩
  have hc0 : 0 < 1 - (t / (1 + c)) ^ 2 := ratio_sq ht
  set c0 := 1 - (t / (1 + c)) ^ 2
  have r1' : 0 < 1 - r := by linarith
  have hb : 0 < g * q := mul_pos hg hq
  set L := 3 + 4 * l + g * q * (7 / 3 + q) with hL
  have hL0 : 3 ≤ L := by
    have : 0 < g * q * (7 / 3 + q) := by positivity
    rw [hL]; linarith
  refine ⟨1 + (L + 1) ^ 2 / c0 / (1 - r), by positivity, ?_⟩
  intro e P V A h hP hV hA
  have he : 0 ≤ e := (abs_nonneg _).trans hP
  have main : ∀ y : ℕ → ℝ, StandRec g q l y → |y 0| ≤ e → |y 1| ≤ L * e → |y 2| ≤ L * (L * e) →
      (∀ n, |y n| ≤ (1 + (L + 1) ^ 2 / c0 / (1 - r)) * e) ∧ Tendsto y atTop (𝓝 0) := by
    intro y hy h0 h1 h2
    have hw2 : ∀ n, (y (n + 2 + 1) - r * y (n + 2)) = t * (y (n + 1 + 1) - r * y (n + 1)) - c * (y (n + 1) - r * y n) := by
      intro n
      have := hy n
      rw [← e1, ← e2, ← e3] at this
      rw [show n + 2 + 1 = n + 3 from rfl, show n + 1 + 1 = n + 2 from rfl, this]
      ring
    have one : ∀ a b E F : ℝ, |a| ≤ E → |b| ≤ F → |a - r * b| ≤ E + F := by
      intro a b E F ha hb
      refine (abs_sub _ _).trans (add_le_add ha ?_)
      rw [abs_mul, abs_of_pos r0]
      calc r * |b| ≤ 1 * F := mul_le_mul r1.le hb (abs_nonneg _) zero_le_one
        _ = F := one_mul F
    have hw0 : ∀ n, |y (n + 1) - r * y n| ≤ (L + 1) ^ 2 * e / c0 := by
      intro n
      refine (recurrence_bounded (y := fun n => y (n + 1) - r * y n) ht hc hw2 n).trans ?_
      rw [div_le_div_iff_of_pos_right hc0]
      have g1 := one _ _ _ _ h1 h0
      have g2 := one _ _ _ _ h2 h1
      have : (L + 1) ^ 2 * e = (L * e + e) + (L * (L * e) + L * e) := by ring
      rw [this]
      exact add_le_add g1 g2
    constructor
    · intro n
      have := filter_bounded (y := y) (w := fun n => y (n + 1) - r * y n) r0.le r1 (fun n => by ring) hw0 n
      have e4 : (1 + (L + 1) ^ 2 / c0 / (1 - r)) * e = e + (L + 1) ^ 2 * e / c0 / (1 - r) := by ring
      linarith
    · exact filter_tendsto (y := y) (w := fun n => y (n + 1) - r * y n) (r := r) (by rwa [abs_of_pos r0]) (fun n => by ring)
        (recurrence_tendsto (y := fun n => y (n + 1) - r * y n) ht hc hw2)
  have grow : ∀ n Q, |P n| ≤ Q → |V n| ≤ Q → |A n| ≤ Q →
      |P (n + 1)| ≤ L * Q ∧ |V (n + 1)| ≤ L * Q ∧ |A (n + 1)| ≤ L * Q := by
    intro n Q h1 h2 h3
    obtain ⟨g1, g2, g3⟩ := h n
    rw [g1, g2, g3]
    have Q0 : 0 ≤ Q := (abs_nonneg _).trans h1
    have q3 : 0 < 1 / 3 + q := by linarith
    have s1 : |(1 / 3 + q) * A n| ≤ (1 / 3 + q) * Q := by
      rw [abs_mul, abs_of_pos q3]; exact mul_le_mul_of_nonneg_left h3 q3.le
    have s2 : |P n + V n + (1 / 3 + q) * A n| ≤ (7 / 3 + q) * Q := by
      refine (abs_add_le _ _).trans ?_
      linarith [abs_add_le (P n) (V n)]
    have s3 : |V n + A n| ≤ 2 * Q := (abs_add_le _ _).trans (by linarith)
    have s4 : |2 * l * (V n + A n)| ≤ 4 * l * Q := by
      rw [abs_mul, abs_of_nonneg (by linarith : 0 ≤ 2 * l)]
      have := mul_le_mul_of_nonneg_left s3 (by linarith : 0 ≤ 2 * l)
      linarith
    have s5 : |g * q * (P n + V n + (1 / 3 + q) * A n)| ≤ g * q * (7 / 3 + q) * Q := by
      rw [abs_mul, abs_of_pos hb, mul_assoc (g * q)]
      exact mul_le_mul_of_nonneg_left s2 hb.le
    have s6 : |2 * l * (V n + A n) + g * q * (P n + V n + (1 / 3 + q) * A n)| ≤ (L - 3) * Q := by
      refine (abs_add_le _ _).trans ?_
      rw [hL]
      linarith
    have s7 : 0 ≤ (L - 3) * Q := mul_nonneg (by linarith) Q0
    generalize 2 * l * (V n + A n) + g * q * (P n + V n + (1 / 3 + q) * A n) = J at *
    have s8 : L * Q = 3 * Q + (L - 3) * Q := by ring
    rw [s8]
    generalize (L - 3) * Q = M at *
    simp only [abs_le] at *
    refine ⟨⟨?_, ?_⟩, ⟨?_, ?_⟩, ⟨?_, ?_⟩⟩ <;> linarith
  obtain ⟨hrP, hrV, hrA⟩ := h.recs
  have i1 := grow 0 e hP hV hA
  have i2 := grow 1 (L * e) i1.1 i1.2.1 i1.2.2
  exact ⟨main P hrP hP i1.1 i2.1, main V hrV hV i1.2.1 i2.2.1, main A hrA hA i1.2.2 i2.2.2⟩

/-- A real root of the polynomial out of the unit disk gives a motion that does not vanish. -/
theorem stand_eigen {x : ℝ} (h1 : 1 ≤ |x|)
    (hx : x ^ 3 - (3 - 3 * l - g * q ^ 2 - g * q) * x ^ 2 + (3 - 4 * l - 2 * (g * q ^ 2)) * x - (1 - l - g * q ^ 2) = 0) :
    ∃ p v a : ℝ, ∀ P V A : ℕ → ℝ, StandLoop g q l P V A → P 0 = p → V 0 = v → A 0 = a → Tendsto P atTop (𝓝 0) →
      Tendsto A atTop (𝓝 0) → False := by
  set d := x - 1 with hd
  have hxd : x = d + 1 := by rw [hd]; ring
  clear_value d
  subst hxd
  have hcub : d ^ 3 = -(2 * l * ((d + d ^ 2 / 2) + d ^ 2) + g * q * ((1 + d + d ^ 2 / 6) + (d + d ^ 2 / 2) + (1 / 3 + q) * d ^ 2)) := by
    linear_combination hx
  refine ⟨1 + d + d ^ 2 / 6, d + d ^ 2 / 2, d ^ 2, fun P V A h hP hV hA lP lA => ?_⟩
  have inv : ∀ n, P n = (d + 1) ^ n * (1 + d + d ^ 2 / 6) ∧ V n = (d + 1) ^ n * (d + d ^ 2 / 2) ∧ A n = (d + 1) ^ n * d ^ 2 := by
    intro n
    induction n with
    | zero => simp [hP, hV, hA]
    | succ n ih =>
      obtain ⟨g1, g2, g3⟩ := h n
      rw [ih.1, ih.2.1, ih.2.2] at g1 g2 g3
      rw [g1, g2, g3, pow_succ (d + 1) n]
      generalize (d + 1) ^ n = u
      refine ⟨?_, ?_, ?_⟩
      · linear_combination -(u / 6) * hcub
      · linear_combination -(u / 2) * hcub
      · linear_combination -u * hcub
  by_cases hd0 : d = 0
  · subst hd0
    have : ∀ n, P n = 1 := fun n => by rw [(inv n).1]; simp
    exact absurd (tendsto_nhds_unique lP (tendsto_const_nhds.congr fun n => (this n).symm)) zero_ne_one
  · refine real_not_tendsto (y := A) h1 ?_ ?_ lA
    · intro n
      rw [(inv n).2.2, (inv (n + 1)).2.2, pow_succ (d + 1) n]; ring
    · rw [(inv 0).2.2, pow_zero, one_mul]
      exact pow_ne_zero 2 hd0

/-- A loop that is not stable has a motion that does not vanish. -/
theorem stand_leaves (hg : 0 < g) (hl : 0 ≤ l) (hm : g * q ^ 2 + l < 1) (hs : ¬ StandStable g q l) :
    ∃ p v a : ℝ, ∀ P V A : ℕ → ℝ, StandLoop g q l P V A → P 0 = p → V 0 = v → A 0 = a → Tendsto P atTop (𝓝 0) →
      Tendsto A atTop (𝓝 0) → False := by
  rcases le_or_gt q 0 with hq | hq
  · -- a root at or after `1`
    set F : ℝ → ℝ := fun z => z ^ 3 - (3 - 3 * l - g * q ^ 2 - g * q) * z ^ 2 + (3 - 4 * l - 2 * (g * q ^ 2)) * z - (1 - l - g * q ^ 2) with hF
    have hc : Continuous F := by rw [hF]; fun_prop
    have hb : g * q ≤ 0 := mul_nonpos_of_nonneg_of_nonpos hg.le hq
    have h0 : F 1 ≤ 0 := by simp only [hF]; linarith
    have hk : 0 ≤ g * q ^ 2 := by positivity
    set M := 2 - 4 * (g * q) with hM
    have h1 : 0 ≤ F (1 + M) := by
      have : F (1 + M) = M ^ 3 + l * M * (3 * M + 2) + g * q * (1 + M) ^ 2 + g * q ^ 2 * M ^ 2 := by simp only [hF]; ring
      rw [this]
      have hM2 : 2 ≤ M := by linarith
      have e1 : (1 + M) ^ 2 ≤ 4 * M ^ 2 := by nlinarith
      have e2 : g * q * (4 * M ^ 2) ≤ g * q * (1 + M) ^ 2 := mul_le_mul_of_nonpos_left e1 hb
      have e3 : M ^ 3 + g * q * (4 * M ^ 2) = M ^ 2 * 2 := by rw [hM]; ring
      have e4 : 0 ≤ l * M * (3 * M + 2) := by positivity
      have e5 : 0 ≤ g * q ^ 2 * M ^ 2 := by positivity
      nlinarith [sq_nonneg M]
    obtain ⟨x, ⟨hx1, -⟩, hx⟩ := intermediate_value_Icc (by linarith : (1 : ℝ) ≤ 1 + M) hc.continuousOn ⟨h0, h1⟩
    exact stand_eigen (x := x) (by rw [abs_of_pos (by linarith)]; exact hx1) hx
  · obtain ⟨r, t, c, r0, r1, e1, e2, e3⟩ := stand_factor hg hq hm
    obtain ⟨f1, f2, f3⟩ := stand_stable hg hq hl hm r0 r1 e1 e2 e3
    have hb : ¬ (g * q * (1 - 4 * q) < 8 * (1 - l - g * q ^ 2) ∧ g * q * (1 - l - g * q ^ 2) < 2 * l * (g * q ^ 2 + l)) :=
      fun h => hs ⟨hq, h⟩
    rw [← f1, ← f2, not_and_or, not_lt, not_lt] at hb
    rcases unstable_root hb.symm with ⟨h1, h2⟩ | ⟨x, hx, h1⟩
    · refine ⟨4 / 3 - 2 * q, -2, 2, fun P V A h hP hV hA lP lA => ?_⟩
      refine pair_not_tendsto (y := fun n => A (n + 1) - r * A n) h1 h2 ?_ ?_ ?_
      · intro n
        have h := h.recs.2.2 n
        rw [← e1, ← e2, ← e3] at h
        change A (n + 3) - r * A (n + 2) = _
        rw [h]
        change _ = t * (A (n + 2) - r * A (n + 1)) - c * (A (n + 1) - r * A n)
        ring
      · have h3 := (h 0).2.2
        rw [hP, hV, hA] at h3
        change A (0 + 1) - r * A 0 ≠ 0
        rw [h3, hA]
        have : 2 - (2 * l * (-2 + 2) + g * q * (4 / 3 - 2 * q + -2 + (1 / 3 + q) * 2)) - r * 2 = 2 * (1 - r) := by ring
        rw [this]
        exact mul_ne_zero two_ne_zero (by linarith)
      · have := (lA.comp (tendsto_add_atTop_nat 1)).sub (lA.const_mul r)
        simpa using this
    · refine stand_eigen h1 ?_
      rw [← e1, ← e2, ← e3]
      linear_combination (x - r) * hx

/-! ### Other fields than the real numbers -/

section Field
variable {K : Type} [Field K] [LinearOrder K] [IsStrictOrderedRing K]

/-- `y` vanishes. -/
def Vanishes (y : ℕ → K) : Prop := ∀ e > 0, ∃ n₀, ∀ n, n₀ ≤ n → |y n| ≤ e

theorem StandLoop.map {g q l : K} {P V A : ℕ → K} (f : K →+*o ℝ) (h : StandLoop g q l P V A) :
    StandLoop (f g) (f q) (f l) (fun n => f (P n)) (fun n => f (V n)) (fun n => f (A n)) := by
  intro n
  obtain ⟨h1, h2, h3⟩ := h n
  refine ⟨?_, ?_, ?_⟩
  · simp only [h1, map_add, map_sub, map_mul, map_div₀, map_ofNat, map_one]
  · simp only [h2, map_add, map_sub, map_mul, map_div₀, map_ofNat, map_one]
  · simp only [h3, map_add, map_sub, map_mul, map_div₀, map_ofNat, map_one]

theorem map_lt_iff (f : K →+*o ℝ) {a b : K} : f a < f b ↔ a < b :=
  (f.monotone'.strictMono_of_injective (RingHom.injective (f : K →+* ℝ))).lt_iff_lt

theorem map_le_iff (f : K →+*o ℝ) {a b : K} : f a ≤ f b ↔ a ≤ b :=
  (f.monotone'.strictMono_of_injective (RingHom.injective (f : K →+* ℝ))).le_iff_le

theorem map_abs' (f : K →+*o ℝ) (a : K) : f |a| = |f a| := by
  rcases le_total 0 a with h | h
  · rw [abs_of_nonneg h, abs_of_nonneg (by simpa using (map_le_iff f).2 h)]
  · rw [abs_of_nonpos h, abs_of_nonpos (by simpa using (map_le_iff f).2 h), map_neg]

theorem StandStable.map_iff {g q l : K} (f : K →+*o ℝ) : StandStable (f g) (f q) (f l) ↔ StandStable g q l := by
  unfold StandStable
  rw [← map_lt_iff f, ← map_lt_iff f, ← map_lt_iff f]
  simp only [map_add, map_sub, map_mul, map_pow, map_ofNat, map_one, map_zero]

theorem vanishes_map [Archimedean K] (f : K →+*o ℝ) {y : ℕ → K} : Vanishes y ↔ Tendsto (fun n => f (y n)) atTop (𝓝 0) := by
  rw [Metric.tendsto_atTop]
  constructor
  · intro h e he
    obtain ⟨k, hk⟩ := exists_nat_one_div_lt he
    obtain ⟨n₀, hn⟩ := h (1 / ((k : K) + 1)) (by positivity)
    refine ⟨n₀, fun n hn' => ?_⟩
    rw [Real.dist_eq, sub_zero, ← map_abs' f]
    refine lt_of_le_of_lt ((map_le_iff f).2 (hn n hn')) ?_
    simpa using hk
  · intro h e he
    obtain ⟨n₀, hn⟩ := h (f e) (by simpa using (map_lt_iff f).2 he)
    refine ⟨n₀, fun n hn' => ?_⟩
    have := hn n hn'
    rw [Real.dist_eq, sub_zero, ← map_abs' f] at this
    exact ((map_lt_iff f).1 this).le

variable {g q l : K}

theorem stand_returns_field [Archimedean K] (hg : 0 < g) (hl : 0 ≤ l) (hm : g * q ^ 2 + l < 1) (hs : StandStable g q l) :
    ∃ B > 0, ∀ (e : K) (P V A : ℕ → K), StandLoop g q l P V A → |P 0| ≤ e → |V 0| ≤ e → |A 0| ≤ e →
      ((∀ n, |P n| ≤ B * e) ∧ Vanishes P) ∧ ((∀ n, |V n| ≤ B * e) ∧ Vanishes V) ∧ (∀ n, |A n| ≤ B * e) ∧ Vanishes A := by
  let f : K →+*o ℝ := ConditionallyCompleteLinearOrderedField.inducedOrderRingHom K ℝ
  obtain ⟨B, hB, h⟩ := stand_returns (g := f g) (q := f q) (l := f l) (by simpa using (map_lt_iff f).2 hg)
    (by simpa using (map_le_iff f).2 hl) (by simpa using (map_lt_iff f).2 hm) ((StandStable.map_iff f).2 hs)
  obtain ⟨k, hk⟩ := exists_nat_ge B
  have hk0 : (0 : ℝ) < k := lt_of_lt_of_le hB hk
  refine ⟨k, by exact_mod_cast hk0, fun e P V A hL hP hV hA => ?_⟩
  have he : 0 ≤ e := (abs_nonneg _).trans hP
  have tr : ∀ x : K, |x| ≤ e → |f x| ≤ f e := fun x hx => by rw [← map_abs' f]; exact (map_le_iff f).2 hx
  obtain ⟨⟨p1, p2⟩, ⟨v1, v2⟩, a1, a2⟩ := h (f e) _ _ _ (hL.map f) (tr _ hP) (tr _ hV) (tr _ hA)
  have back : ∀ x : K, |f x| ≤ B * f e → |x| ≤ k * e := by
    intro x hx
    rw [← map_le_iff f, map_abs' f, map_mul, map_natCast]
    exact hx.trans (mul_le_mul_of_nonneg_right hk (by simpa using (map_le_iff f).2 he))
  exact ⟨⟨fun n => back _ (p1 n), (vanishes_map f).2 p2⟩, ⟨fun n => back _ (v1 n), (vanishes_map f).2 v2⟩,
    fun n => back _ (a1 n), (vanishes_map f).2 a2⟩

/-- When the loop is not stable, a motion that begins with a position, a velocity or an acceleration only does not vanish. -/
theorem stand_leaves_field [Archimedean K] (hg : 0 < g) (hl : 0 ≤ l) (hm : g * q ^ 2 + l < 1) (hs : ¬ StandStable g q l)
    {s : Fin 3 → K} (s0 : ∀ i, s i ≠ 0) {P V A : Fin 3 → ℕ → K} (h : ∀ i, StandLoop g q l (P i) (V i) (A i))
    (hP : P 0 0 = s 0 ∧ P 1 0 = 0 ∧ P 2 0 = 0) (hV : V 0 0 = 0 ∧ V 1 0 = s 1 ∧ V 2 0 = 0)
    (hA : A 0 0 = 0 ∧ A 1 0 = 0 ∧ A 2 0 = s 2) : ∃ i, ¬ (Vanishes (P i) ∧ Vanishes (A i)) := by
  by_contra hn
  push Not at hn
  let f : K →+*o ℝ := ConditionallyCompleteLinearOrderedField.inducedOrderRingHom K ℝ
  obtain ⟨p, v, a, hk⟩ := stand_leaves (g := f g) (q := f q) (l := f l) (by simpa using (map_lt_iff f).2 hg)
    (by simpa using (map_le_iff f).2 hl) (by simpa using (map_lt_iff f).2 hm) (fun h => hs ((StandStable.map_iff f).1 h))
  have fs : ∀ i, f (s i) ≠ 0 := fun i h0 => s0 i ((map_eq_zero_iff f (RingHom.injective (f : K →+* ℝ))).1 h0)
  have lP : ∀ i, Tendsto (fun n => f (P i n)) atTop (𝓝 0) := fun i => (vanishes_map f).1 (hn i).1
  have lA : ∀ i, Tendsto (fun n => f (A i n)) atTop (𝓝 0) := fun i => (vanishes_map f).1 (hn i).2
  set c0 := p / f (s 0) with hc0
  set c1 := v / f (s 1) with hc1
  set c2 := a / f (s 2) with hc2
  refine hk (fun n => c0 * f (P 0 n) + c1 * f (P 1 n) + c2 * f (P 2 n)) (fun n => c0 * f (V 0 n) + c1 * f (V 1 n) + c2 * f (V 2 n))
    (fun n => c0 * f (A 0 n) + c1 * f (A 1 n) + c2 * f (A 2 n)) ?_ ?_ ?_ ?_ ?_ ?_
  · intro n
    obtain ⟨p0, v0, a0⟩ := (h 0).map f n
    obtain ⟨p1, v1, a1⟩ := (h 1).map f n
    obtain ⟨p2, v2, a2⟩ := (h 2).map f n
    simp only [p0, p1, p2, v0, v1, v2, a0, a1, a2]
    refine ⟨by ring, by ring, by ring⟩
  · simp only [hP.1, hP.2.1, hP.2.2, map_zero, mul_zero, add_zero, hc0]
    exact div_mul_cancel₀ _ (fs 0)
  · simp only [hV.1, hV.2.1, hV.2.2, map_zero, mul_zero, add_zero, zero_add, hc1]
    exact div_mul_cancel₀ _ (fs 1)
  · simp only [hA.1, hA.2.1, hA.2.2, map_zero, mul_zero, add_zero, zero_add, hc2]
    exact div_mul_cancel₀ _ (fs 2)
  · simpa using (((lP 0).const_mul c0).add ((lP 1).const_mul c1)).add ((lP 2).const_mul c2)
  · simpa using (((lA 0).const_mul c0).add ((lA 1).const_mul c1)).add ((lA 2).const_mul c2)

end Field

/-! ### The CoM of the robot -/

section Robot
variable {K : Type} [Field K] [LinearOrder K] [IsStrictOrderedRing K]

/-- The CoM after `n` periods. -/
def standIter (wg : HWeighting K) (T l : K) (x : State3 K) : ℕ → State3 K
  | 0 => x
  | n + 1 => Spec.cubic (standIter wg T l x n) (Spec.bestJerk wg T l (standIter wg T l x n)) T

variable {wg : HWeighting K} {T l : K}

theorem jerkCurve_pos (hc : 0 < wg.copCentering) (hv : 0 ≤ wg.velocityTracking) (hj : 0 < wg.jerkMinimization) :
    Spec.jerkCurve wg T l = wg.velocityTracking / 20 * (T ^ 4 / 4) + wg.jerkMinimization / 20 + wg.copCentering * Spec.copStep T l ^ 2 ∧
    0 < Spec.jerkCurve wg T l := by
  have e : Spec.jerkCurve wg T l = wg.velocityTracking / 20 * (T ^ 4 / 4) + wg.jerkMinimization / 20
      + wg.copCentering * Spec.copStep T l ^ 2 := by
    unfold Spec.jerkCurve
    rw [max_eq_left hv, max_eq_left hj.le, max_eq_left hc.le]
    ring
  exact ⟨e, by rw [e]; positivity⟩

theorem standIter_loop (hT : 0 < T) (hc : 0 < wg.copCentering) (hv : 0 ≤ wg.velocityTracking) (hj : 0 < wg.jerkMinimization)
    (x : State3 K) :
    StandLoop (wg.copCentering * T ^ 6 / Spec.jerkCurve wg T l) (Spec.copStep T l / T ^ 3)
      (wg.velocityTracking / 20 * (T ^ 4 / 4) / Spec.jerkCurve wg T l) (fun n => (standIter wg T l x n).p)
      (fun n => T * (standIter wg T l x n).v) (fun n => T ^ 2 * (standIter wg T l x n).a) := by
  have hS := (jerkCurve_pos (T := T) (l := l) hc hv hj).2
  intro n
  simp only [standIter]
  generalize standIter wg T l x n = z
  have hq : 1 / 3 + Spec.copStep T l / T ^ 3 = 1 / 2 - l / T ^ 2 := by unfold Spec.copStep; field_simp; ring
  have hJ : T ^ 3 * Spec.bestJerk wg T l z = -(2 * (wg.velocityTracking / 20 * (T ^ 4 / 4) / Spec.jerkCurve wg T l) * (T * z.v + T ^ 2 * z.a)
      + wg.copCentering * T ^ 6 / Spec.jerkCurve wg T l * (Spec.copStep T l / T ^ 3) *
        (z.p + T * z.v + (1 / 3 + Spec.copStep T l / T ^ 3) * (T ^ 2 * z.a))) := by
    rw [hq]
    unfold Spec.bestJerk Spec.freeCop
    rw [max_eq_left hv, max_eq_left hc.le]
    field_simp
    ring
  generalize 2 * (wg.velocityTracking / 20 * (T ^ 4 / 4) / Spec.jerkCurve wg T l) * (T * z.v + T ^ 2 * z.a)
      + wg.copCentering * T ^ 6 / Spec.jerkCurve wg T l * (Spec.copStep T l / T ^ 3) *
        (z.p + T * z.v + (1 / 3 + Spec.copStep T l / T ^ 3) * (T ^ 2 * z.a)) = J at *
  generalize Spec.bestJerk wg T l z = j at *
  simp only [Spec.cubic]
  refine ⟨?_, ?_, ?_⟩
  · linear_combination hJ / 6
  · linear_combination hJ / 2
  · linear_combination hJ

/-- The coefficients of the loop. -/
theorem stand_coef (hT : 0 < T) (hc : 0 < wg.copCentering) (hv : 0 ≤ wg.velocityTracking) (hj : 0 < wg.jerkMinimization) :
    0 < wg.copCentering * T ^ 6 / Spec.jerkCurve wg T l ∧ 0 ≤ wg.velocityTracking / 20 * (T ^ 4 / 4) / Spec.jerkCurve wg T l ∧
    wg.copCentering * T ^ 6 / Spec.jerkCurve wg T l * (Spec.copStep T l / T ^ 3) ^ 2
      + wg.velocityTracking / 20 * (T ^ 4 / 4) / Spec.jerkCurve wg T l < 1 ∧
    (StandStable (wg.copCentering * T ^ 6 / Spec.jerkCurve wg T l) (Spec.copStep T l / T ^ 3)
      (wg.velocityTracking / 20 * (T ^ 4 / 4) / Spec.jerkCurve wg T l) ↔ Spec.StandBalanced T l wg) := by
  obtain ⟨eS, hS⟩ := jerkCurve_pos (T := T) (l := l) hc hv hj
  unfold StandStable Spec.StandBalanced
  generalize Spec.jerkCurve wg T l = S at *
  generalize Spec.copStep T l = U at *
  simp only
  have hA : 0 ≤ wg.velocityTracking / 20 * (T ^ 4 / 4) := by positivity
  generalize wg.velocityTracking / 20 * (T ^ 4 / 4) = A at *
  have k1 : wg.copCentering * T ^ 6 / S * (U / T ^ 3) ^ 2 = wg.copCentering * U ^ 2 / S := by field_simp
  have hC : 1 - A / S - wg.copCentering * U ^ 2 / S = wg.jerkMinimization / 20 / S := by
    field_simp
    rw [eS]; ring
  have hC0 : 0 < wg.jerkMinimization / 20 / S := by positivity
  refine ⟨by positivity, by positivity, by rw [k1]; linarith, ?_⟩
  have k2 : wg.copCentering * T ^ 6 / S * (U / T ^ 3) * (1 - 4 * (U / T ^ 3)) = wg.copCentering * U * (T ^ 3 - 4 * U) / S := by
    field_simp
  have k3 : wg.copCentering * T ^ 6 / S * (U / T ^ 3) * (wg.jerkMinimization / 20 / S)
      = wg.copCentering * U * (wg.jerkMinimization / 20) * T ^ 3 / (S * S) := by
    field_simp
  have k4 : 2 * (A / S) * (wg.copCentering * U ^ 2 / S + A / S) = 2 * A * (wg.copCentering * U ^ 2 + A) / (S * S) := by
    field_simp
  have k5 : 8 * (wg.jerkMinimization / 20 / S) = 8 * (wg.jerkMinimization / 20) / S := by ring
  rw [k1, hC, k2, k3, k4, k5, div_pos_iff_of_pos_right (by positivity), div_lt_div_iff_of_pos_right hS,
    div_lt_div_iff_of_pos_right (by positivity)]

theorem standIter_returns [Archimedean K] (hT : 0 < T) (hc : 0 < wg.copCentering) (hv : 0 ≤ wg.velocityTracking)
    (hj : 0 < wg.jerkMinimization) (hb : Spec.StandBalanced T l wg) :
    ∃ B > 0, ∀ (d : K) (x : State3 K), Spec.ComWithin d x → (∀ n, Spec.ComWithin (B * d) (standIter wg T l x n)) ∧
      ∀ r > 0, ∃ n₀, ∀ n, n₀ ≤ n → Spec.ComWithin r (standIter wg T l x n) := by
  obtain ⟨c1, c2, c3, c4⟩ := stand_coef (l := l) hT hc hv hj
  obtain ⟨B, hB, h⟩ := stand_returns_field c1 c2 c3 (c4.2 hb)
  have hT2 : 0 < T ^ 2 := by positivity
  refine ⟨B * (1 + T + T ^ 2) * (1 + 1 / T + 1 / T ^ 2), by positivity, fun d x hx => ?_⟩
  have hd : 0 ≤ d := (abs_nonneg _).trans hx.1
  have i1 : |x.p| ≤ (1 + T + T ^ 2) * d := by nlinarith [hx.1, mul_nonneg hT.le hd, mul_nonneg hT2.le hd]
  have i2 : |T * x.v| ≤ (1 + T + T ^ 2) * d := by
    rw [abs_mul, abs_of_pos hT]
    nlinarith [mul_le_mul_of_nonneg_left hx.2.1 hT.le, mul_nonneg hT2.le hd]
  have i3 : |T ^ 2 * x.a| ≤ (1 + T + T ^ 2) * d := by
    rw [abs_mul, abs_of_pos hT2]
    nlinarith [mul_le_mul_of_nonneg_left hx.2.2 hT2.le, mul_nonneg hT.le hd]
  obtain ⟨⟨p1, p2⟩, ⟨v1, v2⟩, a1, a2⟩ := h _ _ _ _ (standIter_loop (l := l) hT hc hv hj x) i1 i2 i3
  constructor
  · intro n
    have hE : 0 ≤ B * ((1 + T + T ^ 2) * d) := by positivity
    have hE1 : 0 ≤ 1 / T * (B * ((1 + T + T ^ 2) * d)) := by positivity
    have hE2 : 0 ≤ 1 / T ^ 2 * (B * ((1 + T + T ^ 2) * d)) := by positivity
    have e1 : B * (1 + T + T ^ 2) * (1 + 1 / T + 1 / T ^ 2) * d = B * ((1 + T + T ^ 2) * d) + 1 / T * (B * ((1 + T + T ^ 2) * d))
        + 1 / T ^ 2 * (B * ((1 + T + T ^ 2) * d)) := by ring
    have q1 := p1 n
    have q2 := v1 n
    have q3 := a1 n
    simp only [abs_mul, abs_of_pos hT, abs_of_pos hT2] at q2 q3
    rw [e1]
    refine ⟨by linarith, ?_, ?_⟩
    · have : |(standIter wg T l x n).v| = 1 / T * (T * |(standIter wg T l x n).v|) := by field_simp
      rw [this]
      have := mul_le_mul_of_nonneg_left q2 (by positivity : 0 ≤ 1 / T)
      linarith
    · have : |(standIter wg T l x n).a| = 1 / T ^ 2 * (T ^ 2 * |(standIter wg T l x n).a|) := by field_simp
      rw [this]
      have := mul_le_mul_of_nonneg_left q3 (by positivity : 0 ≤ 1 / T ^ 2)
      linarith
  · intro r hr
    obtain ⟨n1, h1⟩ := p2 r hr
    obtain ⟨n2, h2⟩ := v2 (T * r) (by positivity)
    obtain ⟨n3, h3⟩ := a2 (T ^ 2 * r) (by positivity)
    refine ⟨max n1 (max n2 n3), fun n hn => ?_⟩
    have q2 := h2 n (le_trans (le_trans (le_max_left _ _) (le_max_right _ _)) hn)
    have q3 := h3 n (le_trans (le_trans (le_max_right _ _) (le_max_right _ _)) hn)
    simp only [abs_mul, abs_of_pos hT, abs_of_pos hT2] at q2 q3
    exact ⟨h1 n (le_trans (le_max_left _ _) hn), le_of_mul_le_mul_left q2 hT, le_of_mul_le_mul_left q3 hT2⟩

theorem standIter_leaves [Archimedean K] (hT : 0 < T) (hc : 0 < wg.copCentering) (hv : 0 ≤ wg.velocityTracking)
    (hj : 0 < wg.jerkMinimization) (hb : ¬ Spec.StandBalanced T l wg) {d : K} (hd : 0 < d) :
    ∃ x : State3 K, Spec.ComWithin d x ∧ ¬ ∀ r > 0, ∃ n₀, ∀ n, n₀ ≤ n → Spec.ComWithin r (standIter wg T l x n) := by
  obtain ⟨c1, c2, c3, c4⟩ := stand_coef (l := l) hT hc hv hj
  have hT2 : 0 < T ^ 2 := by positivity
  let x : Fin 3 → State3 K := ![⟨d, 0, 0⟩, ⟨0, d, 0⟩, ⟨0, 0, d⟩]
  obtain ⟨i, hi⟩ := stand_leaves_field c1 c2 c3 (fun h => hb (c4.1 h)) (s := ![d, T * d, T ^ 2 * d])
    (by intro i; fin_cases i <;> simp [hd.ne', hT.ne'])
    (P := fun i n => (standIter wg T l (x i) n).p) (V := fun i n => T * (standIter wg T l (x i) n).v)
    (A := fun i n => T ^ 2 * (standIter wg T l (x i) n).a) (fun i => standIter_loop (l := l) hT hc hv hj (x i))
    (by simp [x, standIter]) (by simp [x, standIter]) (by simp [x, standIter])
  refine ⟨x i, ?_, fun h => hi ⟨fun e he => ?_, fun e he => ?_⟩⟩
  · unfold Spec.ComWithin
    fin_cases i <;> simp [x, abs_of_pos hd, hd.le]
  · obtain ⟨n₀, hn⟩ := h e he
    exact ⟨n₀, fun n hn' => (hn n hn').1⟩
  · obtain ⟨n₀, hn⟩ := h (e / T ^ 2) (by positivity)
    refine ⟨n₀, fun n hn' => ?_⟩
    simp only [abs_mul, abs_of_pos hT2]
    have := mul_le_mul_of_nonneg_left (hn n hn').2.2 hT2.le
    rwa [mul_div_cancel₀ _ hT2.ne'] at this

/-- The CoP that `solve` chooses is bounded by the state. -/
theorem bestCop_bounded (wg : HWeighting K) (T l : K) : ∃ G > 0, ∀ (e : K) (x : State3 K), Spec.ComWithin e x →
    |Spec.bestCop wg T l x| ≤ G * e := by
  refine ⟨1 + |Spec.bestCop wg T l ⟨1, 0, 0⟩| + |Spec.bestCop wg T l ⟨0, 1, 0⟩| + |Spec.bestCop wg T l ⟨0, 0, 1⟩|, by positivity,
    fun e x hx => ?_⟩
  have e1 : Spec.bestCop wg T l x = Spec.bestCop wg T l ⟨1, 0, 0⟩ * x.p + Spec.bestCop wg T l ⟨0, 1, 0⟩ * x.v
      + Spec.bestCop wg T l ⟨0, 0, 1⟩ * x.a := by
    unfold Spec.bestCop Spec.bestJerk Spec.freeCop
    ring
  have he : 0 ≤ e := (abs_nonneg _).trans hx.1
  rw [e1]
  refine (abs_add_le _ _).trans ?_
  have k1 := abs_add_le (Spec.bestCop wg T l ⟨1, 0, 0⟩ * x.p) (Spec.bestCop wg T l ⟨0, 1, 0⟩ * x.v)
  simp only [abs_mul] at k1 ⊢
  have k2 := mul_le_mul_of_nonneg_left hx.1 (abs_nonneg (Spec.bestCop wg T l ⟨1, 0, 0⟩))
  have k3 := mul_le_mul_of_nonneg_left hx.2.1 (abs_nonneg (Spec.bestCop wg T l ⟨0, 1, 0⟩))
  have k4 := mul_le_mul_of_nonneg_left hx.2.2 (abs_nonneg (Spec.bestCop wg T l ⟨0, 0, 1⟩))
  nlinarith

variable [FloorRing K]

/-- A push of the CoM of a standing robot. -/
theorem Stands.push {hull : Vec (Pt K) → Res (Polygon K)} {o : Oracle K} {w : HWalkgen K} (h : Spec.StandsOne hull o w)
    (x y : State3 K) : ∃ w1, w.run hull o (Spec.pushCalls w x y) = .ok w1 ∧ Spec.StandsOne hull o w1 ∧ Spec.StandsAlike w w1 ∧
      (∀ r c, Spec.CopRoom hull w r c → Spec.CopRoom hull w1 r c) ∧ Spec.comX w1 = x ∧ Spec.comY w1 = y := by
  set v1 : Vec K := ⟨3, fun i => if i = 0 then (Spec.midFeet w.sup).x + x.p else if i = 1 then x.v else x.a⟩ with hv1
  set v2 : Vec K := ⟨3, fun i => if i = 0 then (Spec.midFeet w.sup).y + y.p else if i = 1 then y.v else y.a⟩ with hv2
  set wa : HWalkgen K := { w with lip := { w.lip with x := ⟨(Spec.midFeet w.sup).x + x.p, x.v, x.a⟩ } } with hwa
  set wb : HWalkgen K := { wa with lip := { wa.lip with y := ⟨(Spec.midFeet w.sup).y + y.p, y.v, y.a⟩ } } with hwb
  have s1 : w.step hull o (.setComState .x v1) = .ok (true, wa) := by
    simp [HWalkgen.step, Lip.setStateX, hv1, hwa, require]
  have s2 : wa.step hull o (.setComState .y v2) = .ok (true, wb) := by
    simp [HWalkgen.step, Lip.setStateY, hv2, hwb, require]
  refine ⟨wb, ?_, ?_, ⟨rfl, rfl, rfl, rfl, rfl, rfl, rfl, rfl⟩,
    fun r c hr => ⟨hr.radius, hr.size, hr.inside, hr.rows, hr.previous⟩, ?_, ?_⟩
  · rw [Spec.pushCalls, ← hv1, ← hv2]
    simp only [HWalkgen.run, s1, s2]
    rfl
  · obtain ⟨⟨t1, t2, t3, t4, t5, t6, t7⟩, g2, g3, g4, g5, g6, g7, g8, g9, r, c, g10⟩ := h
    exact ⟨⟨.call (.call t1 s1) s2, t2, ⟨t3.1, t3.2, t3.3, t3.4, t3.5, t3.6, t3.7⟩, t4, t5, t6, t7⟩, g2, g3, g4, g5, g6, g7, g8, g9,
      r, c, g10.radius, g10.size, g10.inside, g10.rows, g10.previous⟩
  · simp [Spec.comX, hwb, hwa]
  · simp [Spec.comY, hwb, hwa]

/-- While the CoM remains within `R`, the robot follows the loop. -/
theorem Stands.follow [Archimedean K] {hull : Vec (Pt K) → Res (Polygon K)} {o : Oracle K} {w : HWalkgen K}
    (h : Spec.StandsOne hull o w) {R G r c : K} (hroom : Spec.CopRoom hull w r c)
    (hG : ∀ (e : K) (x : State3 K), Spec.ComWithin e x →
      |Spec.bestCop w.weighting w.lip.T (w.lip.comHeight / GRAVITY_NORM) x| ≤ G * e) (hR : G * R ≤ min r (MAXBOUND / 2 / c))
    (hin : ∀ n w1, w.run hull o (Spec.standCalls w n) = .ok w1 →
      Spec.comX w1 = standIter w.weighting w.lip.T (w.lip.comHeight / GRAVITY_NORM) (Spec.comX w) n →
      Spec.comY w1 = standIter w.weighting w.lip.T (w.lip.comHeight / GRAVITY_NORM) (Spec.comY w) n →
      Spec.ComWithin R (Spec.comX w1) ∧ Spec.ComWithin R (Spec.comY w1)) (n : ℕ) :
    ∃ w2, w.run hull o (Spec.standCalls w n) = .ok w2 ∧
      Spec.comX w2 = standIter w.weighting w.lip.T (w.lip.comHeight / GRAVITY_NORM) (Spec.comX w) n ∧
      Spec.comY w2 = standIter w.weighting w.lip.T (w.lip.comHeight / GRAVITY_NORM) (Spec.comY w) n := by
  have hexact := exactCop_one h.samples h.period.2 h.height
  have hM : (0 : K) < MAXBOUND := by unfold MAXBOUND; norm_num
  have hc : 0 < c := lt_of_lt_of_le one_pos hroom.size
  have hin' : ∀ z : K, |z| ≤ G * R → |z| ≤ r ∧ c * |z| ≤ MAXBOUND / 2 := fun z hz => by
    refine ⟨(hz.trans hR).trans (min_le_left _ _), ?_⟩
    have := mul_le_mul_of_nonneg_left ((hz.trans hR).trans (min_le_right _ _)) hc.le
    rwa [mul_div_cancel₀ _ hc.ne'] at this
  have hdiff : ∀ z u : K, c * |z| ≤ MAXBOUND / 2 → c * |u| ≤ MAXBOUND / 2 → c * |z - u| ≤ MAXBOUND := fun z u hz hu => by
    have := mul_le_mul_of_nonneg_left (abs_sub z u) hc.le
    linarith
  have hlarge : ∀ z : K, c * |z| ≤ MAXBOUND → |z| ≤ MAXBOUND := fun z hz => by
    have := mul_le_mul_of_nonneg_right hroom.size (abs_nonneg z)
    linarith
  have hrows : ∀ a b z u : K, |a| + |b| ≤ c → c * |z| ≤ MAXBOUND → c * |u| ≤ MAXBOUND → |a * z + b * u| ≤ MAXBOUND :=
    fun a b z u hab hz hu => by
      have hz' : |z| ≤ MAXBOUND / c := by rw [le_div_iff₀ hc]; linarith
      have hu' : |u| ≤ MAXBOUND / c := by rw [le_div_iff₀ hc]; linarith
      have h1 := abs_add_le (a * z) (b * u)
      rw [abs_mul, abs_mul] at h1
      have h2 := mul_le_mul_of_nonneg_left hz' (abs_nonneg a)
      have h3 := mul_le_mul_of_nonneg_left hu' (abs_nonneg b)
      have h4 := mul_le_mul_of_nonneg_right hab (div_nonneg hM.le hc.le)
      rw [mul_div_cancel₀ _ hc.ne'] at h4
      linarith
  have hruns := Stands.runs (o := o) (P := fun n w1 => (c * |w1.X.get 0| ≤ MAXBOUND / 2 ∧ c * |w1.X.get 1| ≤ MAXBOUND / 2) ∧
      Spec.comX w1 = standIter w.weighting w.lip.T (w.lip.comHeight / GRAVITY_NORM) (Spec.comX w) n ∧
      Spec.comY w1 = standIter w.weighting w.lip.T (w.lip.comHeight / GRAVITY_NORM) (Spec.comY w) n) h.stands
    ⟨hroom.previous, rfl, rfl⟩ (fun n w1 w2 b e1 s1 a1 c1 p1 e2 a2 => by
      obtain ⟨⟨q1, q2⟩, q3, q4⟩ := p1
      obtain ⟨r1, r2⟩ := hin n w1 e1 q3 q4
      have b1 := hin' _ (hG _ _ r1)
      have b2 := hin' _ (hG _ _ r2)
      have d1 := hdiff _ _ b1.2 q1
      have d2 := hdiff _ _ b2.2 q2
      obtain ⟨t1, t2, t3, t4⟩ := Stands.best s1 (a1.exactCop hexact) (by rw [a1.N, h.samples]) (by rw [a1.T]; exact h.period.1)
        (by rw [a1.weighting]; exact h.centring) (by rw [a1.velRef]; exact fun _ => h.reference) (by
          rw [a1.weighting, a1.T, a1.height, a1.withCop]
          intro hw q g hq hg
          have hq' : Spec.IsUnion w.sup ⟨w.sup.left.x.state.p, w.sup.left.y.state.p⟩
            ⟨w.sup.right.x.state.p, w.sup.right.y.state.p⟩ (Spec.midFeet w.sup) q := by
            simpa only [Spec.IsUnion, Spec.midFeet, a1.left, a1.right] using hq
          exact ⟨hroom.inside hw q g hq' hg _ b1.1 b2.1, fun k hk => hrows _ _ _ _ (hroom.rows hw q g hq' hg k hk) d1 d2⟩)
        (by rw [a1.weighting, a1.T, a1.height]; exact hlarge _ d1)
        (by rw [a1.weighting, a1.T, a1.height]; exact hlarge _ d2)
        (fun qp it hd => h.solver _ qp it (by omega) hd) e2
      rw [a1.weighting, a1.T, a1.height] at t1 t2 t3 t4
      refine ⟨⟨by rw [t3]; exact b1.2, by rw [t4]; exact b2.2⟩, ?_, ?_⟩
      · rw [t1, standIter, ← q3]
      · rw [t2, standIter, ← q4]) n
  obtain ⟨w2, r1, -, -, -, -, r2, r3⟩ := hruns
  exact ⟨w2, r1, r2, r3⟩

end Robot

end MPC
