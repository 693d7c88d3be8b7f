import Verif.Lemmas.Converge
import Mathlib.Topology.Order.IntermediateValue
import Mathlib.Analysis.SpecialFunctions.Pow.Real
import Mathlib.Tactic.LinearCombination

/-! # Stability of the loop generator-robot with one sample (C92) -/

set_option linter.unusedSectionVars false

namespace MPC
open Finset Filter Topology

/-! ### Linear recurrences of order three -/

/-- A first order recurrence with a vanishing input vanishes. -/
theorem filter_tendsto {y w : ℕ → ℝ} {r : ℝ} (hr : |r| < 1) (h : ∀ n, y (n + 1) = r * y n + w n) (hw : Tendsto w atTop (𝓝 0)) :
    Tendsto y atTop (𝓝 0) := by
  have hb : ∀ e > 0, ∃ N, ∀ n ≥ N, |y n| ≤ e := by
    intro e he
    have h1 : 0 < 1 - |r| := by linarith
    obtain ⟨N, hN⟩ := (Metric.tendsto_atTop.1 hw) (e / 2 * (1 - |r|)) (by positivity)
    have hN' : ∀ n ≥ N, |w n| ≤ e / 2 * (1 - |r|) := fun n hn => by
      have := hN n hn
      rw [Real.dist_eq, sub_zero] at this
      exact this.le
    have hk : ∀ k, |y (N + k)| ≤ |r| ^ k * |y N| + e / 2 := by
      intro k
      induction k with
      | zero => simp; linarith
      | succ k ih =>
        rw [← add_assoc, h]
        refine (abs_add_le _ _).trans ?_
        rw [abs_mul]
        have h2 := mul_le_mul_of_nonneg_left ih (abs_nonneg r)
        have h3 := hN' (N + k) (by omega)
        have e1 : |r| * (|r| ^ k * |y N| + e / 2) = |r| ^ (k + 1) * |y N| + |r| * (e / 2) := by ring
        rw [e1] at h2
        linarith
    have hp : Tendsto (fun k => |r| ^ k * |y N|) atTop (𝓝 (0 * |y N|)) :=
      (tendsto_pow_atTop_nhds_zero_of_lt_one (abs_nonneg r) hr).mul_const _
    rw [zero_mul] at hp
    obtain ⟨M, hM⟩ := (Metric.tendsto_atTop.1 hp) (e / 2) (by linarith)
    refine ⟨N + M, fun n hn => ?_⟩
    obtain ⟨k, rfl⟩ : ∃ k, n = N + k := ⟨n - N, by omega⟩
    have h4 := hM k (by omega)
    rw [Real.dist_eq, sub_zero] at h4
    have h5 := (le_abs_self _).trans h4.le
    linarith [hk k]
  rw [Metric.tendsto_atTop]
  intro e he
  obtain ⟨N, hN⟩ := hb (e / 2) (by linarith)
  refine ⟨N, fun n hn => ?_⟩
  rw [Real.dist_eq, sub_zero]
  linarith [hN n hn]

theorem filter_bounded {y w : ℕ → ℝ} {r B : ℝ} (hr0 : 0 ≤ r) (hr : r < 1) (h : ∀ n, y (n + 1) = r * y n + w n) (hw : ∀ n, |w n| ≤ B)
    (n : ℕ) : |y n| ≤ |y 0| + B / (1 - r) := by
  have h1 : 0 < 1 - r := by linarith
  have hB : 0 ≤ B := (abs_nonneg _).trans (hw 0)
  have hd : 0 ≤ B / (1 - r) := by positivity
  have he : r * (B / (1 - r)) + B = B / (1 - r) := by field_simp; ring
  induction n with
  | zero => linarith
  | succ n ih =>
    rw [h]
    refine (abs_add_le _ _).trans ?_
    rw [abs_mul, abs_of_nonneg hr0]
    have h2 := mul_le_mul_of_nonneg_left ih hr0
    have h3 : r * |y 0| ≤ |y 0| := by nlinarith [abs_nonneg (y 0)]
    have := hw n
    rw [mul_add] at h2
    linarith

/-- The polynomial of the loop. -/
def loopPoly (k l z : ℝ) : ℝ := z ^ 3 + (7 * k + 3 * l - 3) * z ^ 2 + (3 - 2 * k - 4 * l) * z + (k + l - 1)

/-- The polynomial has a root between 0 and 1, and the others are those of `z² - t z + c`. -/
theorem loopPoly_factor {k l : ℝ} (hk : 0 < k) (hm : k + l < 1) :
    ∃ r t c : ℝ, 0 < r ∧ r < 1 ∧ r + t = 3 - 7 * k - 3 * l ∧ r * t + c = 3 - 2 * k - 4 * l ∧ r * c = 1 - k - l := by
  have hc : Continuous (loopPoly k l) := by unfold loopPoly; fun_prop
  have h0 : loopPoly k l 0 < 0 := by unfold loopPoly; linarith
  have h1 : 0 < loopPoly k l 1 := by unfold loopPoly; linarith
  obtain ⟨r, ⟨hr0, hr1⟩, hr⟩ := intermediate_value_Icc (zero_le_one' ℝ) hc.continuousOn ⟨h0.le, h1.le⟩
  have r0 : 0 < r := lt_of_le_of_ne hr0 (by rintro rfl; linarith)
  have r1 : r < 1 := lt_of_le_of_ne hr1 (by rintro rfl; linarith)
  refine ⟨r, 3 - 7 * k - 3 * l - r, 3 - 2 * k - 4 * l - r * (3 - 7 * k - 3 * l - r), r0, r1, by ring, by ring, ?_⟩
  unfold loopPoly at hr
  linear_combination hr

/-- The condition of stability in terms of the factors. -/
theorem factor_stable {k l r t c : ℝ} (hk : 0 < k) (hl : 0 ≤ l) (hm : k + l < 1) (r0 : 0 < r) (r1 : r < 1)
    (e1 : r + t = 3 - 7 * k - 3 * l) (e2 : r * t + c = 3 - 2 * k - 4 * l) (e3 : r * c = 1 - k - l) :
    (c < 1 ↔ 3 * k * (1 - k - l) < l * (k + l)) ∧ (0 < 1 + t + c ↔ k < 4 * (1 - k - l)) ∧ 0 < 1 - t + c := by
  have f1 : (1 + r) * (1 + t + c) = 8 - 10 * k - 8 * l := by linear_combination e1 + e2 + e3
  have f2 : (1 - r) * (1 - t + c) = 6 * k := by linear_combination -e1 + e2 - e3
  -- the polynomial at `m = 1 - k - l = r c`
  have f3 : (r * c - r) * ((r * c) ^ 2 - t * (r * c) + c) = 2 * (1 - k - l) * (3 * k * (1 - k - l) - l * (k + l)) := by
    have : ∀ z, (z - r) * (z ^ 2 - t * z + c) = z ^ 3 - (r + t) * z ^ 2 + (r * t + c) * z - r * c := fun z => by ring
    rw [this, e1, e2, e3]
    ring
  have f4 : 0 < 1 - t + c := by
    by_contra h
    push Not at h
    have := mul_nonneg (by linarith : 0 ≤ 1 - r) (by linarith : 0 ≤ -(1 - t + c))
    nlinarith
  have hc : 0 < c := by
    by_contra h
    push Not at h
    nlinarith
  refine ⟨?_, ?_, f4⟩
  · have hq : 0 < (r * c) ^ 2 - t * (r * c) + c := by
      by_contra h
      push Not at h
      have h1 : c * (r ^ 2 * c - t * r + 1) ≤ 0 := by linarith [h]
      have h2 : r ^ 2 * c - t * r + 1 ≤ 0 := by
        by_contra h3
        push Not at h3
        linarith [mul_pos hc h3]
      have h3 : t * r < (1 + c) * r := mul_lt_mul_of_pos_right (by linarith) r0
      have h4 : 0 < (r * c - 1) * (1 - r) := by nlinarith
      rw [e3] at h4
      have := mul_nonneg (by linarith : 0 ≤ k + l) (by linarith : 0 ≤ 1 - r)
      nlinarith
    have hm0 : 0 < 1 - k - l := by linarith
    have f5 : r * (c - 1) * ((r * c) ^ 2 - t * (r * c) + c) = 2 * (1 - k - l) * (3 * k * (1 - k - l) - l * (k + l)) := by
      rw [← f3]; ring
    constructor
    · intro h
      have h1 := mul_pos (mul_pos r0 (by linarith : 0 < 1 - c)) hq
      have h2 : 0 < 2 * (1 - k - l) * (l * (k + l) - 3 * k * (1 - k - l)) := by linarith
      have := (mul_pos_iff_of_pos_left (by linarith : 0 < 2 * (1 - k - l))).1 h2
      linarith
    · intro h
      by_contra h'
      push Not at h'
      have h1 := mul_nonneg (mul_nonneg r0.le (by linarith : 0 ≤ c - 1)) hq.le
      have h2 := mul_pos (by linarith : 0 < 2 * (1 - k - l)) (by linarith : 0 < l * (k + l) - 3 * k * (1 - k - l))
      linarith
  · constructor
    · intro h; nlinarith [mul_pos (by linarith : 0 < 1 + r) h]
    · intro h
      by_contra h'
      push Not at h'
      nlinarith [mul_nonneg (by linarith : 0 ≤ 1 + r) (by linarith : 0 ≤ -(1 + t + c))]

/-- The converse: a polynomial that is not stable has a real root out of the unit disk, or two complex ones. -/
theorem unstable_root {t c : ℝ} (h : 1 ≤ c ∨ 1 + t + c ≤ 0) : (t ^ 2 < 4 * c ∧ 1 ≤ c) ∨ ∃ z : ℝ, z ^ 2 - t * z + c = 0 ∧ 1 ≤ |z| := by
  rcases lt_or_ge (t ^ 2) (4 * c) with h1 | h1
  · refine Or.inl ⟨h1, ?_⟩
    rcases h with h | h
    · exact h
    · exfalso
      nlinarith [sq_nonneg (1 - c)]
  · right
    have hs := Real.sq_sqrt (by linarith : 0 ≤ t ^ 2 - 4 * c)
    set s := √(t ^ 2 - 4 * c)
    by_contra hn
    push Not at hn
    have a1 := hn ((t + s) / 2) (by linear_combination hs / 4)
    have a2 := hn ((t - s) / 2) (by linear_combination hs / 4)
    rw [abs_lt] at a1 a2
    have p1 : (t + s) / 2 * ((t - s) / 2) = c := by linear_combination -hs / 4
    rcases h with h | h
    · nlinarith
    · nlinarith [mul_pos (by linarith : 0 < 1 + (t + s) / 2) (by linarith : 0 < 1 + (t - s) / 2)]

/-- Sequences of a complex pair out of the unit disk do not vanish. -/
theorem pair_not_tendsto {y : ℕ → ℝ} {t c : ℝ} (ht : t ^ 2 < 4 * c) (hc : 1 ≤ c)
    (h : ∀ n, y (n + 2) = t * y (n + 1) - c * y n) (h0 : y 0 ≠ 0) : ¬ Tendsto y atTop (𝓝 0) := by
  intro hl
  set D : ℕ → ℝ := fun n => y (n + 1) ^ 2 - t * y (n + 1) * y n + c * y n ^ 2 with hD
  have hs : ∀ n, D (n + 1) = c * D n := by
    intro n
    simp only [hD]
    rw [show n + 1 + 1 = n + 2 from rfl, h]
    ring
  have h1 : 0 < D 0 := by
    simp only [hD]
    have : 0 < y 0 ^ 2 := by positivity
    nlinarith [sq_nonneg (y (0 + 1) - t / 2 * y 0)]
  have h2 : ∀ n, D 0 ≤ D n := by
    intro n
    induction n with
    | zero => exact le_rfl
    | succ n ih => rw [hs]; nlinarith
  have hl1 : Tendsto (fun n => y (n + 1)) atTop (𝓝 0) := hl.comp (tendsto_add_atTop_nat 1)
  have hl2 : Tendsto D atTop (𝓝 (0 ^ 2 - t * 0 * 0 + c * 0 ^ 2)) :=
    ((hl1.pow 2).sub ((hl1.const_mul t).mul hl)).add ((hl.pow 2).const_mul c)
  have h3 : D 0 ≤ 0 ^ 2 - t * 0 * 0 + c * 0 ^ 2 := ge_of_tendsto' hl2 h2
  norm_num at h3
  linarith

theorem real_not_tendsto {y : ℕ → ℝ} {z : ℝ} (hz : 1 ≤ |z|) (h : ∀ n, y (n + 1) = z * y n) (h0 : y 0 ≠ 0) :
    ¬ Tendsto y atTop (𝓝 0) := by
  intro hl
  have h2 : ∀ n, |y 0| ≤ |y n| := by
    intro n
    induction n with
    | zero => exact le_rfl
    | succ n ih => rw [h, abs_mul]; nlinarith [abs_nonneg (y n)]
  have h3 := ge_of_tendsto' hl.abs h2
  rw [abs_zero] at h3
  exact h0 (abs_eq_zero.1 (le_antisymm h3 (abs_nonneg _)))

/-! ### The loop -/

variable {K : Type} [Field K] [LinearOrder K] [IsStrictOrderedRing K]

/-- The jerk of `solve` with one sample. -/
def settleJerk (k l T pr : K) (x : State3 K) : K :=
  -(6 / T ^ 3 * k * (x.p + T * x.v + T ^ 2 / 2 * x.a - pr) + 2 / T ^ 2 * l * (x.v + T * x.a))

/-- The state after the next call. -/
def settle (k l T pr : K) (x : State3 K) : State3 K := Spec.cubic x (settleJerk k l T pr x) T

theorem settle_scaled {k l T pr : K} (hT : T ≠ 0) (x : State3 K) :
    (settle k l T pr x).p - pr = (1 - k) * ((x.p - pr) + T * x.v + T ^ 2 * x.a / 2) - l / 3 * (T * x.v + T ^ 2 * x.a) ∧
    T * (settle k l T pr x).v = -3 * k * ((x.p - pr) + T * x.v + T ^ 2 * x.a / 2) + (1 - l) * (T * x.v + T ^ 2 * x.a) ∧
    T ^ 2 * (settle k l T pr x).a = T ^ 2 * x.a - 6 * k * ((x.p - pr) + T * x.v + T ^ 2 * x.a / 2)
      - 2 * l * (T * x.v + T ^ 2 * x.a) := by
  simp only [settle, settleJerk, Spec.cubic]
  refine ⟨?_, ?_, ?_⟩ <;> field_simp <;> ring

/-- Cayley-Hamilton for the loop. -/
theorem settle_recurrence {k l T pr : K} (hT : T ≠ 0) {z : ℕ → State3 K} (hz : ∀ n, z (n + 1) = settle k l T pr (z n)) (n : ℕ) :
    let rec3 := fun y : ℕ → K => y (n + 3) = (3 - 7 * k - 3 * l) * y (n + 2) - (3 - 2 * k - 4 * l) * y (n + 1) + (1 - k - l) * y n
    rec3 (fun n => (z n).p - pr) ∧ rec3 (fun n => T * (z n).v) ∧ rec3 (fun n => T ^ 2 * (z n).a) := by
  obtain ⟨p1, v1, a1⟩ := settle_scaled (k := k) (l := l) (pr := pr) hT (z n)
  obtain ⟨p2, v2, a2⟩ := settle_scaled (k := k) (l := l) (pr := pr) hT (z (n + 1))
  obtain ⟨p3, v3, a3⟩ := settle_scaled (k := k) (l := l) (pr := pr) hT (z (n + 2))
  rw [← hz] at p1 v1 a1 p2 v2 a2 p3 v3 a3
  simp only
  generalize (z n).p - pr = P0 at *
  generalize T * (z n).v = V0 at *
  generalize T ^ 2 * (z n).a = A0 at *
  rw [show n + 1 + 1 = n + 2 from rfl] at *
  rw [show n + 2 + 1 = n + 3 from rfl] at *
  rw [p3, v3, a3, p2, v2, a2, p1, v1, a1]
  refine ⟨?_, ?_, ?_⟩ <;> ring

/-- Without balance, some motion of the loop does not settle, however small. -/
theorem settle_unstable {k l T : ℝ} (hT : 0 < T) (k0 : 0 < k) (l0 : 0 ≤ l) (kl : k + l < 1)
    (hb : ¬ (k < 4 * (1 - k - l) ∧ 3 * k * (1 - k - l) < l * (k + l))) (pr : ℝ) :
    ∃ P V A : ℝ, ∀ s ≠ 0, ∀ z : ℕ → State3 ℝ, z 0 = ⟨pr + s * P, s * V / T, s * A / T ^ 2⟩ →
      (∀ n, z (n + 1) = settle k l T pr (z n)) → Tendsto (fun n => (z n).p) atTop (𝓝 pr) →
      Tendsto (fun n => (z n).a) atTop (𝓝 0) → False := by
  obtain ⟨r, t, c, r0, r1, e1, e2, e3⟩ := loopPoly_factor k0 kl
  obtain ⟨f1, f2, f3⟩ := factor_stable k0 l0 kl r0 r1 e1 e2 e3
  rw [← f1, ← f2, not_and_or, not_lt, not_lt] at hb
  rcases unstable_root hb.symm with ⟨h1, h2⟩ | ⟨x, hx, h1⟩
  · refine ⟨1, -2, 2, fun s hs z z0 hz lp _ => ?_⟩
    have hrec := fun n => (settle_recurrence (k := k) (l := l) (pr := pr) hT.ne' hz n).1
    set y : ℕ → ℝ := fun n => (z n).p - pr with hy
    have ly : Tendsto y atTop (𝓝 0) := by
      have := lp.sub_const pr
      rwa [sub_self] at this
    refine pair_not_tendsto (y := fun n => y (n + 1) - r * y n) h1 h2 ?_ ?_ ?_
    · intro n
      have h := hrec n
      simp only at h
      rw [← e1, ← e2, ← e3] at h
      change y (n + 3) - r * y (n + 2) = _
      rw [h]
      change _ = t * (y (n + 2) - r * y (n + 1)) - c * (y (n + 1) - r * y n)
      ring
    · have hp := (settle_scaled (k := k) (l := l) (pr := pr) hT.ne' (z 0)).1
      rw [← hz] at hp
      have q1 : y (0 + 1) = 0 := by
        change (z (0 + 1)).p - pr = 0
        rw [hp, z0]
        have hT' : T ≠ 0 := hT.ne'
        field_simp
        ring
      have q0 : y 0 = s := by
        change (z 0).p - pr = s
        rw [z0]; ring
      simp only [q1, q0, zero_sub]
      exact neg_ne_zero.2 (mul_ne_zero r0.ne' hs)
    · have := ((tendsto_add_atTop_iff_nat 1).2 ly).sub (ly.const_mul r)
      rwa [mul_zero, sub_zero] at this
  · set d := x - 1 with hd
    have hcub : d ^ 3 = -6 * k * ((1 + d + d ^ 2 / 6) + (d + d ^ 2 / 2) + d ^ 2 / 2) - 2 * l * ((d + d ^ 2 / 2) + d ^ 2) := by
      rw [hd]
      have : (x - r) * (x ^ 2 - t * x + c) = 0 := by rw [hx, mul_zero]
      have h4 : x ^ 3 - (r + t) * x ^ 2 + (r * t + c) * x - r * c = 0 := by linarith [this]
      rw [e1, e2, e3] at h4
      linarith
    have hd0 : d ≠ 0 := by
      intro h
      rw [h] at hcub
      norm_num at hcub
      exact k0.ne' hcub
    refine ⟨1 + d + d ^ 2 / 6, d + d ^ 2 / 2, d ^ 2, fun s hs z z0 hz _ la => ?_⟩
    have hT' : T ≠ 0 := hT.ne'
    have inv : ∀ n, (z n).p - pr = x ^ n * s * (1 + d + d ^ 2 / 6) ∧ T * (z n).v = x ^ n * s * (d + d ^ 2 / 2) ∧
        T ^ 2 * (z n).a = x ^ n * s * d ^ 2 := by
      intro n
      induction n with
      | zero =>
        rw [z0]
        refine ⟨?_, ?_, ?_⟩ <;> field_simp <;> ring
      | succ n ih =>
        obtain ⟨g1, g2, g3⟩ := settle_scaled (k := k) (l := l) (pr := pr) hT' (z n)
        rw [← hz, ih.1, ih.2.1, ih.2.2] at g1 g2 g3
        have hx1 : x ^ (n + 1) * s = (d + 1) * (x ^ n * s) := by rw [pow_succ, hd]; ring
        rw [g1, g2, g3, hx1]
        generalize x ^ n * s = u
        clear_value d
        refine ⟨?_, ?_, ?_⟩
        · linear_combination -(u / 6) * hcub
        · linear_combination -(u / 2) * hcub
        · linear_combination -u * hcub
    refine real_not_tendsto (y := fun n => T ^ 2 * (z n).a) h1 ?_ ?_ ?_
    · intro n
      rw [(inv n).2.2, (inv (n + 1)).2.2, pow_succ]; ring
    · change T ^ 2 * (z 0).a ≠ 0
      rw [(inv 0).2.2, pow_zero, one_mul]
      exact mul_ne_zero hs (pow_ne_zero 2 hd0)
    · have := la.const_mul (T ^ 2)
      rwa [mul_zero] at this

end MPC
