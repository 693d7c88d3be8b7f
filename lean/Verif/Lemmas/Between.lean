import Verif.Spec.Between

/-! Bounds of a cubic between the ends of an interval, for C70. -/

set_option linter.unusedSectionVars false

namespace MPC

variable {K : Type} [Field K] [LinearOrder K] [IsStrictOrderedRing K]

theorem cubic_vel_chord {T : K} (hT : T ≠ 0) (x : State3 K) (j t : K) :
    (Spec.cubic x j t).v = (1 - t / T) * x.v + t / T * (Spec.cubic x j T).v - j * (t * (T - t) / 2) := by
  simp only [Spec.cubic]
  field_simp
  ring

theorem cubic_acc_chord {T : K} (hT : T ≠ 0) (x : State3 K) (j t : K) :
    (Spec.cubic x j t).a = (1 - t / T) * x.a + t / T * (Spec.cubic x j T).a := by
  simp only [Spec.cubic]
  field_simp
  ring

theorem abs_convex {r a b A B : K} (h0 : 0 ≤ r) (h1 : r ≤ 1) (ha : |a| ≤ A) (hb : |b| ≤ B) :
    |(1 - r) * a + r * b| ≤ (1 - r) * A + r * B := by
  have h2 : 0 ≤ 1 - r := by linarith
  calc |(1 - r) * a + r * b| ≤ |(1 - r) * a| + |r * b| := abs_add_le _ _
    _ = (1 - r) * |a| + r * |b| := by rw [abs_mul, abs_mul, abs_of_nonneg h2, abs_of_nonneg h0]
    _ ≤ _ := add_le_add (mul_le_mul_of_nonneg_left ha h2) (mul_le_mul_of_nonneg_left hb h0)

/-- Between the ends of an interval the acceleration is between its values there; the velocity leaves the
range of its values there by at most `J t (T - t) / 2`. -/
theorem cubic_between {T V ε A J t j : K} (hT : 0 < T) (h0 : 0 ≤ t) (h1 : t ≤ T) {x : State3 K} (hv : |x.v| ≤ V + ε)
    (ha : |x.a| ≤ A) (hj : |j| ≤ J) (hv' : |(Spec.cubic x j T).v| ≤ V) (ha' : |(Spec.cubic x j T).a| ≤ A) :
    |(Spec.cubic x j t).v| ≤ V + (1 - t / T) * ε + J * (t * (T - t) / 2) ∧ |(Spec.cubic x j t).a| ≤ A := by
  have r0 : 0 ≤ t / T := div_nonneg h0 hT.le
  have r1 : t / T ≤ 1 := (div_le_one hT).2 h1
  have hq : 0 ≤ t * (T - t) / 2 := by
    have := mul_nonneg h0 (sub_nonneg.2 h1)
    linarith
  constructor
  · rw [cubic_vel_chord hT.ne']
    refine (abs_sub _ _).trans ?_
    have e1 := abs_convex r0 r1 hv hv'
    have e2 : |j * (t * (T - t) / 2)| ≤ J * (t * (T - t) / 2) := by
      rw [abs_mul, abs_of_nonneg hq]
      exact mul_le_mul_of_nonneg_right hj hq
    have e3 : (1 - t / T) * (V + ε) + t / T * V = V + (1 - t / T) * ε := by ring
    linarith
  · rw [cubic_acc_chord hT.ne']
    have := abs_convex r0 r1 ha ha'
    linarith

/-- One control cycle of length `fb` keeps the loose limits, and between its ends the velocity is at most
`J (2 T - f)² / 8` above its limit. -/
theorem loosely_cycle {l : Spec.Limits K} {f fb j : K} (hf : 0 < f) (h1 : f ≤ fb) (h2 : fb ≤ l.period)
    {x : State3 K} (hx : l.Loosely f x) (hj : |j| ≤ l.jerk) (hv : |(Spec.cubic x j l.period).v| ≤ l.vel)
    (ha : |(Spec.cubic x j l.period).a| ≤ l.acc) :
    l.Loosely f (Spec.cubic x j fb) ∧
      ∀ t, 0 ≤ t → t ≤ fb → l.UpTo (l.jerk * (2 * l.period - f) ^ 2 / 8) (Spec.cubic x j t) := by
  have hT : 0 < l.period := hf.trans_le (h1.trans h2)
  have hJ : 0 ≤ l.jerk := (abs_nonneg _).trans hj
  have key : ∀ t, 0 ≤ t → t ≤ fb → |(Spec.cubic x j t).v| ≤ l.vel
      + l.jerk / 2 * ((l.period - t) * (l.period - f + t)) ∧ |(Spec.cubic x j t).a| ≤ l.acc := by
    intro t t0 t1
    obtain ⟨e1, e2⟩ := cubic_between hT t0 (t1.trans h2) hx.1 hx.2 hj hv ha
    refine ⟨e1.trans (le_of_eq ?_), e2⟩
    field_simp
    ring
  refine ⟨⟨(key fb (hf.le.trans h1) le_rfl).1.trans ?_, (key fb (hf.le.trans h1) le_rfl).2⟩, fun t t0 t1 =>
    ⟨(key t t0 t1).1.trans ?_, (key t t0 t1).2⟩⟩
  · have h3 : (l.period - fb) * (l.period - f + fb) ≤ l.period * (l.period - f) := by
      have := mul_nonneg (hf.le.trans h1) (sub_nonneg.2 h1)
      nlinarith
    have := mul_le_mul_of_nonneg_left h3 (show 0 ≤ l.jerk / 2 by linarith)
    linarith
  · have h3 : (l.period - t) * (l.period - f + t) ≤ (2 * l.period - f) ^ 2 / 4 := by
      have := sq_nonneg (2 * t - f)
      nlinarith
    have := mul_le_mul_of_nonneg_left h3 (show 0 ≤ l.jerk / 2 by linarith)
    linarith

theorem planAt_end (T : K) (x : State3 K) (J : ℕ → K) (i : ℕ) :
    Spec.planAt T x J i T = Spec.jerkTrajectory T T x J i := by
  cases i <;> rfl

theorem planAt_zero (T : K) (x : State3 K) (J : ℕ → K) (i : ℕ) :
    Spec.planAt T x J (i + 1) 0 = Spec.jerkTrajectory T T x J i := by
  simp [Spec.planAt, Spec.cubic]

theorem planAt_start (T : K) (x : State3 K) (J : ℕ → K) : Spec.planAt T x J 0 0 = x := by
  simp [Spec.planAt, Spec.cubic]

/-- At all times between two samples within the limits. -/
theorem planAt_between {l : Spec.Limits K} (hT : 0 < l.period) {x : State3 K} {J : ℕ → K} {i : ℕ}
    (h0 : l.UpTo 0 (Spec.planAt l.period x J i 0)) (h1 : l.UpTo 0 (Spec.planAt l.period x J i l.period))
    (hj : |J i| ≤ l.jerk) {t : K} (t0 : 0 ≤ t) (t1 : t ≤ l.period) :
    l.UpTo (l.jerk * l.period ^ 2 / 8) (Spec.planAt l.period x J i t) := by
  have hJ : 0 ≤ l.jerk := (abs_nonneg _).trans hj
  have e : ∀ s, Spec.planAt l.period x J i s = Spec.cubic (Spec.planAt l.period x J i 0) (J i) s := by
    intro s
    simp [Spec.planAt, Spec.cubic]
  rw [e] at h1
  rw [e]
  obtain ⟨hv, ha⟩ := h0
  obtain ⟨hv', ha'⟩ := h1
  rw [add_zero] at hv'
  obtain ⟨e1, e2⟩ := cubic_between hT t0 t1 hv ha hj hv' ha'
  refine ⟨e1.trans ?_, e2⟩
  have h3 : t * (l.period - t) / 2 ≤ l.period ^ 2 / 8 := by
    have := sq_nonneg (2 * t - l.period)
    nlinarith
  have := mul_le_mul_of_nonneg_left h3 hJ
  rw [mul_zero, add_zero]
  linarith

end MPC
