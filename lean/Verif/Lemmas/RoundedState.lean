import Verif.Spec.RoundedState
import Verif.Lemmas.FloatRound
import Mathlib.Tactic.Ring
import Mathlib.Tactic.Positivity
import Mathlib.Tactic.GCongr
/-! # Errors of a rounded state update (C88) -/
set_option linter.unusedSectionVars false
namespace MPC
open Spec
variable {K : Type} [Field K] [LinearOrder K] [IsStrictOrderedRing K]

/-- `y` is `x` after at most `k` roundings; `M` bounds the terms that were added up to `x`. -/
structure Err (u : K) (k : ℕ) (y x M : K) : Prop where
  le : |x| ≤ M
  err : |y - x| ≤ ((1 + u) ^ k - 1) * M

namespace Err
variable {u : K} {k l : ℕ} {x y M x' y' M' : K}

theorem M_nonneg (h : Err u k y x M) : 0 ≤ M := (abs_nonneg x).trans h.le

theorem refl (u x : K) : Err u 0 x x |x| := ⟨le_rfl, by simp⟩

theorem mono (hu : 0 ≤ u) (h : Err u k y x M) (hk : k ≤ l) : Err u l y x M :=
  ⟨h.le, h.err.trans (mul_le_mul_of_nonneg_right
    (sub_le_sub_right (pow_le_pow_right₀ (by linarith) hk) 1) h.M_nonneg)⟩

theorem abs_le' (h : Err u k y x M) : |y| ≤ (1 + u) ^ k * M := by
  have := abs_add_le (y - x) x
  rw [sub_add_cancel] at this
  have := h.err; have := h.le
  linarith

theorem round (hu : 0 ≤ u) {f : K → K} (hf : ∀ x, |f x - x| ≤ u * |x|) (h : Err u k y x M) : Err u (k + 1) (f y) x M := by
  refine ⟨h.le, ?_⟩
  have h1 := hf y
  have h2 := mul_le_mul_of_nonneg_left h.abs_le' hu
  have h3 := abs_add_le (f y - y) (y - x)
  rw [sub_add_sub_cancel] at h3
  have h4 := h.err
  rw [pow_succ]
  linarith

theorem add (hu : 0 ≤ u) (h : Err u k y x M) (h' : Err u l y' x' M') : Err u (max k l) (y + y') (x + x') (M + M') := by
  have h1 := h.mono hu (le_max_left k l)
  have h2 := h'.mono hu (le_max_right k l)
  refine ⟨(abs_add_le _ _).trans (add_le_add h.le h'.le), ?_⟩
  rw [add_sub_add_comm]
  refine (abs_add_le _ _).trans ?_
  have := h1.err; have := h2.err
  linarith

theorem mul (hu : 0 ≤ u) (h : Err u k y x M) (h' : Err u l y' x' M') : Err u (k + l) (y * y') (x * x') (M * M') := by
  refine ⟨by rw [abs_mul]; exact mul_le_mul h.le h'.le (abs_nonneg _) h.M_nonneg, ?_⟩
  have e : y * y' - x * x' = (y - x) * y' + x * (y' - x') := by ring
  rw [e]
  refine (abs_add_le _ _).trans ?_
  rw [abs_mul, abs_mul]
  have hk : 0 ≤ (1 + u) ^ k - 1 := sub_nonneg.2 (one_le_pow₀ (by linarith))
  have h1 : |y - x| * |y'| ≤ ((1 + u) ^ k - 1) * M * ((1 + u) ^ l * M') :=
    mul_le_mul h.err h'.abs_le' (abs_nonneg _) (mul_nonneg hk h.M_nonneg)
  have h2 : |x| * |y' - x'| ≤ M * (((1 + u) ^ l - 1) * M') :=
    mul_le_mul h.le h'.err (abs_nonneg _) h.M_nonneg
  rw [pow_add]
  calc _ ≤ ((1 + u) ^ k - 1) * M * ((1 + u) ^ l * M') + M * (((1 + u) ^ l - 1) * M') := add_le_add h1 h2
    _ = _ := by ring

/-- At most `k` roundings with a small unit. -/
theorem small (h : Err u k y x M) (hu : 0 ≤ u) (hu' : u ≤ 1 / 100) (hk : k ≤ 7) : |y - x| ≤ 8 * u * M := by
  have h1 := (h.mono hu hk).err
  refine h1.trans (mul_le_mul_of_nonneg_right ?_ h.M_nonneg)
  have h2 : u ^ 2 ≤ u * (1 / 100) := by rw [pow_two]; exact mul_le_mul_of_nonneg_left hu' hu
  have h3 : u ^ 3 ≤ u * (1 / 100) := by
    calc u ^ 3 = u ^ 2 * u := by ring
      _ ≤ u * (1 / 100) * 1 := mul_le_mul h2 (by linarith) hu (by positivity)
      _ = _ := by ring
  have h4 : u ^ 4 ≤ u ^ 3 := pow_le_pow_of_le_one hu (by linarith) (by norm_num)
  have hp : ∀ n, 3 ≤ n → u ^ n ≤ u ^ 2 * (1 / 100) := fun n hn => by
    calc u ^ n ≤ u ^ 3 := pow_le_pow_of_le_one hu (by linarith) hn
      _ = u ^ 2 * u := by ring
      _ ≤ _ := mul_le_mul_of_nonneg_left hu' (by positivity)
  have e : (1 + u) ^ 7 - 1 = 7 * u + 21 * u ^ 2 + 35 * u ^ 3 + 35 * u ^ 4 + 21 * u ^ 5 + 7 * u ^ 6 + u ^ 7 := by ring
  rw [e]
  have := hp 3 (by norm_num); have := hp 4 (by norm_num); have := hp 5 (by norm_num)
  have := hp 6 (by norm_num); have := hp 7 (by norm_num)
  linarith

end Err

theorem stateStepR_err {c : Arith K} {u : K} (hc : Precise c u) (hu : 0 ≤ u) {jerk T : K} (hT : 0 < T) (s : State3 K) :
    Err u 7 (stateStepR c jerk T s).p (cubic s jerk T).p (|s.p| + |s.v| * T + |s.a| * T ^ 2 / 2 + |jerk| * T ^ 3 / 6) ∧
    Err u 6 (stateStepR c jerk T s).v (cubic s jerk T).v (|s.v| + |s.a| * T + |jerk| * T ^ 2 / 2) ∧
    Err u 2 (stateStepR c jerk T s).a (cubic s jerk T).a (|s.a| + |jerk| * T) := by
  have r := fun x => Err.refl u x
  have aT : |T| = T := abs_of_pos hT
  have T2 := (r (T ^ 2)).round hu hc.d
  have T3 := (r (T ^ 3)).round hu hc.d
  have h12 := r (1 / 2 : K)
  have h16 := r (6⁻¹ : K)
  have a2 : |(1 / 2 : K)| = 1 / 2 := abs_of_pos (by norm_num)
  have a6 : |(6⁻¹ : K)| = 6⁻¹ := abs_of_pos (by norm_num)
  refine ⟨?_, ?_, ?_⟩
  · have h := (((r s.p).add hu ((((((r s.v).mul hu (r T)).round hu hc.r).add hu
      (((((h12.mul hu (r s.a)).round hu hc.r).mul hu T2).round hu hc.d))).round hu hc.d).add hu
      (((((r jerk).mul hu T3).round hu hc.d).mul hu h16).round hu hc.d) |>.round hu hc.d)).round hu hc.d).round hu hc.r
    have e : |s.p| + (|s.v| * |T| + |(1 / 2 : K)| * |s.a| * |T ^ 2| + |jerk| * |T ^ 3| * |(6⁻¹ : K)|)
        = |s.p| + |s.v| * T + |s.a| * T ^ 2 / 2 + |jerk| * T ^ 3 / 6 := by
      rw [abs_pow, abs_pow, aT, a2, a6]; ring
    have e' : s.p + (s.v * T + 1 / 2 * s.a * T ^ 2 + jerk * T ^ 3 * 6⁻¹) = (cubic s jerk T).p := by
      simp only [cubic]; ring
    rw [e, e'] at h
    simpa [stateStepR, div_eq_mul_inv] using h
  · have h := (((r s.v).add hu ((((r s.a).mul hu (r T)).round hu hc.r).add hu
      ((((h12.mul hu (r jerk)).round hu hc.r).mul hu T2).round hu hc.d) |>.round hu hc.d)).round hu hc.d).round hu hc.r
    have e : |s.v| + (|s.a| * |T| + |(1 / 2 : K)| * |jerk| * |T ^ 2|) = |s.v| + |s.a| * T + |jerk| * T ^ 2 / 2 := by
      rw [abs_pow, aT, a2]; ring
    have e' : s.v + (s.a * T + 1 / 2 * jerk * T ^ 2) = (cubic s jerk T).v := by
      simp only [cubic]; ring
    rw [e, e'] at h
    simpa [stateStepR] using h
  · have h := ((r s.a).add hu (((r jerk).mul hu (r T)).round hu hc.r)).round hu hc.r
    have e : |s.a| + |jerk| * |T| = |s.a| + |jerk| * T := by rw [aT]
    have e' : s.a + jerk * T = (cubic s jerk T).a := by simp only [cubic]
    rw [e, e'] at h
    simpa [stateStepR] using h

/-! ### Numbers that are not rounded -/

theorem fl_of_mul {p : ℕ} {x : ℚ} (k : ℤ) (h : x = k * ulp p x) : fl p x = x := by
  have := fl_nearest p x k
  rw [← h, sub_self, abs_zero] at this
  exact sub_eq_zero.1 (abs_eq_zero.1 (le_antisymm this (abs_nonneg _)))

/-- A number with `p` significant bits is not changed. -/
theorem fl_exact {p : ℕ} {x : ℚ} (k f : ℤ) (hx : x = k * 2 ^ f) (hk : |k| < 2 ^ p) : fl p x = x := by
  by_cases h0 : x = 0
  · subst h0; simp [fl]
  have hk0 : k ≠ 0 := by rintro rfl; apply h0; rw [hx]; simp
  have h2 : (0 : ℚ) < 2 ^ f := zpow_pos (by norm_num) _
  have hxk : |x| = |k| * 2 ^ f := by rw [hx, abs_mul, abs_of_pos h2]; push_cast; rfl
  have hlt : |x| < 2 ^ (p + f : ℤ) := by
    rw [hxk, zpow_add₀ (by norm_num)]
    have : ((|k| : ℤ) : ℚ) < ((2 ^ p : ℤ) : ℚ) := by exact_mod_cast hk
    push_cast at this
    simpa using mul_lt_mul_of_pos_right this h2
  have hlog : Int.log 2 |x| < p + f := by
    have := lt_of_le_of_lt (log_le (abs_pos.2 h0)) hlt
    exact (zpow_lt_zpow_iff_right₀ (by norm_num : (1 : ℚ) < 2)).1 this
  obtain ⟨n, hn⟩ : ∃ n : ℕ, f = (Int.log 2 |x| - p + 1) + n := ⟨(f - (Int.log 2 |x| - p + 1)).toNat, by omega⟩
  refine fl_of_mul (k * 2 ^ n) ?_
  unfold ulp
  push_cast
  conv_lhs => rw [hx, hn, zpow_add₀ (by norm_num), zpow_natCast]
  ring

/-- A positive number is not changed by adding less than half of its last bit. -/
theorem fl_absorb {m e : ℤ} (h1 : 2 ^ 23 ≤ m) (h2 : m < 2 ^ 24) {y : ℚ} (h3 : m * 2 ^ e ≤ y)
    (h4 : y < m * 2 ^ e + 2 ^ e / 2) : fl 24 y = m * 2 ^ e := by
  have he : (0 : ℚ) < 2 ^ e := zpow_pos (by norm_num) _
  have h1' : ((2 ^ 23 : ℤ) : ℚ) ≤ m := by exact_mod_cast h1
  have h2' : (m : ℚ) + 1 ≤ ((2 ^ 24 : ℤ) : ℚ) := by exact_mod_cast h2
  push_cast at h1' h2'
  have e23 : (2 : ℚ) ^ (e + 23) = 2 ^ 23 * 2 ^ e := by
    rw [add_comm, zpow_add₀ (by norm_num)]; norm_cast
  have e24 : (2 : ℚ) ^ (e + 23 + 1) = 2 ^ 24 * 2 ^ e := by
    rw [show e + 23 + 1 = 24 + e by ring, zpow_add₀ (by norm_num)]; norm_cast
  have hy0 : 0 < y := lt_of_lt_of_le (mul_pos (by linarith) he) h3
  have hl : Int.log 2 |y| = e + 23 := by
    rw [abs_of_pos hy0]
    refine log_eq ?_ ?_
    · rw [e23]; exact (mul_le_mul_of_nonneg_right h1' he.le).trans h3
    · rw [e24]
      have := mul_le_mul_of_nonneg_right h2' he.le
      linarith
  unfold fl
  rw [if_neg hy0.ne', hl, show e + 23 - ((24 : ℕ) : ℤ) + 1 = e by push_cast; ring]
  have hf : ⌊y / 2 ^ e⌋ = m := by
    rw [Int.floor_eq_iff]
    refine ⟨by rw [le_div_iff₀ he]; exact h3, by rw [div_lt_iff₀ he]; linarith⟩
  unfold roundEven
  dsimp only
  rw [hf, if_pos]
  have : y / 2 ^ e < m + 1 / 2 := by rw [div_lt_iff₀ he]; linarith
  linarith

/-- Rounding to `double` does not cross a `float`. -/
theorem fl_ge {m e : ℤ} (h1 : 2 ^ 23 ≤ m) (h2 : m < 2 ^ 24) {z : ℚ} (h3 : m * 2 ^ e ≤ z)
    (h4 : z < m * 2 ^ e + 2 ^ e / 2) : m * 2 ^ e ≤ fl 53 z := by
  have he : (0 : ℚ) < 2 ^ e := zpow_pos (by norm_num) _
  have h1' : ((2 ^ 23 : ℤ) : ℚ) ≤ m := by exact_mod_cast h1
  have h2' : (m : ℚ) + 1 ≤ ((2 ^ 24 : ℤ) : ℚ) := by exact_mod_cast h2
  push_cast at h1' h2'
  have e23 : (2 : ℚ) ^ (e + 23) = 2 ^ 23 * 2 ^ e := by
    rw [add_comm, zpow_add₀ (by norm_num)]; norm_cast
  have e24 : (2 : ℚ) ^ (e + 23 + 1) = 2 ^ 24 * 2 ^ e := by
    rw [show e + 23 + 1 = 24 + e by ring, zpow_add₀ (by norm_num)]; norm_cast
  have hz0 : 0 < z := lt_of_lt_of_le (mul_pos (by linarith) he) h3
  have hl : Int.log 2 |z| = e + 23 := by
    rw [abs_of_pos hz0]
    refine log_eq ?_ ?_
    · rw [e23]; exact (mul_le_mul_of_nonneg_right h1' he.le).trans h3
    · rw [e24]
      have := mul_le_mul_of_nonneg_right h2' he.le
      linarith
  have hu : (m * 2 ^ 29 : ℤ) * ulp 53 z = m * 2 ^ e := by
    unfold ulp
    rw [hl, show e + 23 - ((53 : ℕ) : ℤ) + 1 = e - 29 by push_cast; ring, zpow_sub₀ (by norm_num)]
    push_cast
    field_simp
  have := fl_nearest 53 z (m * 2 ^ 29)
  rw [hu] at this
  by_contra hc
  have hc := not_le.1 hc
  rw [abs_of_nonpos (by linarith), abs_of_nonpos (by linarith)] at this
  linarith

theorem fl_zero (p : ℕ) : fl p 0 = 0 := by simp [fl]

/-- A `float` state without acceleration whose velocity times the period is less than 0.49 of the last bit of its position. -/
theorem stateStepR_stuck {m e k f : ℤ} (h1 : 2 ^ 23 ≤ m) (h2 : m < 2 ^ 24) (hk : |k| < 2 ^ 24) {v T : ℚ} (hv : v = k * 2 ^ f)
    (hv0 : 0 ≤ v) (hT : 0 < T) (hvT : v * T ≤ 49 / 100 * 2 ^ e) :
    stateStepR (flArith 24) 0 T ⟨m * 2 ^ e, v, 0⟩ = ⟨m * 2 ^ e, v, 0⟩ := by
  have he : (0 : ℚ) < 2 ^ e := zpow_pos (by norm_num) _
  have hd := mul_nonneg hv0 hT.le
  have up : ∀ (p : ℕ) (_ : 24 ≤ p) (x : ℚ), 0 ≤ x → 0 ≤ fl p x ∧ fl p x ≤ x * (1 + 1 / 2 ^ 24) := by
    intro p hp x hx
    have h := fl_error p x
    rw [abs_of_nonneg hx] at h
    have hp1 : (2 : ℚ) ^ 24 ≤ 2 ^ p := pow_le_pow_right₀ (by norm_num) hp
    have h5 : x / 2 ^ p ≤ x / 2 ^ 24 := div_le_div_of_nonneg_left hx (by norm_num) hp1
    have h6 : x / 2 ^ 24 ≤ x := div_le_self hx (by norm_num)
    have := abs_le.1 h
    refine ⟨by linarith, ?_⟩
    have : x * (1 + 1 / 2 ^ 24) = x + x / 2 ^ 24 := by ring
    linarith
  obtain ⟨a1, a2⟩ := up 24 le_rfl _ hd
  obtain ⟨b1, b2⟩ := up 53 (by norm_num) _ a1
  obtain ⟨c1, c2⟩ := up 53 (by norm_num) _ b1
  have c3 : fl 53 (fl 53 (fl 24 (v * T))) ≤ 495 / 1000 * 2 ^ e := by
    have t1 : v * T * (1 + 1 / 2 ^ 24) * (1 + 1 / 2 ^ 24) * (1 + 1 / 2 ^ 24) ≤ 495 / 1000 * 2 ^ e := by
      have := mul_le_mul_of_nonneg_right hvT (by norm_num : (0 : ℚ) ≤ (1 + 1 / 2 ^ 24) * (1 + 1 / 2 ^ 24) * (1 + 1 / 2 ^ 24))
      have t2 : 49 / 100 * (2 : ℚ) ^ e * ((1 + 1 / 2 ^ 24) * (1 + 1 / 2 ^ 24) * (1 + 1 / 2 ^ 24)) ≤ 495 / 1000 * 2 ^ e := by
        have : (49 / 100 : ℚ) * ((1 + 1 / 2 ^ 24) * (1 + 1 / 2 ^ 24) * (1 + 1 / 2 ^ 24)) ≤ 495 / 1000 := by norm_num
        have := mul_le_mul_of_nonneg_right this he.le
        linarith
      linarith
    have t3 := mul_le_mul_of_nonneg_right a2 (by norm_num : (0 : ℚ) ≤ (1 + 1 / 2 ^ 24))
    have t4 := mul_le_mul_of_nonneg_right t3 (by norm_num : (0 : ℚ) ≤ (1 + 1 / 2 ^ 24))
    have t5 := mul_le_mul_of_nonneg_right b2 (by norm_num : (0 : ℚ) ≤ (1 + 1 / 2 ^ 24))
    linarith
  set δ := fl 53 (fl 53 (fl 24 (v * T)))
  have h1' : ((2 ^ 23 : ℤ) : ℚ) ≤ m := by exact_mod_cast h1
  have h2' : (m : ℚ) + 1 ≤ ((2 ^ 24 : ℤ) : ℚ) := by exact_mod_cast h2
  push_cast at h1' h2'
  have hm0 : 0 ≤ m * (2 : ℚ) ^ e := mul_nonneg (by linarith) he.le
  have g1 : m * (2 : ℚ) ^ e ≤ fl 53 (m * 2 ^ e + δ) := fl_ge h1 h2 (by linarith) (by linarith)
  have g2 : fl 53 (m * 2 ^ e + δ) < m * 2 ^ e + 2 ^ e / 2 := by
    have h := fl_error 53 (m * 2 ^ e + δ)
    rw [abs_of_nonneg (by linarith : 0 ≤ m * (2 : ℚ) ^ e + δ)] at h
    have h5 : (m * (2 : ℚ) ^ e + δ) / 2 ^ 53 ≤ 2 ^ 24 * 2 ^ e / 2 ^ 53 := by
      refine div_le_div_of_nonneg_right ?_ (by norm_num)
      have := mul_le_mul_of_nonneg_right h2' he.le
      linarith
    have h6 : (2 : ℚ) ^ 24 * 2 ^ e / 2 ^ 53 = 1 / 2 ^ 29 * 2 ^ e := by ring
    have h7 : (1 / 2 ^ 29 : ℚ) * 2 ^ e ≤ 1 / 1000 * 2 ^ e := mul_le_mul_of_nonneg_right (by norm_num) he.le
    have := (abs_le.1 h).2
    linarith
  have ev : ∀ p, 24 ≤ p → fl p v = v := fun p hp => fl_exact k f hv (lt_of_lt_of_le hk (pow_le_pow_right₀ (by norm_num) hp))
  simp only [stateStepR, flArith, mul_zero, zero_mul, zero_div, add_zero, fl_zero, State3.mk.injEq]
  refine ⟨?_, by rw [ev 53 (by norm_num), ev 24 le_rfl], trivial⟩
  exact fl_absorb h1 h2 g1 g2

end MPC
