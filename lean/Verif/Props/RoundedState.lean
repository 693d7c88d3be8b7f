import Verif.Lemmas.RoundedState
/-!
# C88: how far `updateState` in `float` and `double` is from the exact motion

Statements: `Verif.Spec.RoundedState`; model: `Verif.Model.RoundedState`.
-/
set_option linter.unusedSectionVars false
namespace MPC
open Spec
variable {K : Type} [Field K] [LinearOrder K] [IsStrictOrderedRing K]
variable {c : Arith K} {u T : K}

/-- Without rounding the state follows the cubic motion. -/
theorem C88_exact (jerk T : K) (s : State3 K) : stateStepR Arith.exact jerk T s = cubic s jerk T := by
  simp only [stateStepR, Arith.exact, cubic, State3.mk.injEq]
  refine ⟨by ring, by ring, trivial⟩

/-- **C88 (one update).** If all roundings have a relative error of at most `u`, each component is within `8 u` times the sum of
the absolute values of its terms from the exact motion. -/
theorem C88_step (hc : Precise c u) (hu : 0 ≤ u) (hu' : u ≤ 1 / 100) (hT : 0 < T) {jerk P V A : K} {s : State3 K}
    (ht : Terms jerk T s P V A) :
    Within (cubic s jerk T) (stateStepR c jerk T s) (8 * u * P) (8 * u * V) (8 * u * A) := by
  obtain ⟨h1, h2, h3⟩ := stateStepR_err hc hu (jerk := jerk) hT s
  have h0 : 0 ≤ 8 * u := by positivity
  exact ⟨(h1.small hu hu' le_rfl).trans (mul_le_mul_of_nonneg_left ht.p h0),
    (h2.small hu hu' (by norm_num)).trans (mul_le_mul_of_nonneg_left ht.v h0),
    (h3.small hu hu' (by norm_num)).trans (mul_le_mul_of_nonneg_left ht.a h0)⟩

/-- **C88 (many updates).** With the same jerks, after `n` updates the errors of acceleration, velocity and position are at
most linear, quadratic and cubic in `n`. -/
theorem C88_run (hc : Precise c u) (hu : 0 ≤ u) (hu' : u ≤ 1 / 100) (hT : 0 < T) {P V A : K} {J : ℕ → K} {s : State3 K}
    (n : ℕ) (ht : ∀ i < n, Terms (J i) T (stateRunR c T J s i) P V A) :
    Within (exactRun T J s n) (stateRunR c T J s n)
      (8 * u * (n * P + n ^ 2 / 2 * (T * V) + n ^ 3 / 6 * (T ^ 2 * A))) (8 * u * (n * V + n ^ 2 / 2 * (T * A)))
      (8 * u * (n * A)) := by
  induction n with
  | zero => simp only [exactRun, stateRunR]; exact ⟨by simp, by simp, by simp⟩
  | succ n ih =>
    obtain ⟨p1, v1, a1⟩ := ih fun i hi => ht i (by omega)
    have hlast := ht n (by omega)
    obtain ⟨p2, v2, a2⟩ := C88_step hc hu hu' hT hlast
    simp only [exactRun, stateRunR]
    set x := exactRun T J s n
    set y := stateRunR c T J s n
    have hA : 0 ≤ A := le_trans (by positivity) hlast.a
    have hV : 0 ≤ V := le_trans (by positivity) hlast.v
    have hn : (0 : K) ≤ n := Nat.cast_nonneg n
    have h0 : 0 ≤ 8 * u := by positivity
    set ε := 8 * u
    refine ⟨?_, ?_, ?_⟩
    · have e : (stateStepR c (J n) T y).p - (cubic x (J n) T).p = ((stateStepR c (J n) T y).p - (cubic y (J n) T).p)
          + (y.p - x.p) + T * (y.v - x.v) + T ^ 2 / 2 * (y.a - x.a) := by simp only [cubic]; ring
      rw [e]
      have t1 : |T * (y.v - x.v)| ≤ T * (ε * (n * V + n ^ 2 / 2 * (T * A))) := by
        rw [abs_mul, abs_of_pos hT]; exact mul_le_mul_of_nonneg_left v1 hT.le
      have t2 : |T ^ 2 / 2 * (y.a - x.a)| ≤ T ^ 2 / 2 * (ε * (n * A)) := by
        rw [abs_mul, abs_of_pos (by positivity)]; exact mul_le_mul_of_nonneg_left a1 (by positivity)
      have b1 := abs_add_le ((stateStepR c (J n) T y).p - (cubic y (J n) T).p + (y.p - x.p) + T * (y.v - x.v))
        (T ^ 2 / 2 * (y.a - x.a))
      have b2 := abs_add_le ((stateStepR c (J n) T y).p - (cubic y (J n) T).p + (y.p - x.p)) (T * (y.v - x.v))
      have b3 := abs_add_le ((stateStepR c (J n) T y).p - (cubic y (J n) T).p) (y.p - x.p)
      have e2 : ε * (((n + 1 : ℕ) : K) * P + ((n + 1 : ℕ) : K) ^ 2 / 2 * (T * V) + ((n + 1 : ℕ) : K) ^ 3 / 6 * (T ^ 2 * A))
          = ε * P + ε * (n * P + n ^ 2 / 2 * (T * V) + n ^ 3 / 6 * (T ^ 2 * A))
            + T * (ε * (n * V + n ^ 2 / 2 * (T * A))) + T ^ 2 / 2 * (ε * (n * A))
            + ε * (T * V / 2 + T ^ 2 * A / 6) := by push_cast; ring
      have h5 : 0 ≤ ε * (T * V / 2 + T ^ 2 * A / 6) := by positivity
      rw [e2]
      linarith
    · have e : (stateStepR c (J n) T y).v - (cubic x (J n) T).v = ((stateStepR c (J n) T y).v - (cubic y (J n) T).v)
          + (y.v - x.v) + T * (y.a - x.a) := by simp only [cubic]; ring
      rw [e]
      have t1 : |T * (y.a - x.a)| ≤ T * (ε * (n * A)) := by
        rw [abs_mul, abs_of_pos hT]; exact mul_le_mul_of_nonneg_left a1 hT.le
      have b2 := abs_add_le ((stateStepR c (J n) T y).v - (cubic y (J n) T).v + (y.v - x.v)) (T * (y.a - x.a))
      have b3 := abs_add_le ((stateStepR c (J n) T y).v - (cubic y (J n) T).v) (y.v - x.v)
      have e2 : ε * (((n + 1 : ℕ) : K) * V + ((n + 1 : ℕ) : K) ^ 2 / 2 * (T * A))
          = ε * V + ε * (n * V + n ^ 2 / 2 * (T * A)) + T * (ε * (n * A)) + ε * (T * A / 2) := by push_cast; ring
      have h5 : 0 ≤ ε * (T * A / 2) := by positivity
      rw [e2]
      linarith
    · have e : (stateStepR c (J n) T y).a - (cubic x (J n) T).a = ((stateStepR c (J n) T y).a - (cubic y (J n) T).a)
          + (y.a - x.a) := by simp only [cubic]; ring
      rw [e]
      have b3 := abs_add_le ((stateStepR c (J n) T y).a - (cubic y (J n) T).a) (y.a - x.a)
      have e2 : ε * (((n + 1 : ℕ) : K) * A) = ε * A + ε * (n * A) := by push_cast; ring
      rw [e2]
      linarith

/-- **C88 (`float` and `double`).** The bounds hold with `u = 2⁻²⁴` for `float` and `u = 2⁻⁵³` for `double`. -/
theorem C88_float {p : ℕ} (hp : p ≤ 53) : Precise (flArith p) (1 / 2 ^ p) := by
  have h : ∀ q, p ≤ q → ∀ x, |fl q x - x| ≤ 1 / 2 ^ p * |x| := by
    intro q hq x
    refine (fl_error q x).trans ?_
    rw [div_mul_eq_mul_div, one_mul]
    exact div_le_div_of_nonneg_left (abs_nonneg x) (by positivity) (pow_le_pow_right₀ (by norm_num) hq)
  exact ⟨h p le_rfl, h 53 hp⟩

/-- **C88 (the bounds are needed).** In `float`, a body without acceleration at a positive position, whose way in one control
period is at most 0.49 of the last bit of the position, does not move at all, whatever the number of updates. -/
theorem C88_stuck {m e k f : ℤ} (h1 : 2 ^ 23 ≤ m) (h2 : m < 2 ^ 24) (hk : |k| < 2 ^ 24) {v T : ℚ} (hv : v = k * 2 ^ f)
    (hv0 : 0 ≤ v) (hT : 0 < T) (hvT : v * T ≤ 49 / 100 * 2 ^ e) (n : ℕ) :
    stateRunR (flArith 24) T (fun _ => 0) ⟨m * 2 ^ e, v, 0⟩ n = ⟨m * 2 ^ e, v, 0⟩ ∧
    exactRun T (fun _ => 0) ⟨m * 2 ^ e, v, 0⟩ n = ⟨m * 2 ^ e + n * (v * T), v, 0⟩ := by
  constructor
  · induction n with
    | zero => rfl
    | succ n ih => simp only [stateRunR]; rw [ih]; exact stateStepR_stuck h1 h2 hk hv hv0 hT hvT
  · induction n with
    | zero => simp [exactRun]
    | succ n ih =>
      simp only [exactRun]; rw [ih]
      simp only [cubic, State3.mk.injEq]
      push_cast
      refine ⟨by ring, by ring, by ring⟩

/-- 16 m from the origin, at 0.9 mm/s and with 1 kHz, the position never changes; after one hour it should be 3 m further. -/
example : ∃ v : ℚ, 8 / 10000 < v ∧ v < 9 / 10000 ∧ ∀ n : ℕ,
    stateRunR (flArith 24) (1 / 1000) (fun _ => 0) ⟨16, v, 0⟩ n = ⟨16, v, 0⟩ ∧
    exactRun (1 / 1000) (fun _ => 0) ⟨16, v, 0⟩ n = ⟨16 + n * (v * (1 / 1000)), v, 0⟩ := by
  refine ⟨7 * 2 ^ (-13 : ℤ), by norm_num, by norm_num, fun n => ?_⟩
  have h := C88_stuck (m := 2 ^ 23) (e := -19) (k := 7) (f := -13) (T := 1 / 1000) le_rfl (by norm_num) (by norm_num) rfl
    (by norm_num) (by norm_num) (by norm_num) n
  have e : ((2 ^ 23 : ℤ) : ℚ) * 2 ^ (-19 : ℤ) = 16 := by norm_num
  rw [e] at h
  exact_mod_cast h

/-- The hypotheses of `C88_run` are met by one update of a body moving under a jerk, in `float`, -/
example : Precise (flArith 24) (1 / 2 ^ 24) ∧ (0 : ℚ) ≤ 1 / 2 ^ 24 ∧ (1 / 2 ^ 24 : ℚ) ≤ 1 / 100 ∧
    ∀ i < 1, Terms 1 (1 / 10) (stateRunR (flArith 24) (1 / 10) (fun _ => 1) ⟨1, 1, 1⟩ i) 2 2 2 := by
  refine ⟨C88_float (by norm_num), by norm_num, by norm_num, fun i hi => ?_⟩
  obtain rfl : i = 0 := by omega
  constructor <;> simp only [stateRunR] <;> norm_num

/-- and by any number of updates of the body that does not move. -/
example (n : ℕ) : ∀ i < n, Terms 0 (1 / 1000) (stateRunR (flArith 24) (1 / 1000) (fun _ => 0) ⟨16, 7 * 2 ^ (-13 : ℤ), 0⟩ i)
    17 1 0 := by
  intro i _
  have h := (C88_stuck (m := 2 ^ 23) (e := -19) (k := 7) (f := -13) (T := 1 / 1000) (v := 7 * 2 ^ (-13 : ℤ)) le_rfl (by norm_num)
    (by norm_num) (by norm_num) (by norm_num) (by norm_num) (by norm_num) i).1
  have e : ((2 ^ 23 : ℤ) : ℚ) * 2 ^ (-19 : ℤ) = 16 := by norm_num
  rw [e] at h
  rw [h]
  constructor <;> norm_num [abs_of_pos]

end MPC
