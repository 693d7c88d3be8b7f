import Verif.Model.Rounded
import Mathlib.Data.Nat.Log
import Mathlib.Tactic.Linarith
import Mathlib.Tactic.FieldSimp
import Mathlib.Tactic.NormNum
/-! # Rounding to `p` bits (C83) -/
namespace MPC

theorem roundEven_spec (x : ℚ) {u : ℚ} (hu : 0 < u) : ∃ m : ℤ, roundEven x u = m * u ∧ |m * u - x| ≤ u / 2 ∧ ⌊x / u⌋ ≤ m := by
  have h1 : (⌊x / u⌋ : ℚ) ≤ x / u := Int.floor_le _
  have h2 : x / u < ⌊x / u⌋ + 1 := Int.lt_floor_add_one _
  have hx : x = x / u * u := by field_simp
  have key : ∀ m : ℤ, |(m : ℚ) - x / u| ≤ 1 / 2 → |m * u - x| ≤ u / 2 := by
    intro m hm
    have : m * u - x = (m - x / u) * u := by field_simp
    rw [this, abs_mul, abs_of_pos hu]
    nlinarith
  unfold roundEven
  dsimp only
  split
  · refine ⟨⌊x / u⌋, rfl, key _ ?_, le_rfl⟩
    rw [abs_le]; constructor <;> linarith
  · split
    · refine ⟨⌊x / u⌋ + 1, by push_cast; ring, key _ ?_, by omega⟩
      rw [abs_le]; push_cast; constructor <;> linarith
    · have e : x / u - ⌊x / u⌋ = 1 / 2 := by linarith
      split
      · refine ⟨⌊x / u⌋, rfl, key _ ?_, le_rfl⟩
        rw [abs_le]; constructor <;> linarith
      · refine ⟨⌊x / u⌋ + 1, by push_cast; ring, key _ ?_, by omega⟩
        rw [abs_le]; push_cast; constructor <;> linarith

/-- Weight of the last bit. -/
def ulp (p : ℕ) (x : ℚ) : ℚ := (2 : ℚ) ^ (Int.log 2 |x| - p + 1)

theorem ulp_pos (p : ℕ) (x : ℚ) : 0 < ulp p x := zpow_pos (by norm_num) _

theorem log_le {x : ℚ} (hx : 0 < x) : (2 : ℚ) ^ Int.log 2 x ≤ x := by
  have := Int.zpow_log_le_self (b := 2) (by norm_num) hx
  simpa using this

theorem lt_log (x : ℚ) : x < (2 : ℚ) ^ (Int.log 2 x + 1) := by
  have := Int.lt_zpow_succ_log_self (b := 2) (by norm_num) x
  simpa using this

theorem log_eq {x : ℚ} {e : ℤ} (h1 : (2 : ℚ) ^ e ≤ x) (h2 : x < (2 : ℚ) ^ (e + 1)) : Int.log 2 x = e := by
  have h0 : 0 < x := lt_of_lt_of_le (zpow_pos (by norm_num) _) h1
  have a := log_le h0
  have b := lt_log x
  have c1 : Int.log 2 x < e + 1 := by
    have := lt_of_le_of_lt a h2
    exact (zpow_lt_zpow_iff_right₀ (by norm_num : (1 : ℚ) < 2)).1 this
  have c2 : e < Int.log 2 x + 1 := by
    have := lt_of_le_of_lt h1 b
    exact (zpow_lt_zpow_iff_right₀ (by norm_num : (1 : ℚ) < 2)).1 this
  omega

theorem ulp_eq (p : ℕ) (x : ℚ) : ulp p x / 2 = (2 : ℚ) ^ Int.log 2 |x| / 2 ^ p := by
  unfold ulp
  rw [zpow_add₀ (by norm_num), zpow_sub₀ (by norm_num)]
  simp

theorem fl_spec (p : ℕ) (x : ℚ) (hx : x ≠ 0) :
    ∃ m : ℤ, fl p x = m * ulp p x ∧ |fl p x - x| ≤ ulp p x / 2 ∧ ⌊x / ulp p x⌋ ≤ m := by
  obtain ⟨m, h1, h2, h3⟩ := roundEven_spec x (ulp_pos p x)
  have e : fl p x = roundEven x (ulp p x) := by unfold fl; rw [if_neg hx]; rfl
  exact ⟨m, by rw [e, h1], by rw [e, h1]; exact h2, h3⟩

/-- Relative error of the rounding. -/
theorem fl_error (p : ℕ) (x : ℚ) : |fl p x - x| ≤ |x| / 2 ^ p := by
  by_cases hx : x = 0
  · simp [fl, hx]
  · obtain ⟨m, -, h2, -⟩ := fl_spec p x hx
    refine h2.trans ?_
    rw [ulp_eq]
    exact div_le_div_of_nonneg_right (log_le (abs_pos.2 hx)) (by positivity)

/-- The result has `p` significant bits. -/
theorem fl_bits (p : ℕ) (x : ℚ) : ∃ m e : ℤ, fl p x = m * 2 ^ e ∧ |m| ≤ 2 ^ p := by
  by_cases hx : x = 0
  · exact ⟨0, 0, by simp [fl, hx], by simp⟩
  · obtain ⟨m, h1, h2, -⟩ := fl_spec p x hx
    refine ⟨m, _, h1, ?_⟩
    have hu := ulp_pos p x
    have h3 : |x| < 2 ^ p * ulp p x := by
      have := lt_log |x|
      unfold ulp
      rw [zpow_add₀ (by norm_num)] at this ⊢
      rw [zpow_sub₀ (by norm_num)]
      simpa [field] using this
    have h4 : |(m : ℚ)| * ulp p x ≤ |x| + ulp p x / 2 := by
      rw [← abs_of_pos hu, ← abs_mul, abs_of_pos hu, ← h1]
      have := abs_add_le (fl p x - x) x
      rw [sub_add_cancel] at this
      linarith
    have h5 : |(m : ℚ)| < 2 ^ p + 1 := by
      by_contra hc
      have := mul_le_mul_of_nonneg_right (not_lt.1 hc) hu.le
      nlinarith
    have h6 : (|m| : ℚ) < ((2 ^ p + 1 : ℤ) : ℚ) := by push_cast; exact h5
    have h7 : |m| < 2 ^ p + 1 := by exact_mod_cast h6
    omega

/-- No multiple of the weight of the last bit is closer. -/
theorem fl_nearest (p : ℕ) (x : ℚ) (k : ℤ) : |fl p x - x| ≤ |k * ulp p x - x| := by
  by_cases hx : x = 0
  · simp only [fl, hx, if_true, sub_zero, abs_zero]
    exact abs_nonneg _
  · obtain ⟨m, h1, h2, -⟩ := fl_spec p x hx
    have hu := ulp_pos p x
    by_contra hc
    have hc := not_le.1 hc
    have hne : k ≠ m := by rintro rfl; rw [h1] at hc; exact lt_irrefl _ hc
    have h3 : (1 : ℚ) ≤ |(k - m : ℤ)| := by exact_mod_cast Int.one_le_abs (sub_ne_zero.2 hne)
    have h4 : |(k * ulp p x - x) - (m * ulp p x - x)| = |((k - m : ℤ) : ℚ)| * ulp p x := by
      rw [← abs_of_pos hu, ← abs_mul, abs_of_pos hu]; congr 1; push_cast; ring
    have h5 := abs_sub (k * ulp p x - x) (m * ulp p x - x)
    rw [h4, ← h1] at h5
    push_cast at h5 h3
    nlinarith

/-- Quotients that are a bit larger than an integer. -/
theorem fl_quotient {p : ℕ} (z : ℕ) {x : ℚ} (hz : 4 * ((z : ℚ) + 1) ≤ 2 ^ p) (h1 : (z : ℚ) ≤ x) (h2 : x ≤ z + 3 / 4) :
    (z : ℚ) ≤ fl p x ∧ fl p x < z + 1 := by
  have hz0 : (0 : ℚ) ≤ z := by positivity
  have hx0 : 0 ≤ x := hz0.trans h1
  have hp : (0 : ℚ) < 2 ^ p := by positivity
  constructor
  · by_cases hx : x = 0
    · rw [hx] at h1; simpa [fl, hx] using h1
    · have hx1 : 0 < x := lt_of_le_of_ne hx0 (Ne.symm hx)
      obtain ⟨m, e1, -, e3⟩ := fl_spec p x hx
      have hu := ulp_pos p x
      obtain ⟨i, hi⟩ : ∃ i : ℕ, ulp p x * 2 ^ i = 1 := by
        have hl : Int.log 2 |x| + 1 ≤ p := by
          have h5 : (2 : ℚ) ^ Int.log 2 |x| < 2 ^ p := by
            have := log_le (abs_pos.2 hx)
            rw [abs_of_pos hx1] at this ⊢
            exact lt_of_le_of_lt this (by linarith)
          have h6 : (2 : ℚ) ^ Int.log 2 |x| < 2 ^ (p : ℤ) := by rw [zpow_natCast]; exact h5
          have := (zpow_lt_zpow_iff_right₀ (by norm_num : (1 : ℚ) < 2)).1 h6
          omega
        refine ⟨(p - 1 - Int.log 2 |x|).toNat, ?_⟩
        unfold ulp
        rw [← zpow_natCast, ← zpow_add₀ (by norm_num), Int.toNat_of_nonneg (by omega)]
        rw [show Int.log 2 |x| - p + 1 + (p - 1 - Int.log 2 |x|) = 0 by ring, zpow_zero]
      have h3 : ((z * 2 ^ i : ℕ) : ℤ) ≤ ⌊x / ulp p x⌋ := by
        rw [Int.le_floor, le_div_iff₀ hu]
        push_cast
        nlinarith
      have h4 : ((z * 2 ^ i : ℕ) : ℚ) ≤ m := by exact_mod_cast h3.trans e3
      rw [e1]
      have := mul_le_mul_of_nonneg_right h4 hu.le
      push_cast at this
      nlinarith
  · have h3 := fl_error p x
    rw [abs_of_nonneg hx0, abs_le] at h3
    have h4 : x / 2 ^ p < 1 / 4 := by rw [div_lt_iff₀ hp]; linarith
    linarith [h3.2]

/-! ### A timer of 5 s with steps of 1 ms in `float` -/

/-- `Y` rounded to a multiple of `2 ^ k`. -/
def roundNat (Y k : ℕ) : ℕ :=
  if 2 * (Y % 2 ^ k) < 2 ^ k then Y / 2 ^ k * 2 ^ k
  else if 2 ^ k < 2 * (Y % 2 ^ k) then (Y / 2 ^ k + 1) * 2 ^ k
  else if Y / 2 ^ k % 2 = 0 then Y / 2 ^ k * 2 ^ k else (Y / 2 ^ k + 1) * 2 ^ k

theorem roundEven_nat (Y k : ℕ) {u : ℚ} (hu : 0 < u) : roundEven (Y * u) (2 ^ k * u) = roundNat Y k * u := by
  have hk : (0 : ℚ) < 2 ^ k := by positivity
  have hq : (Y : ℚ) * u / (2 ^ k * u) = Y / 2 ^ k := by field_simp
  have hfl : ⌊(Y : ℚ) / 2 ^ k⌋ = ((Y / 2 ^ k : ℕ) : ℤ) := by
    have := Rat.floor_intCast_div_natCast (Y : ℤ) (2 ^ k)
    push_cast at this ⊢
    exact this
  have hdm : (Y : ℚ) = 2 ^ k * ((Y / 2 ^ k : ℕ) : ℚ) + ((Y % 2 ^ k : ℕ) : ℚ) := by
    have := Nat.div_add_mod Y (2 ^ k)
    exact_mod_cast this.symm
  have hr : (Y : ℚ) / 2 ^ k - ((Y / 2 ^ k : ℕ) : ℚ) = ((Y % 2 ^ k : ℕ) : ℚ) / 2 ^ k := by
    rw [eq_div_iff hk.ne', sub_mul, div_mul_cancel₀ _ hk.ne']; linarith
  have c1 : ((Y : ℚ) / 2 ^ k - ((Y / 2 ^ k : ℕ) : ℚ) < 1 / 2) ↔ 2 * (Y % 2 ^ k) < 2 ^ k := by
    rw [hr, div_lt_div_iff₀ hk (by norm_num)]
    constructor
    · intro h; have : (2 * (Y % 2 ^ k : ℕ) : ℚ) < 2 ^ k := by linarith
      exact_mod_cast this
    · intro h; have : (2 * (Y % 2 ^ k : ℕ) : ℚ) < 2 ^ k := by exact_mod_cast h
      linarith
  have c2 : ((Y : ℚ) / 2 ^ k - ((Y / 2 ^ k : ℕ) : ℚ) > 1 / 2) ↔ 2 ^ k < 2 * (Y % 2 ^ k) := by
    rw [hr, gt_iff_lt, div_lt_div_iff₀ (by norm_num) hk]
    constructor
    · intro h; have : (2 ^ k : ℚ) < 2 * (Y % 2 ^ k : ℕ) := by linarith
      exact_mod_cast this
    · intro h; have : (2 ^ k : ℚ) < 2 * (Y % 2 ^ k : ℕ) := by exact_mod_cast h
      linarith
  have c3 : (((Y / 2 ^ k : ℕ) : ℤ) % 2 = 0) ↔ Y / 2 ^ k % 2 = 0 := by omega
  unfold roundEven roundNat
  dsimp only
  rw [hq, hfl, Int.cast_natCast]
  simp only [c1, c2, c3]
  split_ifs <;> push_cast <;> ring

/-- One step of the timer, in units of `2 ^ -33` s. -/
def tickNat (X : ℕ) : ℕ := roundNat (X - 8589935) (Nat.log2 (X - 8589935) - 23)

theorem log_nat {Y e : ℕ} (h1 : 2 ^ e ≤ Y) (h2 : Y < 2 ^ (e + 1)) :
    Int.log 2 |(Y : ℚ) / 2 ^ 33| = (e : ℤ) - 33 := by
  rw [abs_of_nonneg (by positivity)]
  have e1 : (2 : ℚ) ^ ((e : ℤ) - 33) = 2 ^ e / 2 ^ 33 := by rw [zpow_sub₀ (by norm_num)]; norm_num
  have e2 : (2 : ℚ) ^ ((e : ℤ) - 33 + 1) = 2 ^ (e + 1) / 2 ^ 33 := by
    rw [show (e : ℤ) - 33 + 1 = ((e + 1 : ℕ) : ℤ) - 33 by push_cast; ring, zpow_sub₀ (by norm_num), zpow_natCast]; norm_num
  apply log_eq
  · rw [e1]; exact div_le_div_of_nonneg_right (by exact_mod_cast h1) (by positivity)
  · rw [e2]; exact div_lt_div_of_pos_right (by exact_mod_cast h2) (by positivity)

theorem fl_nat {Y : ℕ} (hY : 0 < Y) : fl 24 ((Y : ℚ) / 2 ^ 33) = (roundNat Y (Nat.log2 Y - 23) : ℚ) / 2 ^ 33 := by
  have hx : (Y : ℚ) / 2 ^ 33 ≠ 0 := by positivity
  have h1 : 2 ^ Nat.log2 Y ≤ Y := Nat.log2_self_le hY.ne'
  have h2 : Y < 2 ^ (Nat.log2 Y + 1) := Nat.lt_log2_self
  generalize Nat.log2 Y = e at *
  have hl := log_nat h1 h2
  unfold fl
  rw [if_neg hx, hl]
  by_cases hk : 23 ≤ e
  · obtain ⟨k, rfl⟩ : ∃ k, e = 23 + k := ⟨e - 23, by omega⟩
    have hu : (2 : ℚ) ^ (((23 + k : ℕ) : ℤ) - 33 - (24 : ℕ) + 1) = 2 ^ k * (1 / 2 ^ 33) := by
      rw [show ((23 + k : ℕ) : ℤ) - 33 - (24 : ℕ) + 1 = (k : ℤ) - 33 by push_cast; ring, zpow_sub₀ (by norm_num), zpow_natCast,
        div_eq_mul_one_div]
      norm_num
    rw [hu, div_eq_mul_one_div, roundEven_nat Y k (by positivity), Nat.add_sub_cancel_left, ← div_eq_mul_one_div]
  · have hr : roundNat Y (e - 23) = Y := by
      rw [show e - 23 = 0 by omega]
      unfold roundNat
      rw [if_pos (by simp [Nat.mod_one])]; simp
    rw [hr]
    obtain ⟨m, hm⟩ : ∃ m : ℕ, (m : ℤ) = 23 - e := ⟨23 - e, by omega⟩
    have hu : (2 : ℚ) ^ ((e : ℤ) - 33 - (24 : ℕ) + 1) = 1 / 2 ^ (33 + m) := by
      rw [show (e : ℤ) - 33 - (24 : ℕ) + 1 = -((33 + m : ℕ) : ℤ) by push_cast; omega, zpow_neg, zpow_natCast, one_div]
    rw [hu]
    have hq : (Y : ℚ) / 2 ^ 33 / (1 / 2 ^ (33 + m)) = ((Y * 2 ^ m : ℕ) : ℤ) := by
      push_cast; rw [pow_add]; field_simp
    unfold roundEven
    dsimp only
    rw [hq, Int.floor_intCast, if_pos (by norm_num)]
    push_cast; rw [pow_add]; field_simp

theorem fl_ms : fl 24 (1 / 1000) = (8589935 : ℚ) / 2 ^ 33 := by
  unfold fl
  rw [if_neg (by norm_num), log_eq (e := -10) (by norm_num) (by norm_num)]
  have := roundEven_nat
  unfold roundEven
  have hf : ⌊(1 / 1000 : ℚ) / 2 ^ ((-10 : ℤ) - (24 : ℕ) + 1)⌋ = 8589934 := by
    rw [Int.floor_eq_iff]; norm_num
  dsimp only
  rw [hf]
  norm_num

theorem fl_eps : fl 24 EPS = (13743895 : ℚ) / 2 ^ 37 := by
  unfold fl EPS
  rw [if_neg (by norm_num), log_eq (e := -14) (by norm_num) (by norm_num)]
  unfold roundEven
  have hf : ⌊(1 / 10000 : ℚ) / 2 ^ ((-14 : ℤ) - (24 : ℕ) + 1)⌋ = 13743895 := by
    rw [Int.floor_eq_iff]; norm_num
  dsimp only
  rw [hf]
  norm_num

theorem fl_five : fl 24 5 = ((5 * 2 ^ 33 : ℕ) : ℚ) / 2 ^ 33 := by
  unfold fl
  rw [if_neg (by norm_num), log_eq (e := 2) (by norm_num) (by norm_num)]
  unfold roundEven
  have hf : ⌊(5 : ℚ) / 2 ^ ((2 : ℤ) - (24 : ℕ) + 1)⌋ = 10485760 := by
    rw [Int.floor_eq_iff]; norm_num
  dsimp only
  rw [hf]
  norm_num

/-- `k` steps, all from values larger than 1 ms. -/
def runNat : ℕ → ℕ → Option ℕ
  | 0, X => some X
  | k + 1, X => if 8589935 < X then runNat k (tickNat X) else none

theorem run_nat {k X Z : ℕ} (h : runNat k X = some Z) :
    (fun x => fl 24 (x - fl 24 (1 / 1000)))^[k] ((X : ℚ) / 2 ^ 33) = (Z : ℚ) / 2 ^ 33 := by
  induction k generalizing X with
  | zero => cases h; rfl
  | succ k ih =>
    unfold runNat at h
    split at h
    · rename_i hX
      rw [Function.iterate_succ_apply, ← ih h]
      congr 1
      rw [fl_ms, ← sub_div]
      have : (X : ℚ) - 8589935 = ((X - 8589935 : ℕ) : ℚ) := by rw [Nat.cast_sub hX.le]; norm_num
      rw [this, fl_nat (by omega)]
      rfl
    · cases h

/-- All of `k` steps start between 1 ms and 5 s. -/
def runIn : ℕ → ℕ → Bool
  | 0, _ => true
  | k + 1, X => decide (8589935 < X ∧ X ≤ 5 * 2 ^ 33) && runIn k (tickNat X)

theorem run_in {k X : ℕ} (h : runIn k X = true) : ∀ i < k,
    (8589935 : ℚ) / 2 ^ 33 < (fun x => fl 24 (x - fl 24 (1 / 1000)))^[i] ((X : ℚ) / 2 ^ 33) ∧
    (fun x => fl 24 (x - fl 24 (1 / 1000)))^[i] ((X : ℚ) / 2 ^ 33) ≤ 5 := by
  induction k generalizing X with
  | zero => intro i hi; omega
  | succ k ih =>
    unfold runIn at h
    rw [Bool.and_eq_true, decide_eq_true_eq] at h
    obtain ⟨⟨h1, h2⟩, h3⟩ := h
    intro i hi
    cases i with
    | zero =>
      have q1 : (8589935 : ℚ) < X := by exact_mod_cast h1
      have q2 : (X : ℚ) ≤ 5 * 2 ^ 33 := by exact_mod_cast h2
      rw [Function.iterate_zero, id]
      exact ⟨div_lt_div_of_pos_right q1 (by norm_num), by rw [div_le_iff₀ (by norm_num)]; exact q2⟩
    | succ i =>
      have := ih h3 i (by omega)
      have e : fl 24 ((X : ℚ) / 2 ^ 33 - fl 24 (1 / 1000)) = (tickNat X : ℚ) / 2 ^ 33 := by
        rw [fl_ms, ← sub_div]
        have e : (X : ℚ) - 8589935 = ((X - 8589935 : ℕ) : ℚ) := by rw [Nat.cast_sub h1.le]; norm_num
        rw [e, fl_nat (by omega)]
        rfl
      rw [Function.iterate_succ_apply, e]
      exact this

end MPC
