import Verif.Lemmas.Interpolator
import Mathlib.Tactic.Linarith
import Mathlib.Tactic.Positivity
import Mathlib.Tactic.Ring
import Mathlib.Tactic.NormNum

/-!
# An invariant polytope of the foot interpolation

`e`, `v`, `a` are the distance to the target, the velocity and the acceleration of a foot, in units of the distance to travel
and of the remaining time. After the part `r` of the remaining time, they are again in the polytope `Gliding`. The multipliers
were found numerically; the proofs below check them.
-/

set_option linter.unusedSectionVars false
set_option linter.unusedVariables false

namespace MPC

variable {K : Type} [Field K] [LinearOrder K] [IsStrictOrderedRing K]

/-- The polytope. -/
structure Gliding (e v a : K) : Prop where
  f0 : e ≤ 1
  f1 : -e + 91 / 200 * v + 19 / 200 * a ≤ 81 / 5000
  f2 : -e + 31 / 50 * v - 9 / 200 * a ≤ 5313 / 10000
  f3 : 9 / 20 * e - v - 3 / 5 * a ≤ 9 / 20
  f4 : -e + 41 / 200 * v - 1 / 200 * a ≤ 589 / 10000
  f5 : 33 / 100 * e + v + 3 / 50 * a ≤ 20319 / 10000
  f6 : -e - 3 / 200 * v ≤ 591 / 10000
  f7 : 1 / 2 * e - v ≤ 1 / 2

/-- The foot has started, at rest. -/
theorem Gliding.start : Gliding (1 : K) 0 0 := by
  constructor <;> norm_num

theorem Gliding.zero : Gliding (0 : K) 0 0 := by
  constructor <;> norm_num

/-- The foot does not go far beyond its target, and does not start backwards. -/
theorem Gliding.bounds {e v a : K} (h : Gliding e v a) : -(3 / 50) ≤ e ∧ e ≤ 1 := by
  obtain ⟨h0, h1, h2, h3, h4, h5, h6, h7⟩ := h
  constructor <;> linarith

/-- Piece 0 of the trajectory. -/
def glideE0 (r e v a : K) : K :=
  (1 - 9 / 2 * r ^ 3) * e + (-r + 3 * r ^ 3) * v + (-1 / 2 * r ^ 2 + 11 / 12 * r ^ 3) * a

/-- Piece 0 of the trajectory. -/
def glideV0 (r e v a : K) : K :=
  (27 / 2 * r ^ 2 - 27 / 2 * r ^ 3) * e + (1 - r - 9 * r ^ 2 + 9 * r ^ 3) * v + (r - 15 / 4 * r ^ 2 + 11 / 4 * r ^ 3) * a

/-- Piece 0 of the trajectory. -/
def glideA0 (r e v a : K) : K :=
  (27 * r - 54 * r ^ 2 + 27 * r ^ 3) * e + (-18 * r + 36 * r ^ 2 - 18 * r ^ 3) * v + (1 - 15 / 2 * r + 12 * r ^ 2 - 11 / 2 * r ^ 3) * a

/-- Piece 1 of the trajectory. -/
def glideE1 (r e v a : K) : K :=
  (1 / 2 + 9 / 2 * r - 27 / 2 * r ^ 2 + 9 * r ^ 3) * e + (5 / 18 - 7 / 2 * r + 15 / 2 * r ^ 2 - 9 / 2 * r ^ 3) * v + (1 / 18 - 1 / 2 * r + r ^ 2 - 7 / 12 * r ^ 3) * a

/-- Piece 1 of the trajectory. -/
def glideV1 (r e v a : K) : K :=
  (-9 / 2 + 63 / 2 * r - 54 * r ^ 2 + 27 * r ^ 3) * e + (7 / 2 - 37 / 2 * r + 57 / 2 * r ^ 2 - 27 / 2 * r ^ 3) * v + (1 / 2 - 5 / 2 * r + 15 / 4 * r ^ 2 - 7 / 4 * r ^ 3) * a

/-- Piece 1 of the trajectory. -/
def glideA1 (r e v a : K) : K :=
  (27 - 108 * r + 135 * r ^ 2 - 54 * r ^ 3) * e + (-15 + 57 * r - 69 * r ^ 2 + 27 * r ^ 3) * v + (-2 + 15 / 2 * r - 9 * r ^ 2 + 7 / 2 * r ^ 3) * a

/-- Piece 2 of the trajectory. -/
def glideE2 (r e v a : K) : K :=
  (9 / 2 - 27 / 2 * r + 27 / 2 * r ^ 2 - 9 / 2 * r ^ 3) * e + (-3 / 2 + 9 / 2 * r - 9 / 2 * r ^ 2 + 3 / 2 * r ^ 3) * v + (-1 / 6 + 1 / 2 * r - 1 / 2 * r ^ 2 + 1 / 6 * r ^ 3) * a

/-- Piece 2 of the trajectory. -/
def glideV2 (r e v a : K) : K :=
  (27 / 2 - 81 / 2 * r + 81 / 2 * r ^ 2 - 27 / 2 * r ^ 3) * e + (-9 / 2 + 27 / 2 * r - 27 / 2 * r ^ 2 + 9 / 2 * r ^ 3) * v + (-1 / 2 + 3 / 2 * r - 3 / 2 * r ^ 2 + 1 / 2 * r ^ 3) * a

/-- Piece 2 of the trajectory. -/
def glideA2 (r e v a : K) : K :=
  (-27 + 81 * r - 81 * r ^ 2 + 27 * r ^ 3) * e + (9 - 27 * r + 27 * r ^ 2 - 9 * r ^ 3) * v + (1 - 3 * r + 3 * r ^ 2 - r ^ 3) * a

theorem bern_nonneg {c₀ c₁ c₂ c₃ x y : K} (hx : 0 ≤ x) (hy : 0 ≤ y) (h₀ : 0 ≤ c₀) (h₁ : 0 ≤ c₁) (h₂ : 0 ≤ c₂) (h₃ : 0 ≤ c₃) :
    0 ≤ c₀ * y ^ 3 + c₁ * (x * y ^ 2) + c₂ * (x ^ 2 * y) + c₃ * x ^ 3 := by positivity

theorem glide_0_0_0 {r e v a : K} (h : Gliding e v a) (hl : 0 ≤ r) (hu : r ≤ 1 / 3) :
    1 * glideE0 r e v a ≤ 1 := by
  have hx : 0 ≤ r := by linarith
  have hy : 0 ≤ (1 / 3 - r) := by linarith
  have l0 : 0 ≤ 27 * (1 / 3 - r) ^ 3 + 153 / 2 * (r * (1 / 3 - r) ^ 2) + 577 / 8 * (r ^ 2 * (1 / 3 - r)) + 2815 / 144 * r ^ 3 :=
    bern_nonneg hx hy (by norm_num) (by norm_num) (by norm_num) (by norm_num)
  have l1 : 0 ≤ 0 * (1 / 3 - r) ^ 3 + 0 * (r * (1 / 3 - r) ^ 2) + 5 / 2 * (r ^ 2 * (1 / 3 - r)) + 35 / 36 * r ^ 3 :=
    bern_nonneg hx hy (by norm_num) (by norm_num) (by norm_num) (by norm_num)
  have l2 : 0 ≤ 0 * (1 / 3 - r) ^ 3 + 9 * (r * (1 / 3 - r) ^ 2) + 31 / 2 * (r ^ 2 * (1 / 3 - r)) + 181 / 36 * r ^ 3 :=
    bern_nonneg hx hy (by norm_num) (by norm_num) (by norm_num) (by norm_num)
  have ls : 0 ≤ 0 * (1 / 3 - r) ^ 3 + 0 * (r * (1 / 3 - r) ^ 2) + 0 * (r ^ 2 * (1 / 3 - r)) + 9 / 2 * r ^ 3 :=
    bern_nonneg hx hy (by norm_num) (by norm_num) (by norm_num) (by norm_num)
  have key : 1 - (1 * glideE0 r e v a) =
      (27 * (1 / 3 - r) ^ 3 + 153 / 2 * (r * (1 / 3 - r) ^ 2) + 577 / 8 * (r ^ 2 * (1 / 3 - r)) + 2815 / 144 * r ^ 3) * (1 - (e))
      + (0 * (1 / 3 - r) ^ 3 + 0 * (r * (1 / 3 - r) ^ 2) + 5 / 2 * (r ^ 2 * (1 / 3 - r)) + 35 / 36 * r ^ 3) * (9 / 20 - (9 / 20 * e - v - 3 / 5 * a))
      + (0 * (1 / 3 - r) ^ 3 + 9 * (r * (1 / 3 - r) ^ 2) + 31 / 2 * (r ^ 2 * (1 / 3 - r)) + 181 / 36 * r ^ 3) * (1 / 2 - (1 / 2 * e - v))
      + (0 * (1 / 3 - r) ^ 3 + 0 * (r * (1 / 3 - r) ^ 2) + 0 * (r ^ 2 * (1 / 3 - r)) + 9 / 2 * r ^ 3) := by
    simp only [glideE0]; ring
  rw [← sub_nonneg, key]
  exact add_nonneg (add_nonneg (add_nonneg (mul_nonneg l0 (sub_nonneg.2 h.f0)) (mul_nonneg l1 (sub_nonneg.2 h.f3))) (mul_nonneg l2 (sub_nonneg.2 h.f7))) ls

theorem Gliding.step0_0 {r e v a : K} (h : Gliding e v a) (hl : 0 ≤ r) (hu : r ≤ 1 / 3) :
    1 * glideE0 r e v a ≤ 1 := by
  exact glide_0_0_0 h hl hu

theorem glide_0_1_0 {r e v a : K} (h : Gliding e v a) (hl : 0 ≤ r) (hu : r ≤ 1 / 12) :
    (-1) * glideE0 r e v a + 91 / 200 * glideV0 r e v a + 19 / 200 * glideA0 r e v a ≤ 81 / 5000 := by
  have hx : 0 ≤ r := by linarith
  have hy : 0 ≤ (1 / 12 - r) := by linarith
  have l0 : 0 ≤ 1728 * (1 / 12 - r) ^ 3 + 781684272 / 162625 * (r * (1 / 12 - r) ^ 2) + 719827968 / 162625 * (r ^ 2 * (1 / 12 - r)) + 657146168 / 487875 * r ^ 3 :=
    bern_nonneg hx hy (by norm_num) (by norm_num) (by norm_num) (by norm_num)
  have l1 : 0 ≤ 0 * (1 / 12 - r) ^ 3 + 1399752 / 162625 * (r * (1 / 12 - r) ^ 2) + 1424463 / 162625 * (r ^ 2 * (1 / 12 - r)) + 17527 / 1951500 * r ^ 3 :=
    bern_nonneg hx hy (by norm_num) (by norm_num) (by norm_num) (by norm_num)
  have l2 : 0 ≤ 0 * (1 / 12 - r) ^ 3 + 45864 / 32525 * (r * (1 / 12 - r) ^ 2) + 139851 / 32525 * (r ^ 2 * (1 / 12 - r)) + 404033 / 130100 * r ^ 3 :=
    bern_nonneg hx hy (by norm_num) (by norm_num) (by norm_num) (by norm_num)
  have ls : 0 ≤ 0 * (1 / 12 - r) ^ 3 + 36802539 / 40656250 * (r * (1 / 12 - r) ^ 2) + 1849365153 / 325250000 * (r ^ 2 * (1 / 12 - r)) + 6206602579 / 1301000000 * r ^ 3 :=
    bern_nonneg hx hy (by norm_num) (by norm_num) (by norm_num) (by norm_num)
  have key : 81 / 5000 - ((-1) * glideE0 r e v a + 91 / 200 * glideV0 r e v a + 19 / 200 * glideA0 r e v a) =
      (1728 * (1 / 12 - r) ^ 3 + 781684272 / 162625 * (r * (1 / 12 - r) ^ 2) + 719827968 / 162625 * (r ^ 2 * (1 / 12 - r)) + 657146168 / 487875 * r ^ 3) * (81 / 5000 - (-e + 91 / 200 * v + 19 / 200 * a))
      + (0 * (1 / 12 - r) ^ 3 + 1399752 / 162625 * (r * (1 / 12 - r) ^ 2) + 1424463 / 162625 * (r ^ 2 * (1 / 12 - r)) + 17527 / 1951500 * r ^ 3) * (5313 / 10000 - (-e + 31 / 50 * v - 9 / 200 * a))
      + (0 * (1 / 12 - r) ^ 3 + 45864 / 32525 * (r * (1 / 12 - r) ^ 2) + 139851 / 32525 * (r ^ 2 * (1 / 12 - r)) + 404033 / 130100 * r ^ 3) * (9 / 20 - (9 / 20 * e - v - 3 / 5 * a))
      + (0 * (1 / 12 - r) ^ 3 + 36802539 / 40656250 * (r * (1 / 12 - r) ^ 2) + 1849365153 / 325250000 * (r ^ 2 * (1 / 12 - r)) + 6206602579 / 1301000000 * r ^ 3) := by
    simp only [glideE0, glideV0, glideA0]; ring
  rw [← sub_nonneg, key]
  exact add_nonneg (add_nonneg (add_nonneg (mul_nonneg l0 (sub_nonneg.2 h.f1)) (mul_nonneg l1 (sub_nonneg.2 h.f2))) (mul_nonneg l2 (sub_nonneg.2 h.f3))) ls

theorem glide_0_1_1 {r e v a : K} (h : Gliding e v a) (hl : 1 / 12 ≤ r) (hu : r ≤ 1 / 6) :
    (-1) * glideE0 r e v a + 91 / 200 * glideV0 r e v a + 19 / 200 * glideA0 r e v a ≤ 81 / 5000 := by
  have hx : 0 ≤ (r - 1 / 12) := by linarith
  have hy : 0 ≤ (1 / 6 - r) := by linarith
  have l0 : 0 ≤ 5204127887 / 3910800 * (1 / 6 - r) ^ 3 + 466745197 / 130360 * ((r - 1 / 12) * (1 / 6 - r) ^ 2) + 1027412411 / 325900 * ((r - 1 / 12) ^ 2 * (1 / 6 - r)) + 88090873 / 97770 * (r - 1 / 12) ^ 3 :=
    bern_nonneg hx hy (by norm_num) (by norm_num) (by norm_num) (by norm_num)
  have l1 : 0 ≤ 27815017 / 3910800 * (1 / 6 - r) ^ 3 + 3139067 / 130360 * ((r - 1 / 12) * (1 / 6 - r) ^ 2) + 7431901 / 325900 * ((r - 1 / 12) ^ 2 * (1 / 6 - r)) + 604943 / 97770 * (r - 1 / 12) ^ 3 :=
    bern_nonneg hx hy (by norm_num) (by norm_num) (by norm_num) (by norm_num)
  have l2 : 0 ≤ 404033 / 52144 * (1 / 6 - r) ^ 3 + 932397 / 26072 * ((r - 1 / 12) * (1 / 6 - r) ^ 2) + 698559 / 13036 * ((r - 1 / 12) ^ 2 * (1 / 6 - r)) + 170195 / 6518 * (r - 1 / 12) ^ 3 :=
    bern_nonneg hx hy (by norm_num) (by norm_num) (by norm_num) (by norm_num)
  have ls : 0 ≤ 1433584051 / 651800000 * (1 / 6 - r) ^ 3 + 721577643 / 65180000 * ((r - 1 / 12) * (1 / 6 - r) ^ 2) + 2872285869 / 162950000 * ((r - 1 / 12) ^ 2 * (1 / 6 - r)) + 139596341 / 16295000 * (r - 1 / 12) ^ 3 :=
    bern_nonneg hx hy (by norm_num) (by norm_num) (by norm_num) (by norm_num)
  have key : 81 / 5000 - ((-1) * glideE0 r e v a + 91 / 200 * glideV0 r e v a + 19 / 200 * glideA0 r e v a) =
      (5204127887 / 3910800 * (1 / 6 - r) ^ 3 + 466745197 / 130360 * ((r - 1 / 12) * (1 / 6 - r) ^ 2) + 1027412411 / 325900 * ((r - 1 / 12) ^ 2 * (1 / 6 - r)) + 88090873 / 97770 * (r - 1 / 12) ^ 3) * (81 / 5000 - (-e + 91 / 200 * v + 19 / 200 * a))
      + (27815017 / 3910800 * (1 / 6 - r) ^ 3 + 3139067 / 130360 * ((r - 1 / 12) * (1 / 6 - r) ^ 2) + 7431901 / 325900 * ((r - 1 / 12) ^ 2 * (1 / 6 - r)) + 604943 / 97770 * (r - 1 / 12) ^ 3) * (5313 / 10000 - (-e + 31 / 50 * v - 9 / 200 * a))
      + (404033 / 52144 * (1 / 6 - r) ^ 3 + 932397 / 26072 * ((r - 1 / 12) * (1 / 6 - r) ^ 2) + 698559 / 13036 * ((r - 1 / 12) ^ 2 * (1 / 6 - r)) + 170195 / 6518 * (r - 1 / 12) ^ 3) * (591 / 10000 - (-e - 3 / 200 * v))
      + (1433584051 / 651800000 * (1 / 6 - r) ^ 3 + 721577643 / 65180000 * ((r - 1 / 12) * (1 / 6 - r) ^ 2) + 2872285869 / 162950000 * ((r - 1 / 12) ^ 2 * (1 / 6 - r)) + 139596341 / 16295000 * (r - 1 / 12) ^ 3) := by
    simp only [glideE0, glideV0, glideA0]; ring
  rw [← sub_nonneg, key]
  exact add_nonneg (add_nonneg (add_nonneg (mul_nonneg l0 (sub_nonneg.2 h.f1)) (mul_nonneg l1 (sub_nonneg.2 h.f2))) (mul_nonneg l2 (sub_nonneg.2 h.f6))) ls

theorem glide_0_1_2 {r e v a : K} (h : Gliding e v a) (hl : 1 / 6 ≤ r) (hu : r ≤ 1 / 4) :
    (-1) * glideE0 r e v a + 91 / 200 * glideV0 r e v a + 19 / 200 * glideA0 r e v a ≤ 81 / 5000 := by
  have hx : 0 ≤ (r - 1 / 6) := by linarith
  have hy : 0 ≤ (1 / 4 - r) := by linarith
  have l0 : 0 ≤ 5282710 / 5619 * (1 / 4 - r) ^ 3 + 4493583 / 1873 * ((r - 1 / 6) * (1 / 4 - r) ^ 2) + 7351551 / 3746 * ((r - 1 / 6) ^ 2 * (1 / 4 - r)) + 3766329 / 7492 * (r - 1 / 6) ^ 3 :=
    bern_nonneg hx hy (by norm_num) (by norm_num) (by norm_num) (by norm_num)
  have l1 : 0 ≤ 24959 / 3746 * (1 / 4 - r) ^ 3 + 904221 / 37460 * ((r - 1 / 6) * (1 / 4 - r) ^ 2) + 2177757 / 74920 * ((r - 1 / 6) ^ 2 * (1 / 4 - r)) + 1764747 / 149840 * (r - 1 / 6) ^ 3 :=
    bern_nonneg hx hy (by norm_num) (by norm_num) (by norm_num) (by norm_num)
  have l2 : 0 ≤ 865999 / 112380 * (1 / 4 - r) ^ 3 + 13039407 / 374600 * ((r - 1 / 6) * (1 / 4 - r) ^ 2) + 7573347 / 149840 * ((r - 1 / 6) ^ 2 * (1 / 4 - r)) + 35215497 / 1498400 * (r - 1 / 6) ^ 3 :=
    bern_nonneg hx hy (by norm_num) (by norm_num) (by norm_num) (by norm_num)
  have ls : 0 ≤ 83047091 / 14047500 * (1 / 4 - r) ^ 3 + 157782519 / 9365000 * ((r - 1 / 6) * (1 / 4 - r) ^ 2) + 259152903 / 18730000 * ((r - 1 / 6) ^ 2 * (1 / 4 - r)) + 104839857 / 37460000 * (r - 1 / 6) ^ 3 :=
    bern_nonneg hx hy (by norm_num) (by norm_num) (by norm_num) (by norm_num)
  have key : 81 / 5000 - ((-1) * glideE0 r e v a + 91 / 200 * glideV0 r e v a + 19 / 200 * glideA0 r e v a) =
      (5282710 / 5619 * (1 / 4 - r) ^ 3 + 4493583 / 1873 * ((r - 1 / 6) * (1 / 4 - r) ^ 2) + 7351551 / 3746 * ((r - 1 / 6) ^ 2 * (1 / 4 - r)) + 3766329 / 7492 * (r - 1 / 6) ^ 3) * (81 / 5000 - (-e + 91 / 200 * v + 19 / 200 * a))
      + (24959 / 3746 * (1 / 4 - r) ^ 3 + 904221 / 37460 * ((r - 1 / 6) * (1 / 4 - r) ^ 2) + 2177757 / 74920 * ((r - 1 / 6) ^ 2 * (1 / 4 - r)) + 1764747 / 149840 * (r - 1 / 6) ^ 3) * (9 / 20 - (9 / 20 * e - v - 3 / 5 * a))
      + (865999 / 112380 * (1 / 4 - r) ^ 3 + 13039407 / 374600 * ((r - 1 / 6) * (1 / 4 - r) ^ 2) + 7573347 / 149840 * ((r - 1 / 6) ^ 2 * (1 / 4 - r)) + 35215497 / 1498400 * (r - 1 / 6) ^ 3) * (1 / 2 - (1 / 2 * e - v))
      + (83047091 / 14047500 * (1 / 4 - r) ^ 3 + 157782519 / 9365000 * ((r - 1 / 6) * (1 / 4 - r) ^ 2) + 259152903 / 18730000 * ((r - 1 / 6) ^ 2 * (1 / 4 - r)) + 104839857 / 37460000 * (r - 1 / 6) ^ 3) := by
    simp only [glideE0, glideV0, glideA0]; ring
  rw [← sub_nonneg, key]
  exact add_nonneg (add_nonneg (add_nonneg (mul_nonneg l0 (sub_nonneg.2 h.f1)) (mul_nonneg l1 (sub_nonneg.2 h.f3))) (mul_nonneg l2 (sub_nonneg.2 h.f7))) ls

theorem glide_0_1_3 {r e v a : K} (h : Gliding e v a) (hl : 1 / 4 ≤ r) (hu : r ≤ 7 / 24) :
    (-1) * glideE0 r e v a + 91 / 200 * glideV0 r e v a + 19 / 200 * glideA0 r e v a ≤ 81 / 5000 := by
  have hx : 0 ≤ (r - 1 / 4) := by linarith
  have hy : 0 ≤ (7 / 24 - r) := by linarith
  have l0 : 0 ≤ 12308823 / 3565 * (7 / 24 - r) ^ 3 + 2600667 / 310 * ((r - 1 / 4) * (7 / 24 - r) ^ 2) + 90819621 / 14260 * ((r - 1 / 4) ^ 2 * (7 / 24 - r)) + 24476105 / 17112 * (r - 1 / 4) ^ 3 :=
    bern_nonneg hx hy (by norm_num) (by norm_num) (by norm_num) (by norm_num)
  have l1 : 0 ≤ 1764747 / 3565 * (7 / 24 - r) ^ 3 + 501183 / 310 * ((r - 1 / 4) * (7 / 24 - r) ^ 2) + 25131969 / 14260 * ((r - 1 / 4) ^ 2 * (7 / 24 - r)) + 3660167 / 5704 * (r - 1 / 4) ^ 3 :=
    bern_nonneg hx hy (by norm_num) (by norm_num) (by norm_num) (by norm_num)
  have l2 : 0 ≤ 444951 / 3565 * (7 / 24 - r) ^ 3 + 678087 / 1550 * ((r - 1 / 4) * (7 / 24 - r) ^ 2) + 36162297 / 71300 * ((r - 1 / 4) ^ 2 * (7 / 24 - r)) + 83189281 / 427800 * (r - 1 / 4) ^ 3 :=
    bern_nonneg hx hy (by norm_num) (by norm_num) (by norm_num) (by norm_num)
  have ls : 0 ≤ 2725554411 / 35650000 * (7 / 24 - r) ^ 3 + 688131999 / 3100000 * ((r - 1 / 4) * (7 / 24 - r) ^ 2) + 30127491297 / 142600000 * ((r - 1 / 4) ^ 2 * (7 / 24 - r)) + 11251618357 / 171120000 * (r - 1 / 4) ^ 3 :=
    bern_nonneg hx hy (by norm_num) (by norm_num) (by norm_num) (by norm_num)
  have key : 81 / 5000 - ((-1) * glideE0 r e v a + 91 / 200 * glideV0 r e v a + 19 / 200 * glideA0 r e v a) =
      (12308823 / 3565 * (7 / 24 - r) ^ 3 + 2600667 / 310 * ((r - 1 / 4) * (7 / 24 - r) ^ 2) + 90819621 / 14260 * ((r - 1 / 4) ^ 2 * (7 / 24 - r)) + 24476105 / 17112 * (r - 1 / 4) ^ 3) * (81 / 5000 - (-e + 91 / 200 * v + 19 / 200 * a))
      + (1764747 / 3565 * (7 / 24 - r) ^ 3 + 501183 / 310 * ((r - 1 / 4) * (7 / 24 - r) ^ 2) + 25131969 / 14260 * ((r - 1 / 4) ^ 2 * (7 / 24 - r)) + 3660167 / 5704 * (r - 1 / 4) ^ 3) * (589 / 10000 - (-e + 41 / 200 * v - 1 / 200 * a))
      + (444951 / 3565 * (7 / 24 - r) ^ 3 + 678087 / 1550 * ((r - 1 / 4) * (7 / 24 - r) ^ 2) + 36162297 / 71300 * ((r - 1 / 4) ^ 2 * (7 / 24 - r)) + 83189281 / 427800 * (r - 1 / 4) ^ 3) * (1 / 2 - (1 / 2 * e - v))
      + (2725554411 / 35650000 * (7 / 24 - r) ^ 3 + 688131999 / 3100000 * ((r - 1 / 4) * (7 / 24 - r) ^ 2) + 30127491297 / 142600000 * ((r - 1 / 4) ^ 2 * (7 / 24 - r)) + 11251618357 / 171120000 * (r - 1 / 4) ^ 3) := by
    simp only [glideE0, glideV0, glideA0]; ring
  rw [← sub_nonneg, key]
  exact add_nonneg (add_nonneg (add_nonneg (mul_nonneg l0 (sub_nonneg.2 h.f1)) (mul_nonneg l1 (sub_nonneg.2 h.f4))) (mul_nonneg l2 (sub_nonneg.2 h.f7))) ls

theorem glide_0_1_4 {r e v a : K} (h : Gliding e v a) (hl : 7 / 24 ≤ r) (hu : r ≤ 5 / 16) :
    (-1) * glideE0 r e v a + 91 / 200 * glideV0 r e v a + 19 / 200 * glideA0 r e v a ≤ 81 / 5000 := by
  have hx : 0 ≤ (r - 7 / 24) := by linarith
  have hy : 0 ≤ (5 / 16 - r) := by linarith
  have l0 : 0 ≤ 24476105 / 2139 * (5 / 16 - r) ^ 3 + 185502333 / 7130 * ((r - 7 / 24) * (5 / 16 - r) ^ 2) + 250850637 / 14260 * ((r - 7 / 24) ^ 2 * (5 / 16 - r)) + 17197011 / 5704 * (r - 7 / 24) ^ 3 :=
    bern_nonneg hx hy (by norm_num) (by norm_num) (by norm_num) (by norm_num)
  have l1 : 0 ≤ 3660167 / 713 * (5 / 16 - r) ^ 3 + 114443577 / 7130 * ((r - 7 / 24) * (5 / 16 - r) ^ 2) + 238647753 / 14260 * ((r - 7 / 24) ^ 2 * (5 / 16 - r)) + 33191127 / 5704 * (r - 7 / 24) ^ 3 :=
    bern_nonneg hx hy (by norm_num) (by norm_num) (by norm_num) (by norm_num)
  have l2 : 0 ≤ 83189281 / 53475 * (5 / 16 - r) ^ 3 + 177243249 / 35650 * ((r - 7 / 24) * (5 / 16 - r) ^ 2) + 377139969 / 71300 * ((r - 7 / 24) ^ 2 * (5 / 16 - r)) + 53427231 / 28520 * (r - 7 / 24) ^ 3 :=
    bern_nonneg hx hy (by norm_num) (by norm_num) (by norm_num) (by norm_num)
  have ls : 0 ≤ 11251618357 / 21390000 * (5 / 16 - r) ^ 3 + 108519292761 / 71300000 * ((r - 7 / 24) * (5 / 16 - r) ^ 2) + 208101074409 / 142600000 * ((r - 7 / 24) ^ 2 * (5 / 16 - r)) + 26429595831 / 57040000 * (r - 7 / 24) ^ 3 :=
    bern_nonneg hx hy (by norm_num) (by norm_num) (by norm_num) (by norm_num)
  have key : 81 / 5000 - ((-1) * glideE0 r e v a + 91 / 200 * glideV0 r e v a + 19 / 200 * glideA0 r e v a) =
      (24476105 / 2139 * (5 / 16 - r) ^ 3 + 185502333 / 7130 * ((r - 7 / 24) * (5 / 16 - r) ^ 2) + 250850637 / 14260 * ((r - 7 / 24) ^ 2 * (5 / 16 - r)) + 17197011 / 5704 * (r - 7 / 24) ^ 3) * (81 / 5000 - (-e + 91 / 200 * v + 19 / 200 * a))
      + (3660167 / 713 * (5 / 16 - r) ^ 3 + 114443577 / 7130 * ((r - 7 / 24) * (5 / 16 - r) ^ 2) + 238647753 / 14260 * ((r - 7 / 24) ^ 2 * (5 / 16 - r)) + 33191127 / 5704 * (r - 7 / 24) ^ 3) * (589 / 10000 - (-e + 41 / 200 * v - 1 / 200 * a))
      + (83189281 / 53475 * (5 / 16 - r) ^ 3 + 177243249 / 35650 * ((r - 7 / 24) * (5 / 16 - r) ^ 2) + 377139969 / 71300 * ((r - 7 / 24) ^ 2 * (5 / 16 - r)) + 53427231 / 28520 * (r - 7 / 24) ^ 3) * (1 / 2 - (1 / 2 * e - v))
      + (11251618357 / 21390000 * (5 / 16 - r) ^ 3 + 108519292761 / 71300000 * ((r - 7 / 24) * (5 / 16 - r) ^ 2) + 208101074409 / 142600000 * ((r - 7 / 24) ^ 2 * (5 / 16 - r)) + 26429595831 / 57040000 * (r - 7 / 24) ^ 3) := by
    simp only [glideE0, glideV0, glideA0]; ring
  rw [← sub_nonneg, key]
  exact add_nonneg (add_nonneg (add_nonneg (mul_nonneg l0 (sub_nonneg.2 h.f1)) (mul_nonneg l1 (sub_nonneg.2 h.f4))) (mul_nonneg l2 (sub_nonneg.2 h.f7))) ls

theorem glide_0_1_5 {r e v a : K} (h : Gliding e v a) (hl : 5 / 16 ≤ r) (hu : r ≤ 1 / 3) :
    (-1) * glideE0 r e v a + 91 / 200 * glideV0 r e v a + 19 / 200 * glideA0 r e v a ≤ 81 / 5000 := by
  have hx : 0 ≤ (r - 5 / 16) := by linarith
  have hy : 0 ≤ (1 / 3 - r) := by linarith
  have l0 : 0 ≤ 82797597 / 9500 * (1 / 3 - r) ^ 3 + 41710104 / 2375 * ((r - 5 / 16) * (1 / 3 - r) ^ 2) + 21031104 / 2375 * ((r - 5 / 16) ^ 2 * (1 / 3 - r)) + 47104 / 7125 * (r - 5 / 16) ^ 3 :=
    bern_nonneg hx hy (by norm_num) (by norm_num) (by norm_num) (by norm_num)
  have l1 : 0 ≤ 225424323 / 294500 * (1 / 3 - r) ^ 3 + 2840743368 / 957125 * ((r - 5 / 16) * (1 / 3 - r) ^ 2) + 3516418368 / 957125 * ((r - 5 / 16) ^ 2 * (1 / 3 - r)) + 1409171456 / 957125 * (r - 5 / 16) ^ 3 :=
    bern_nonneg hx hy (by norm_num) (by norm_num) (by norm_num) (by norm_num)
  have l2 : 0 ≤ 34039211247 / 14725000 * (1 / 3 - r) ^ 3 + 169656729876 / 23928125 * ((r - 5 / 16) * (1 / 3 - r) ^ 2) + 173463929376 / 23928125 * ((r - 5 / 16) ^ 2 * (1 / 3 - r)) + 177341317376 / 71784375 * (r - 5 / 16) ^ 3 :=
    bern_nonneg hx hy (by norm_num) (by norm_num) (by norm_num) (by norm_num)
  have l3 : 0 ≤ 594432 / 625 * (1 / 3 - r) ^ 3 + 1783296 / 625 * ((r - 5 / 16) * (1 / 3 - r) ^ 2) + 1783296 / 625 * ((r - 5 / 16) ^ 2 * (1 / 3 - r)) + 594432 / 625 * (r - 5 / 16) ^ 3 :=
    bern_nonneg hx hy (by norm_num) (by norm_num) (by norm_num) (by norm_num)
  have ls : 0 ≤ 62843683473 / 2945000000 * (1 / 3 - r) ^ 3 + 102592495971 / 1196406250 * ((r - 5 / 16) * (1 / 3 - r) ^ 2) + 63126583548 / 598203125 * ((r - 5 / 16) ^ 2 * (1 / 3 - r)) + 74015714048 / 1794609375 * (r - 5 / 16) ^ 3 :=
    bern_nonneg hx hy (by norm_num) (by norm_num) (by norm_num) (by norm_num)
  have key : 81 / 5000 - ((-1) * glideE0 r e v a + 91 / 200 * glideV0 r e v a + 19 / 200 * glideA0 r e v a) =
      (82797597 / 9500 * (1 / 3 - r) ^ 3 + 41710104 / 2375 * ((r - 5 / 16) * (1 / 3 - r) ^ 2) + 21031104 / 2375 * ((r - 5 / 16) ^ 2 * (1 / 3 - r)) + 47104 / 7125 * (r - 5 / 16) ^ 3) * (81 / 5000 - (-e + 91 / 200 * v + 19 / 200 * a))
      + (225424323 / 294500 * (1 / 3 - r) ^ 3 + 2840743368 / 957125 * ((r - 5 / 16) * (1 / 3 - r) ^ 2) + 3516418368 / 957125 * ((r - 5 / 16) ^ 2 * (1 / 3 - r)) + 1409171456 / 957125 * (r - 5 / 16) ^ 3) * (591 / 10000 - (-e - 3 / 200 * v))
      + (34039211247 / 14725000 * (1 / 3 - r) ^ 3 + 169656729876 / 23928125 * ((r - 5 / 16) * (1 / 3 - r) ^ 2) + 173463929376 / 23928125 * ((r - 5 / 16) ^ 2 * (1 / 3 - r)) + 177341317376 / 71784375 * (r - 5 / 16) ^ 3) * (1 / 2 - (1 / 2 * e - v))
      + (594432 / 625 * (1 / 3 - r) ^ 3 + 1783296 / 625 * ((r - 5 / 16) * (1 / 3 - r) ^ 2) + 1783296 / 625 * ((r - 5 / 16) ^ 2 * (1 / 3 - r)) + 594432 / 625 * (r - 5 / 16) ^ 3) * (9 / 20 - (9 / 20 * e - v - 3 / 5 * a))
      + (62843683473 / 2945000000 * (1 / 3 - r) ^ 3 + 102592495971 / 1196406250 * ((r - 5 / 16) * (1 / 3 - r) ^ 2) + 63126583548 / 598203125 * ((r - 5 / 16) ^ 2 * (1 / 3 - r)) + 74015714048 / 1794609375 * (r - 5 / 16) ^ 3) := by
    simp only [glideE0, glideV0, glideA0]; ring
  rw [← sub_nonneg, key]
  exact add_nonneg (add_nonneg (add_nonneg (add_nonneg (mul_nonneg l0 (sub_nonneg.2 h.f1)) (mul_nonneg l1 (sub_nonneg.2 h.f6))) (mul_nonneg l2 (sub_nonneg.2 h.f7))) (mul_nonneg l3 (sub_nonneg.2 h.f3))) ls

theorem Gliding.step0_1 {r e v a : K} (h : Gliding e v a) (hl : 0 ≤ r) (hu : r ≤ 1 / 3) :
    (-1) * glideE0 r e v a + 91 / 200 * glideV0 r e v a + 19 / 200 * glideA0 r e v a ≤ 81 / 5000 := by
  rcases le_total r (1 / 12) with c0 | c0
  · exact glide_0_1_0 h hl c0
  rcases le_total r (1 / 6) with c1 | c1
  · exact glide_0_1_1 h c0 c1
  rcases le_total r (1 / 4) with c2 | c2
  · exact glide_0_1_2 h c1 c2
  rcases le_total r (7 / 24) with c3 | c3
  · exact glide_0_1_3 h c2 c3
  rcases le_total r (5 / 16) with c4 | c4
  · exact glide_0_1_4 h c3 c4
  exact glide_0_1_5 h c4 hu

theorem glide_0_2_0 {r e v a : K} (h : Gliding e v a) (hl : 0 ≤ r) (hu : r ≤ 1 / 3) :
    (-1) * glideE0 r e v a + 31 / 50 * glideV0 r e v a + (-(9 / 200)) * glideA0 r e v a ≤ 5313 / 10000 := by
  have hx : 0 ≤ r := by linarith
  have hy : 0 ≤ (1 / 3 - r) := by linarith
  have l0 : 0 ≤ 0 * (1 / 3 - r) ^ 3 + 43183764 / 704375 * (r * (1 / 3 - r) ^ 2) + 9085764 / 140875 * (r ^ 2 * (1 / 3 - r)) + 24887488 / 2113125 * r ^ 3 :=
    bern_nonneg hx hy (by norm_num) (by norm_num) (by norm_num) (by norm_num)
  have l1 : 0 ≤ 27 * (1 / 3 - r) ^ 3 + 48566673 / 1408750 * (r * (1 / 3 - r) ^ 2) + 1497399 / 140875 * (r ^ 2 * (1 / 3 - r)) + 216158 / 2113125 * r ^ 3 :=
    bern_nonneg hx hy (by norm_num) (by norm_num) (by norm_num) (by norm_num)
  have l2 : 0 ≤ 0 * (1 / 3 - r) ^ 3 + 657063 / 56350 * (r * (1 / 3 - r) ^ 2) + 79479 / 5635 * (r ^ 2 * (1 / 3 - r)) + 107566 / 28175 * r ^ 3 :=
    bern_nonneg hx hy (by norm_num) (by norm_num) (by norm_num) (by norm_num)
  have ls : 0 ≤ 0 * (1 / 3 - r) ^ 3 + 23096907 / 704375000 * (r * (1 / 3 - r) ^ 2) + 2165011839 / 281750000 * (r ^ 2 * (1 / 3 - r)) + 8935143821 / 1408750000 * r ^ 3 :=
    bern_nonneg hx hy (by norm_num) (by norm_num) (by norm_num) (by norm_num)
  have key : 5313 / 10000 - ((-1) * glideE0 r e v a + 31 / 50 * glideV0 r e v a + (-(9 / 200)) * glideA0 r e v a) =
      (0 * (1 / 3 - r) ^ 3 + 43183764 / 704375 * (r * (1 / 3 - r) ^ 2) + 9085764 / 140875 * (r ^ 2 * (1 / 3 - r)) + 24887488 / 2113125 * r ^ 3) * (81 / 5000 - (-e + 91 / 200 * v + 19 / 200 * a))
      + (27 * (1 / 3 - r) ^ 3 + 48566673 / 1408750 * (r * (1 / 3 - r) ^ 2) + 1497399 / 140875 * (r ^ 2 * (1 / 3 - r)) + 216158 / 2113125 * r ^ 3) * (5313 / 10000 - (-e + 31 / 50 * v - 9 / 200 * a))
      + (0 * (1 / 3 - r) ^ 3 + 657063 / 56350 * (r * (1 / 3 - r) ^ 2) + 79479 / 5635 * (r ^ 2 * (1 / 3 - r)) + 107566 / 28175 * r ^ 3) * (20319 / 10000 - (33 / 100 * e + v + 3 / 50 * a))
      + (0 * (1 / 3 - r) ^ 3 + 23096907 / 704375000 * (r * (1 / 3 - r) ^ 2) + 2165011839 / 281750000 * (r ^ 2 * (1 / 3 - r)) + 8935143821 / 1408750000 * r ^ 3) := by
    simp only [glideE0, glideV0, glideA0]; ring
  rw [← sub_nonneg, key]
  exact add_nonneg (add_nonneg (add_nonneg (mul_nonneg l0 (sub_nonneg.2 h.f1)) (mul_nonneg l1 (sub_nonneg.2 h.f2))) (mul_nonneg l2 (sub_nonneg.2 h.f5))) ls

theorem Gliding.step0_2 {r e v a : K} (h : Gliding e v a) (hl : 0 ≤ r) (hu : r ≤ 1 / 3) :
    (-1) * glideE0 r e v a + 31 / 50 * glideV0 r e v a + (-(9 / 200)) * glideA0 r e v a ≤ 5313 / 10000 := by
  exact glide_0_2_0 h hl hu

theorem glide_0_3_0 {r e v a : K} (h : Gliding e v a) (hl : 0 ≤ r) (hu : r ≤ 1 / 6) :
    9 / 20 * glideE0 r e v a + (-1) * glideV0 r e v a + (-(3 / 5)) * glideA0 r e v a ≤ 9 / 20 := by
  have hx : 0 ≤ r := by linarith
  have hy : 0 ≤ (1 / 6 - r) := by linarith
  have l0 : 0 ≤ 0 * (1 / 6 - r) ^ 3 + 515880 / 1301 * (r * (1 / 6 - r) ^ 2) + 23186808 / 32525 * (r ^ 2 * (1 / 6 - r)) + 10403488 / 32525 * r ^ 3 :=
    bern_nonneg hx hy (by norm_num) (by norm_num) (by norm_num) (by norm_num)
  have l1 : 0 ≤ 0 * (1 / 6 - r) ^ 3 + 151560 / 1301 * (r * (1 / 6 - r) ^ 2) + 6872778 / 32525 * (r ^ 2 * (1 / 6 - r)) + 6215191 / 65050 * r ^ 3 :=
    bern_nonneg hx hy (by norm_num) (by norm_num) (by norm_num) (by norm_num)
  have l2 : 0 ≤ 216 * (1 / 6 - r) ^ 3 + 640152 / 1301 * (r * (1 / 6 - r) ^ 2) + 2353356 / 6505 * (r ^ 2 * (1 / 6 - r)) + 1100967 / 13010 * r ^ 3 :=
    bern_nonneg hx hy (by norm_num) (by norm_num) (by norm_num) (by norm_num)
  have ls : 0 ≤ 0 * (1 / 6 - r) ^ 3 + 605529 / 325250 * (r * (1 / 6 - r) ^ 2) + 162105759 / 32525000 * (r ^ 2 * (1 / 6 - r)) + 412960521 / 130100000 * r ^ 3 :=
    bern_nonneg hx hy (by norm_num) (by norm_num) (by norm_num) (by norm_num)
  have key : 9 / 20 - (9 / 20 * glideE0 r e v a + (-1) * glideV0 r e v a + (-(3 / 5)) * glideA0 r e v a) =
      (0 * (1 / 6 - r) ^ 3 + 515880 / 1301 * (r * (1 / 6 - r) ^ 2) + 23186808 / 32525 * (r ^ 2 * (1 / 6 - r)) + 10403488 / 32525 * r ^ 3) * (81 / 5000 - (-e + 91 / 200 * v + 19 / 200 * a))
      + (0 * (1 / 6 - r) ^ 3 + 151560 / 1301 * (r * (1 / 6 - r) ^ 2) + 6872778 / 32525 * (r ^ 2 * (1 / 6 - r)) + 6215191 / 65050 * r ^ 3) * (5313 / 10000 - (-e + 31 / 50 * v - 9 / 200 * a))
      + (216 * (1 / 6 - r) ^ 3 + 640152 / 1301 * (r * (1 / 6 - r) ^ 2) + 2353356 / 6505 * (r ^ 2 * (1 / 6 - r)) + 1100967 / 13010 * r ^ 3) * (9 / 20 - (9 / 20 * e - v - 3 / 5 * a))
      + (0 * (1 / 6 - r) ^ 3 + 605529 / 325250 * (r * (1 / 6 - r) ^ 2) + 162105759 / 32525000 * (r ^ 2 * (1 / 6 - r)) + 412960521 / 130100000 * r ^ 3) := by
    simp only [glideE0, glideV0, glideA0]; ring
  rw [← sub_nonneg, key]
  exact add_nonneg (add_nonneg (add_nonneg (mul_nonneg l0 (sub_nonneg.2 h.f1)) (mul_nonneg l1 (sub_nonneg.2 h.f2))) (mul_nonneg l2 (sub_nonneg.2 h.f3))) ls

theorem glide_0_3_1 {r e v a : K} (h : Gliding e v a) (hl : 1 / 6 ≤ r) (hu : r ≤ 1 / 4) :
    9 / 20 * glideE0 r e v a + (-1) * glideV0 r e v a + (-(3 / 5)) * glideA0 r e v a ≤ 9 / 20 := by
  have hx : 0 ≤ (r - 1 / 6) := by linarith
  have hy : 0 ≤ (1 / 4 - r) := by linarith
  have l0 : 0 ≤ 83227904 / 32525 * (1 / 4 - r) ^ 3 + 281778336 / 32525 * ((r - 1 / 6) * (1 / 4 - r) ^ 2) + 309340656 / 32525 * ((r - 1 / 6) ^ 2 * (1 / 4 - r)) + 110903904 / 32525 * (r - 1 / 6) ^ 3 :=
    bern_nonneg hx hy (by norm_num) (by norm_num) (by norm_num) (by norm_num)
  have l1 : 0 ≤ 24860764 / 32525 * (1 / 4 - r) ^ 3 + 84382326 / 32525 * ((r - 1 / 6) * (1 / 4 - r) ^ 2) + 92914821 / 32525 * ((r - 1 / 6) ^ 2 * (1 / 4 - r)) + 66834153 / 65050 * (r - 1 / 6) ^ 3 :=
    bern_nonneg hx hy (by norm_num) (by norm_num) (by norm_num) (by norm_num)
  have l2 : 0 ≤ 4403868 / 6505 * (1 / 4 - r) ^ 3 + 10403982 / 6505 * ((r - 1 / 6) * (1 / 4 - r) ^ 2) + 7887357 / 6505 * ((r - 1 / 6) ^ 2 * (1 / 4 - r)) + 3760101 / 13010 * (r - 1 / 6) ^ 3 :=
    bern_nonneg hx hy (by norm_num) (by norm_num) (by norm_num) (by norm_num)
  have ls : 0 ≤ 412960521 / 16262500 * (1 / 4 - r) ^ 3 + 3068221653 / 32525000 * ((r - 1 / 6) * (1 / 4 - r) ^ 2) + 7501607451 / 65050000 * ((r - 1 / 6) ^ 2 * (1 / 4 - r)) + 6040761543 / 130100000 * (r - 1 / 6) ^ 3 :=
    bern_nonneg hx hy (by norm_num) (by norm_num) (by norm_num) (by norm_num)
  have key : 9 / 20 - (9 / 20 * glideE0 r e v a + (-1) * glideV0 r e v a + (-(3 / 5)) * glideA0 r e v a) =
      (83227904 / 32525 * (1 / 4 - r) ^ 3 + 281778336 / 32525 * ((r - 1 / 6) * (1 / 4 - r) ^ 2) + 309340656 / 32525 * ((r - 1 / 6) ^ 2 * (1 / 4 - r)) + 110903904 / 32525 * (r - 1 / 6) ^ 3) * (81 / 5000 - (-e + 91 / 200 * v + 19 / 200 * a))
      + (24860764 / 32525 * (1 / 4 - r) ^ 3 + 84382326 / 32525 * ((r - 1 / 6) * (1 / 4 - r) ^ 2) + 92914821 / 32525 * ((r - 1 / 6) ^ 2 * (1 / 4 - r)) + 66834153 / 65050 * (r - 1 / 6) ^ 3) * (5313 / 10000 - (-e + 31 / 50 * v - 9 / 200 * a))
      + (4403868 / 6505 * (1 / 4 - r) ^ 3 + 10403982 / 6505 * ((r - 1 / 6) * (1 / 4 - r) ^ 2) + 7887357 / 6505 * ((r - 1 / 6) ^ 2 * (1 / 4 - r)) + 3760101 / 13010 * (r - 1 / 6) ^ 3) * (9 / 20 - (9 / 20 * e - v - 3 / 5 * a))
      + (412960521 / 16262500 * (1 / 4 - r) ^ 3 + 3068221653 / 32525000 * ((r - 1 / 6) * (1 / 4 - r) ^ 2) + 7501607451 / 65050000 * ((r - 1 / 6) ^ 2 * (1 / 4 - r)) + 6040761543 / 130100000 * (r - 1 / 6) ^ 3) := by
    simp only [glideE0, glideV0, glideA0]; ring
  rw [← sub_nonneg, key]
  exact add_nonneg (add_nonneg (add_nonneg (mul_nonneg l0 (sub_nonneg.2 h.f1)) (mul_nonneg l1 (sub_nonneg.2 h.f2))) (mul_nonneg l2 (sub_nonneg.2 h.f3))) ls

theorem glide_0_3_2 {r e v a : K} (h : Gliding e v a) (hl : 1 / 4 ≤ r) (hu : r ≤ 7 / 24) :
    9 / 20 * glideE0 r e v a + (-1) * glideV0 r e v a + (-(3 / 5)) * glideA0 r e v a ≤ 9 / 20 := by
  have hx : 0 ≤ (r - 1 / 4) := by linarith
  have hy : 0 ≤ (7 / 24 - r) := by linarith
  have l0 : 0 ≤ 887231232 / 32525 * (7 / 24 - r) ^ 3 + 551035584 / 6505 * ((r - 1 / 4) * (7 / 24 - r) ^ 2) + 2840279616 / 32525 * ((r - 1 / 4) ^ 2 * (7 / 24 - r)) + 972446608 / 32525 * (r - 1 / 4) ^ 3 :=
    bern_nonneg hx hy (by norm_num) (by norm_num) (by norm_num) (by norm_num)
  have l1 : 0 ≤ 267336612 / 32525 * (7 / 24 - r) ^ 3 + 166271094 / 6505 * ((r - 1 / 4) * (7 / 24 - r) ^ 2) + 858308931 / 32525 * ((r - 1 / 4) ^ 2 * (7 / 24 - r)) + 588627781 / 65050 * (r - 1 / 4) ^ 3 :=
    bern_nonneg hx hy (by norm_num) (by norm_num) (by norm_num) (by norm_num)
  have l2 : 0 ≤ 15040404 / 6505 * (7 / 24 - r) ^ 3 + 7226478 / 1301 * ((r - 1 / 4) * (7 / 24 - r) ^ 2) + 27682407 / 6505 * ((r - 1 / 4) ^ 2 * (7 / 24 - r)) + 13166457 / 13010 * (r - 1 / 4) ^ 3 :=
    bern_nonneg hx hy (by norm_num) (by norm_num) (by norm_num) (by norm_num)
  have ls : 0 ≤ 6040761543 / 16262500 * (7 / 24 - r) ^ 3 + 7872727797 / 6505000 * ((r - 1 / 4) * (7 / 24 - r) ^ 2) + 85354158861 / 65050000 * ((r - 1 / 4) ^ 2 * (7 / 24 - r)) + 61586603211 / 130100000 * (r - 1 / 4) ^ 3 :=
    bern_nonneg hx hy (by norm_num) (by norm_num) (by norm_num) (by norm_num)
  have key : 9 / 20 - (9 / 20 * glideE0 r e v a + (-1) * glideV0 r e v a + (-(3 / 5)) * glideA0 r e v a) =
      (887231232 / 32525 * (7 / 24 - r) ^ 3 + 551035584 / 6505 * ((r - 1 / 4) * (7 / 24 - r) ^ 2) + 2840279616 / 32525 * ((r - 1 / 4) ^ 2 * (7 / 24 - r)) + 972446608 / 32525 * (r - 1 / 4) ^ 3) * (81 / 5000 - (-e + 91 / 200 * v + 19 / 200 * a))
      + (267336612 / 32525 * (7 / 24 - r) ^ 3 + 166271094 / 6505 * ((r - 1 / 4) * (7 / 24 - r) ^ 2) + 858308931 / 32525 * ((r - 1 / 4) ^ 2 * (7 / 24 - r)) + 588627781 / 65050 * (r - 1 / 4) ^ 3) * (5313 / 10000 - (-e + 31 / 50 * v - 9 / 200 * a))
      + (15040404 / 6505 * (7 / 24 - r) ^ 3 + 7226478 / 1301 * ((r - 1 / 4) * (7 / 24 - r) ^ 2) + 27682407 / 6505 * ((r - 1 / 4) ^ 2 * (7 / 24 - r)) + 13166457 / 13010 * (r - 1 / 4) ^ 3) * (9 / 20 - (9 / 20 * e - v - 3 / 5 * a))
      + (6040761543 / 16262500 * (7 / 24 - r) ^ 3 + 7872727797 / 6505000 * ((r - 1 / 4) * (7 / 24 - r) ^ 2) + 85354158861 / 65050000 * ((r - 1 / 4) ^ 2 * (7 / 24 - r)) + 61586603211 / 130100000 * (r - 1 / 4) ^ 3) := by
    simp only [glideE0, glideV0, glideA0]; ring
  rw [← sub_nonneg, key]
  exact add_nonneg (add_nonneg (add_nonneg (mul_nonneg l0 (sub_nonneg.2 h.f1)) (mul_nonneg l1 (sub_nonneg.2 h.f2))) (mul_nonneg l2 (sub_nonneg.2 h.f3))) ls

theorem glide_0_3_3 {r e v a : K} (h : Gliding e v a) (hl : 7 / 24 ≤ r) (hu : r ≤ 5 / 16) :
    9 / 20 * glideE0 r e v a + (-1) * glideV0 r e v a + (-(3 / 5)) * glideA0 r e v a ≤ 9 / 20 := by
  have hx : 0 ≤ (r - 7 / 24) := by linarith
  have hy : 0 ≤ (5 / 16 - r) := by linarith
  have l0 : 0 ≤ 7779572864 / 32525 * (5 / 16 - r) ^ 3 + 23646959424 / 32525 * ((r - 7 / 24) * (5 / 16 - r) ^ 2) + 4787823456 / 6505 * ((r - 7 / 24) ^ 2 * (5 / 16 - r)) + 322873776 / 1301 * (r - 7 / 24) ^ 3 :=
    bern_nonneg hx hy (by norm_num) (by norm_num) (by norm_num) (by norm_num)
  have l1 : 0 ≤ 2354511124 / 32525 * (5 / 16 - r) ^ 3 + 7162064334 / 32525 * ((r - 7 / 24) * (5 / 16 - r) ^ 2) + 1451190771 / 6505 * ((r - 7 / 24) ^ 2 * (5 / 16 - r)) + 195873957 / 2602 * (r - 7 / 24) ^ 3 :=
    bern_nonneg hx hy (by norm_num) (by norm_num) (by norm_num) (by norm_num)
  have l2 : 0 ≤ 52665828 / 6505 * (5 / 16 - r) ^ 3 + 126266598 / 6505 * ((r - 7 / 24) * (5 / 16 - r) ^ 2) + 19114047 / 1301 * ((r - 7 / 24) ^ 2 * (5 / 16 - r)) + 8784909 / 2602 * (r - 7 / 24) ^ 3 :=
    bern_nonneg hx hy (by norm_num) (by norm_num) (by norm_num) (by norm_num)
  have ls : 0 ≤ 61586603211 / 16262500 * (5 / 16 - r) ^ 3 + 383571111177 / 32525000 * ((r - 7 / 24) * (5 / 16 - r) ^ 2) + 159208587261 / 13010000 * ((r - 7 / 24) ^ 2 * (5 / 16 - r)) + 22020040107 / 5204000 * (r - 7 / 24) ^ 3 :=
    bern_nonneg hx hy (by norm_num) (by norm_num) (by norm_num) (by norm_num)
  have key : 9 / 20 - (9 / 20 * glideE0 r e v a + (-1) * glideV0 r e v a + (-(3 / 5)) * glideA0 r e v a) =
      (7779572864 / 32525 * (5 / 16 - r) ^ 3 + 23646959424 / 32525 * ((r - 7 / 24) * (5 / 16 - r) ^ 2) + 4787823456 / 6505 * ((r - 7 / 24) ^ 2 * (5 / 16 - r)) + 322873776 / 1301 * (r - 7 / 24) ^ 3) * (81 / 5000 - (-e + 91 / 200 * v + 19 / 200 * a))
      + (2354511124 / 32525 * (5 / 16 - r) ^ 3 + 7162064334 / 32525 * ((r - 7 / 24) * (5 / 16 - r) ^ 2) + 1451190771 / 6505 * ((r - 7 / 24) ^ 2 * (5 / 16 - r)) + 195873957 / 2602 * (r - 7 / 24) ^ 3) * (5313 / 10000 - (-e + 31 / 50 * v - 9 / 200 * a))
      + (52665828 / 6505 * (5 / 16 - r) ^ 3 + 126266598 / 6505 * ((r - 7 / 24) * (5 / 16 - r) ^ 2) + 19114047 / 1301 * ((r - 7 / 24) ^ 2 * (5 / 16 - r)) + 8784909 / 2602 * (r - 7 / 24) ^ 3) * (9 / 20 - (9 / 20 * e - v - 3 / 5 * a))
      + (61586603211 / 16262500 * (5 / 16 - r) ^ 3 + 383571111177 / 32525000 * ((r - 7 / 24) * (5 / 16 - r) ^ 2) + 159208587261 / 13010000 * ((r - 7 / 24) ^ 2 * (5 / 16 - r)) + 22020040107 / 5204000 * (r - 7 / 24) ^ 3) := by
    simp only [glideE0, glideV0, glideA0]; ring
  rw [← sub_nonneg, key]
  exact add_nonneg (add_nonneg (add_nonneg (mul_nonneg l0 (sub_nonneg.2 h.f1)) (mul_nonneg l1 (sub_nonneg.2 h.f2))) (mul_nonneg l2 (sub_nonneg.2 h.f3))) ls

theorem glide_0_3_4 {r e v a : K} (h : Gliding e v a) (hl : 5 / 16 ≤ r) (hu : r ≤ 1 / 3) :
    9 / 20 * glideE0 r e v a + (-1) * glideV0 r e v a + (-(3 / 5)) * glideA0 r e v a ≤ 9 / 20 := by
  have hx : 0 ≤ (r - 5 / 16) := by linarith
  have hy : 0 ≤ (1 / 3 - r) := by linarith
  have l0 : 0 ≤ 206223328944 / 813125 * (1 / 3 - r) ^ 3 + 625580384832 / 813125 * ((r - 5 / 16) * (1 / 3 - r) ^ 2) + 632097234432 / 813125 * ((r - 5 / 16) ^ 2 * (1 / 3 - r)) + 212743020544 / 813125 * (r - 5 / 16) ^ 3 :=
    bern_nonneg hx hy (by norm_num) (by norm_num) (by norm_num) (by norm_num)
  have l1 : 0 ≤ 118641630933 / 1626250 * (1 / 3 - r) ^ 3 + 180195434712 / 813125 * ((r - 5 / 16) * (1 / 3 - r) ^ 2) + 182314173312 / 813125 * ((r - 5 / 16) ^ 2 * (1 / 3 - r)) + 61440149504 / 813125 * (r - 5 / 16) ^ 3 :=
    bern_nonneg hx hy (by norm_num) (by norm_num) (by norm_num) (by norm_num)
  have l2 : 0 ≤ 1435198041 / 325250 * (1 / 3 - r) ^ 3 + 1410711624 / 162625 * ((r - 5 / 16) * (1 / 3 - r) ^ 2) + 693949824 / 162625 * ((r - 5 / 16) ^ 2 * (1 / 3 - r)) + 657408 / 162625 * (r - 5 / 16) ^ 3 :=
    bern_nonneg hx hy (by norm_num) (by norm_num) (by norm_num) (by norm_num)
  have l3 : 0 ≤ 331776 / 125 * (1 / 3 - r) ^ 3 + 995328 / 125 * ((r - 5 / 16) * (1 / 3 - r) ^ 2) + 995328 / 125 * ((r - 5 / 16) ^ 2 * (1 / 3 - r)) + 331776 / 125 * (r - 5 / 16) ^ 3 :=
    bern_nonneg hx hy (by norm_num) (by norm_num) (by norm_num) (by norm_num)
  have ls : 0 ≤ 7342144550523 / 3252500000 * (1 / 3 - r) ^ 3 + 1469491377309 / 203281250 * ((r - 5 / 16) * (1 / 3 - r) ^ 2) + 782427597192 / 101640625 * ((r - 5 / 16) ^ 2 * (1 / 3 - r)) + 277129198464 / 101640625 * (r - 5 / 16) ^ 3 :=
    bern_nonneg hx hy (by norm_num) (by norm_num) (by norm_num) (by norm_num)
  have key : 9 / 20 - (9 / 20 * glideE0 r e v a + (-1) * glideV0 r e v a + (-(3 / 5)) * glideA0 r e v a) =
      (206223328944 / 813125 * (1 / 3 - r) ^ 3 + 625580384832 / 813125 * ((r - 5 / 16) * (1 / 3 - r) ^ 2) + 632097234432 / 813125 * ((r - 5 / 16) ^ 2 * (1 / 3 - r)) + 212743020544 / 813125 * (r - 5 / 16) ^ 3) * (81 / 5000 - (-e + 91 / 200 * v + 19 / 200 * a))
      + (118641630933 / 1626250 * (1 / 3 - r) ^ 3 + 180195434712 / 813125 * ((r - 5 / 16) * (1 / 3 - r) ^ 2) + 182314173312 / 813125 * ((r - 5 / 16) ^ 2 * (1 / 3 - r)) + 61440149504 / 813125 * (r - 5 / 16) ^ 3) * (5313 / 10000 - (-e + 31 / 50 * v - 9 / 200 * a))
      + (1435198041 / 325250 * (1 / 3 - r) ^ 3 + 1410711624 / 162625 * ((r - 5 / 16) * (1 / 3 - r) ^ 2) + 693949824 / 162625 * ((r - 5 / 16) ^ 2 * (1 / 3 - r)) + 657408 / 162625 * (r - 5 / 16) ^ 3) * (9 / 20 - (9 / 20 * e - v - 3 / 5 * a))
      + (331776 / 125 * (1 / 3 - r) ^ 3 + 995328 / 125 * ((r - 5 / 16) * (1 / 3 - r) ^ 2) + 995328 / 125 * ((r - 5 / 16) ^ 2 * (1 / 3 - r)) + 331776 / 125 * (r - 5 / 16) ^ 3) * (1 - (e))
      + (7342144550523 / 3252500000 * (1 / 3 - r) ^ 3 + 1469491377309 / 203281250 * ((r - 5 / 16) * (1 / 3 - r) ^ 2) + 782427597192 / 101640625 * ((r - 5 / 16) ^ 2 * (1 / 3 - r)) + 277129198464 / 101640625 * (r - 5 / 16) ^ 3) := by
    simp only [glideE0, glideV0, glideA0]; ring
  rw [← sub_nonneg, key]
  exact add_nonneg (add_nonneg (add_nonneg (add_nonneg (mul_nonneg l0 (sub_nonneg.2 h.f1)) (mul_nonneg l1 (sub_nonneg.2 h.f2))) (mul_nonneg l2 (sub_nonneg.2 h.f3))) (mul_nonneg l3 (sub_nonneg.2 h.f0))) ls

theorem Gliding.step0_3 {r e v a : K} (h : Gliding e v a) (hl : 0 ≤ r) (hu : r ≤ 1 / 3) :
    9 / 20 * glideE0 r e v a + (-1) * glideV0 r e v a + (-(3 / 5)) * glideA0 r e v a ≤ 9 / 20 := by
  rcases le_total r (1 / 6) with c0 | c0
  · exact glide_0_3_0 h hl c0
  rcases le_total r (1 / 4) with c1 | c1
  · exact glide_0_3_1 h c0 c1
  rcases le_total r (7 / 24) with c2 | c2
  · exact glide_0_3_2 h c1 c2
  rcases le_total r (5 / 16) with c3 | c3
  · exact glide_0_3_3 h c2 c3
  exact glide_0_3_4 h c3 hu

theorem glide_0_4_0 {r e v a : K} (h : Gliding e v a) (hl : 0 ≤ r) (hu : r ≤ 1 / 3) :
    (-1) * glideE0 r e v a + 41 / 200 * glideV0 r e v a + (-(1 / 200)) * glideA0 r e v a ≤ 589 / 10000 := by
  have hx : 0 ≤ r := by linarith
  have hy : 0 ≤ (1 / 3 - r) := by linarith
  have l0 : 0 ≤ 0 * (1 / 3 - r) ^ 3 + 4256379 / 95660 * (r * (1 / 3 - r) ^ 2) + 2383023 / 38264 * (r ^ 2 * (1 / 3 - r)) + 4424243 / 286980 * r ^ 3 :=
    bern_nonneg hx hy (by norm_num) (by norm_num) (by norm_num) (by norm_num)
  have l1 : 0 ≤ 0 * (1 / 3 - r) ^ 3 + 179559 / 47830 * (r * (1 / 3 - r) ^ 2) + 457851 / 95660 * (r ^ 2 * (1 / 3 - r)) + 171139 / 143490 * r ^ 3 :=
    bern_nonneg hx hy (by norm_num) (by norm_num) (by norm_num) (by norm_num)
  have l2 : 0 ≤ 27 * (1 / 3 - r) ^ 3 + 3769911 / 95660 * (r * (1 / 3 - r) ^ 2) + 543075 / 38264 * (r ^ 2 * (1 / 3 - r)) + 753367 / 286980 * r ^ 3 :=
    bern_nonneg hx hy (by norm_num) (by norm_num) (by norm_num) (by norm_num)
  have ls : 0 ≤ 0 * (1 / 3 - r) ^ 3 + 37800963 / 956600000 * (r * (1 / 3 - r) ^ 2) + 11819379 / 15305600 * (r ^ 2 * (1 / 3 - r)) + 1863131411 / 2869800000 * r ^ 3 :=
    bern_nonneg hx hy (by norm_num) (by norm_num) (by norm_num) (by norm_num)
  have key : 589 / 10000 - ((-1) * glideE0 r e v a + 41 / 200 * glideV0 r e v a + (-(1 / 200)) * glideA0 r e v a) =
      (0 * (1 / 3 - r) ^ 3 + 4256379 / 95660 * (r * (1 / 3 - r) ^ 2) + 2383023 / 38264 * (r ^ 2 * (1 / 3 - r)) + 4424243 / 286980 * r ^ 3) * (81 / 5000 - (-e + 91 / 200 * v + 19 / 200 * a))
      + (0 * (1 / 3 - r) ^ 3 + 179559 / 47830 * (r * (1 / 3 - r) ^ 2) + 457851 / 95660 * (r ^ 2 * (1 / 3 - r)) + 171139 / 143490 * r ^ 3) * (9 / 20 - (9 / 20 * e - v - 3 / 5 * a))
      + (27 * (1 / 3 - r) ^ 3 + 3769911 / 95660 * (r * (1 / 3 - r) ^ 2) + 543075 / 38264 * (r ^ 2 * (1 / 3 - r)) + 753367 / 286980 * r ^ 3) * (589 / 10000 - (-e + 41 / 200 * v - 1 / 200 * a))
      + (0 * (1 / 3 - r) ^ 3 + 37800963 / 956600000 * (r * (1 / 3 - r) ^ 2) + 11819379 / 15305600 * (r ^ 2 * (1 / 3 - r)) + 1863131411 / 2869800000 * r ^ 3) := by
    simp only [glideE0, glideV0, glideA0]; ring
  rw [← sub_nonneg, key]
  exact add_nonneg (add_nonneg (add_nonneg (mul_nonneg l0 (sub_nonneg.2 h.f1)) (mul_nonneg l1 (sub_nonneg.2 h.f3))) (mul_nonneg l2 (sub_nonneg.2 h.f4))) ls

theorem Gliding.step0_4 {r e v a : K} (h : Gliding e v a) (hl : 0 ≤ r) (hu : r ≤ 1 / 3) :
    (-1) * glideE0 r e v a + 41 / 200 * glideV0 r e v a + (-(1 / 200)) * glideA0 r e v a ≤ 589 / 10000 := by
  exact glide_0_4_0 h hl hu

theorem glide_0_5_0 {r e v a : K} (h : Gliding e v a) (hl : 0 ≤ r) (hu : r ≤ 1 / 6) :
    33 / 100 * glideE0 r e v a + 1 * glideV0 r e v a + 3 / 50 * glideA0 r e v a ≤ 20319 / 10000 := by
  have hx : 0 ≤ r := by linarith
  have hy : 0 ≤ (1 / 6 - r) := by linarith
  have l0 : 0 ≤ 0 * (1 / 6 - r) ^ 3 + 1732338 / 3385 * (r * (1 / 6 - r) ^ 2) + 110323521 / 135400 * (r ^ 2 * (1 / 6 - r)) + 175420359 / 541600 * r ^ 3 :=
    bern_nonneg hx hy (by norm_num) (by norm_num) (by norm_num) (by norm_num)
  have l1 : 0 ≤ 0 * (1 / 6 - r) ^ 3 + 250056 / 677 * (r * (1 / 6 - r) ^ 2) + 333036 / 677 * (r ^ 2 * (1 / 6 - r)) + 104859 / 677 * r ^ 3 :=
    bern_nonneg hx hy (by norm_num) (by norm_num) (by norm_num) (by norm_num)
  have l2 : 0 ≤ 216 * (1 / 6 - r) ^ 3 + 266184 / 677 * (r * (1 / 6 - r) ^ 2) + 283815 / 1354 * (r ^ 2 * (1 / 6 - r)) + 144261 / 5416 * r ^ 3 :=
    bern_nonneg hx hy (by norm_num) (by norm_num) (by norm_num) (by norm_num)
  have ls : 0 ≤ 0 * (1 / 6 - r) ^ 3 + 5391 / 423125 * (r * (1 / 6 - r) ^ 2) + 920635299 / 13540000 * (r ^ 2 * (1 / 6 - r)) + 3161131641 / 54160000 * r ^ 3 :=
    bern_nonneg hx hy (by norm_num) (by norm_num) (by norm_num) (by norm_num)
  have key : 20319 / 10000 - (33 / 100 * glideE0 r e v a + 1 * glideV0 r e v a + 3 / 50 * glideA0 r e v a) =
      (0 * (1 / 6 - r) ^ 3 + 1732338 / 3385 * (r * (1 / 6 - r) ^ 2) + 110323521 / 135400 * (r ^ 2 * (1 / 6 - r)) + 175420359 / 541600 * r ^ 3) * (1 - (e))
      + (0 * (1 / 6 - r) ^ 3 + 250056 / 677 * (r * (1 / 6 - r) ^ 2) + 333036 / 677 * (r ^ 2 * (1 / 6 - r)) + 104859 / 677 * r ^ 3) * (81 / 5000 - (-e + 91 / 200 * v + 19 / 200 * a))
      + (216 * (1 / 6 - r) ^ 3 + 266184 / 677 * (r * (1 / 6 - r) ^ 2) + 283815 / 1354 * (r ^ 2 * (1 / 6 - r)) + 144261 / 5416 * r ^ 3) * (20319 / 10000 - (33 / 100 * e + v + 3 / 50 * a))
      + (0 * (1 / 6 - r) ^ 3 + 5391 / 423125 * (r * (1 / 6 - r) ^ 2) + 920635299 / 13540000 * (r ^ 2 * (1 / 6 - r)) + 3161131641 / 54160000 * r ^ 3) := by
    simp only [glideE0, glideV0, glideA0]; ring
  rw [← sub_nonneg, key]
  exact add_nonneg (add_nonneg (add_nonneg (mul_nonneg l0 (sub_nonneg.2 h.f0)) (mul_nonneg l1 (sub_nonneg.2 h.f1))) (mul_nonneg l2 (sub_nonneg.2 h.f5))) ls

theorem glide_0_5_1 {r e v a : K} (h : Gliding e v a) (hl : 1 / 6 ≤ r) (hu : r ≤ 3 / 16) :
    33 / 100 * glideE0 r e v a + 1 * glideV0 r e v a + 3 / 50 * glideA0 r e v a ≤ 20319 / 10000 := by
  have hx : 0 ≤ (r - 1 / 6) := by linarith
  have hy : 0 ≤ (3 / 16 - r) := by linarith
  have l0 : 0 ≤ 622580544 / 3175 * (3 / 16 - r) ^ 3 + 1841149368 / 3175 * ((r - 1 / 6) * (3 / 16 - r) ^ 2) + 362776059 / 635 * ((r - 1 / 6) ^ 2 * (3 / 16 - r)) + 4762695213 / 25400 * (r - 1 / 6) ^ 3 :=
    bern_nonneg hx hy (by norm_num) (by norm_num) (by norm_num) (by norm_num)
  have l1 : 0 ≤ 296626176 / 3175 * (3 / 16 - r) ^ 3 + 857044224 / 3175 * ((r - 1 / 6) * (3 / 16 - r) ^ 2) + 164364192 / 635 * ((r - 1 / 6) ^ 2 * (3 / 16 - r)) + 261486468 / 3175 * (r - 1 / 6) ^ 3 :=
    bern_nonneg hx hy (by norm_num) (by norm_num) (by norm_num) (by norm_num)
  have l2 : 0 ≤ 36930816 / 3175 * (3 / 16 - r) ^ 3 + 88313184 / 3175 * ((r - 1 / 6) * (3 / 16 - r) ^ 2) + 13400172 / 635 * ((r - 1 / 6) ^ 2 * (3 / 16 - r)) + 31205601 / 6350 * (r - 1 / 6) ^ 3 :=
    bern_nonneg hx hy (by norm_num) (by norm_num) (by norm_num) (by norm_num)
  have ls : 0 ≤ 8306625456 / 396875 * (3 / 16 - r) ^ 3 + 29803302954 / 396875 * ((r - 1 / 6) * (3 / 16 - r) ^ 2) + 222071481 / 2540 * ((r - 1 / 6) ^ 2 * (3 / 16 - r)) + 422389935711 / 12700000 * (r - 1 / 6) ^ 3 :=
    bern_nonneg hx hy (by norm_num) (by norm_num) (by norm_num) (by norm_num)
  have key : 20319 / 10000 - (33 / 100 * glideE0 r e v a + 1 * glideV0 r e v a + 3 / 50 * glideA0 r e v a) =
      (622580544 / 3175 * (3 / 16 - r) ^ 3 + 1841149368 / 3175 * ((r - 1 / 6) * (3 / 16 - r) ^ 2) + 362776059 / 635 * ((r - 1 / 6) ^ 2 * (3 / 16 - r)) + 4762695213 / 25400 * (r - 1 / 6) ^ 3) * (1 - (e))
      + (296626176 / 3175 * (3 / 16 - r) ^ 3 + 857044224 / 3175 * ((r - 1 / 6) * (3 / 16 - r) ^ 2) + 164364192 / 635 * ((r - 1 / 6) ^ 2 * (3 / 16 - r)) + 261486468 / 3175 * (r - 1 / 6) ^ 3) * (81 / 5000 - (-e + 91 / 200 * v + 19 / 200 * a))
      + (36930816 / 3175 * (3 / 16 - r) ^ 3 + 88313184 / 3175 * ((r - 1 / 6) * (3 / 16 - r) ^ 2) + 13400172 / 635 * ((r - 1 / 6) ^ 2 * (3 / 16 - r)) + 31205601 / 6350 * (r - 1 / 6) ^ 3) * (5313 / 10000 - (-e + 31 / 50 * v - 9 / 200 * a))
      + (8306625456 / 396875 * (3 / 16 - r) ^ 3 + 29803302954 / 396875 * ((r - 1 / 6) * (3 / 16 - r) ^ 2) + 222071481 / 2540 * ((r - 1 / 6) ^ 2 * (3 / 16 - r)) + 422389935711 / 12700000 * (r - 1 / 6) ^ 3) := by
    simp only [glideE0, glideV0, glideA0]; ring
  rw [← sub_nonneg, key]
  exact add_nonneg (add_nonneg (add_nonneg (mul_nonneg l0 (sub_nonneg.2 h.f0)) (mul_nonneg l1 (sub_nonneg.2 h.f1))) (mul_nonneg l2 (sub_nonneg.2 h.f2))) ls

theorem glide_0_5_2 {r e v a : K} (h : Gliding e v a) (hl : 3 / 16 ≤ r) (hu : r ≤ 5 / 24) :
    33 / 100 * glideE0 r e v a + 1 * glideV0 r e v a + 3 / 50 * glideA0 r e v a ≤ 20319 / 10000 := by
  have hx : 0 ≤ (r - 3 / 16) := by linarith
  have hy : 0 ≤ (5 / 24 - r) := by linarith
  have l0 : 0 ≤ 119804005989 / 635000 * (5 / 24 - r) ^ 3 + 176919049971 / 317500 * ((r - 3 / 16) * (5 / 24 - r) ^ 2) + 87036019623 / 158750 * ((r - 3 / 16) ^ 2 * (5 / 24 - r)) + 14264383833 / 79375 * (r - 3 / 16) ^ 3 :=
    bern_nonneg hx hy (by norm_num) (by norm_num) (by norm_num) (by norm_num)
  have l1 : 0 ≤ 6578467812 / 79375 * (5 / 24 - r) ^ 3 + 18801364536 / 79375 * ((r - 3 / 16) * (5 / 24 - r) ^ 2) + 17813868336 / 79375 * ((r - 3 / 16) ^ 2 * (5 / 24 - r)) + 5593060512 / 79375 * (r - 3 / 16) ^ 3 :=
    bern_nonneg hx hy (by norm_num) (by norm_num) (by norm_num) (by norm_num)
  have l2 : 0 ≤ 954543609 / 158750 * (5 / 24 - r) ^ 3 + 927003951 / 79375 * ((r - 3 / 16) * (5 / 24 - r) ^ 2) + 450189126 / 79375 * ((r - 3 / 16) ^ 2 * (5 / 24 - r)) + 64692 / 79375 * (r - 3 / 16) ^ 3 :=
    bern_nonneg hx hy (by norm_num) (by norm_num) (by norm_num) (by norm_num)
  have l3 : 0 ≤ 573696 / 625 * (5 / 24 - r) ^ 3 + 1721088 / 625 * ((r - 3 / 16) * (5 / 24 - r) ^ 2) + 1721088 / 625 * ((r - 3 / 16) ^ 2 * (5 / 24 - r)) + 573696 / 625 * (r - 3 / 16) ^ 3 :=
    bern_nonneg hx hy (by norm_num) (by norm_num) (by norm_num) (by norm_num)
  have ls : 0 ≤ 9857718892359 / 317500000 * (5 / 24 - r) ^ 3 + 16746733365201 / 158750000 * ((r - 3 / 16) * (5 / 24 - r) ^ 2) + 9354448518813 / 79375000 * ((r - 3 / 16) ^ 2 * (5 / 24 - r)) + 1722525187923 / 39687500 * (r - 3 / 16) ^ 3 :=
    bern_nonneg hx hy (by norm_num) (by norm_num) (by norm_num) (by norm_num)
  have key : 20319 / 10000 - (33 / 100 * glideE0 r e v a + 1 * glideV0 r e v a + 3 / 50 * glideA0 r e v a) =
      (119804005989 / 635000 * (5 / 24 - r) ^ 3 + 176919049971 / 317500 * ((r - 3 / 16) * (5 / 24 - r) ^ 2) + 87036019623 / 158750 * ((r - 3 / 16) ^ 2 * (5 / 24 - r)) + 14264383833 / 79375 * (r - 3 / 16) ^ 3) * (1 - (e))
      + (6578467812 / 79375 * (5 / 24 - r) ^ 3 + 18801364536 / 79375 * ((r - 3 / 16) * (5 / 24 - r) ^ 2) + 17813868336 / 79375 * ((r - 3 / 16) ^ 2 * (5 / 24 - r)) + 5593060512 / 79375 * (r - 3 / 16) ^ 3) * (81 / 5000 - (-e + 91 / 200 * v + 19 / 200 * a))
      + (954543609 / 158750 * (5 / 24 - r) ^ 3 + 927003951 / 79375 * ((r - 3 / 16) * (5 / 24 - r) ^ 2) + 450189126 / 79375 * ((r - 3 / 16) ^ 2 * (5 / 24 - r)) + 64692 / 79375 * (r - 3 / 16) ^ 3) * (5313 / 10000 - (-e + 31 / 50 * v - 9 / 200 * a))
      + (573696 / 625 * (5 / 24 - r) ^ 3 + 1721088 / 625 * ((r - 3 / 16) * (5 / 24 - r) ^ 2) + 1721088 / 625 * ((r - 3 / 16) ^ 2 * (5 / 24 - r)) + 573696 / 625 * (r - 3 / 16) ^ 3) * (1 / 2 - (1 / 2 * e - v))
      + (9857718892359 / 317500000 * (5 / 24 - r) ^ 3 + 16746733365201 / 158750000 * ((r - 3 / 16) * (5 / 24 - r) ^ 2) + 9354448518813 / 79375000 * ((r - 3 / 16) ^ 2 * (5 / 24 - r)) + 1722525187923 / 39687500 * (r - 3 / 16) ^ 3) := by
    simp only [glideE0, glideV0, glideA0]; ring
  rw [← sub_nonneg, key]
  exact add_nonneg (add_nonneg (add_nonneg (add_nonneg (mul_nonneg l0 (sub_nonneg.2 h.f0)) (mul_nonneg l1 (sub_nonneg.2 h.f1))) (mul_nonneg l2 (sub_nonneg.2 h.f2))) (mul_nonneg l3 (sub_nonneg.2 h.f7))) ls

theorem glide_0_5_3 {r e v a : K} (h : Gliding e v a) (hl : 5 / 24 ≤ r) (hu : r ≤ 1 / 4) :
    33 / 100 * glideE0 r e v a + 1 * glideV0 r e v a + 3 / 50 * glideA0 r e v a ≤ 20319 / 10000 := by
  have hx : 0 ≤ (r - 5 / 24) := by linarith
  have hy : 0 ≤ (1 / 4 - r) := by linarith
  have l0 : 0 ≤ 341445033 / 15200 * (1 / 4 - r) ^ 3 + 506190501 / 7600 * ((r - 5 / 24) * (1 / 4 - r) ^ 2) + 249115131 / 3800 * ((r - 5 / 24) ^ 2 * (1 / 4 - r)) + 40715703 / 1900 * (r - 5 / 24) ^ 3 :=
    bern_nonneg hx hy (by norm_num) (by norm_num) (by norm_num) (by norm_num)
  have l1 : 0 ≤ 334701 / 38 * (1 / 4 - r) ^ 3 + 452889 / 19 * ((r - 5 / 24) * (1 / 4 - r) ^ 2) + 396558 / 19 * ((r - 5 / 24) ^ 2 * (1 / 4 - r)) + 111564 / 19 * (r - 5 / 24) ^ 3 :=
    bern_nonneg hx hy (by norm_num) (by norm_num) (by norm_num) (by norm_num)
  have l2 : 0 ≤ 871371 / 7600 * (1 / 4 - r) ^ 3 + 5807007 / 3800 * ((r - 5 / 24) * (1 / 4 - r) ^ 2) + 4885281 / 1900 * ((r - 5 / 24) ^ 2 * (1 / 4 - r)) + 1103733 / 950 * (r - 5 / 24) ^ 3 :=
    bern_nonneg hx hy (by norm_num) (by norm_num) (by norm_num) (by norm_num)
  have ls : 0 ≤ 1030841433 / 190000 * (1 / 4 - r) ^ 3 + 1568708037 / 95000 * ((r - 5 / 24) * (1 / 4 - r) ^ 2) + 811614699 / 47500 * ((r - 5 / 24) ^ 2 * (1 / 4 - r)) + 142111287 / 23750 * (r - 5 / 24) ^ 3 :=
    bern_nonneg hx hy (by norm_num) (by norm_num) (by norm_num) (by norm_num)
  have key : 20319 / 10000 - (33 / 100 * glideE0 r e v a + 1 * glideV0 r e v a + 3 / 50 * glideA0 r e v a) =
      (341445033 / 15200 * (1 / 4 - r) ^ 3 + 506190501 / 7600 * ((r - 5 / 24) * (1 / 4 - r) ^ 2) + 249115131 / 3800 * ((r - 5 / 24) ^ 2 * (1 / 4 - r)) + 40715703 / 1900 * (r - 5 / 24) ^ 3) * (1 - (e))
      + (334701 / 38 * (1 / 4 - r) ^ 3 + 452889 / 19 * ((r - 5 / 24) * (1 / 4 - r) ^ 2) + 396558 / 19 * ((r - 5 / 24) ^ 2 * (1 / 4 - r)) + 111564 / 19 * (r - 5 / 24) ^ 3) * (81 / 5000 - (-e + 91 / 200 * v + 19 / 200 * a))
      + (871371 / 7600 * (1 / 4 - r) ^ 3 + 5807007 / 3800 * ((r - 5 / 24) * (1 / 4 - r) ^ 2) + 4885281 / 1900 * ((r - 5 / 24) ^ 2 * (1 / 4 - r)) + 1103733 / 950 * (r - 5 / 24) ^ 3) * (1 / 2 - (1 / 2 * e - v))
      + (1030841433 / 190000 * (1 / 4 - r) ^ 3 + 1568708037 / 95000 * ((r - 5 / 24) * (1 / 4 - r) ^ 2) + 811614699 / 47500 * ((r - 5 / 24) ^ 2 * (1 / 4 - r)) + 142111287 / 23750 * (r - 5 / 24) ^ 3) := by
    simp only [glideE0, glideV0, glideA0]; ring
  rw [← sub_nonneg, key]
  exact add_nonneg (add_nonneg (add_nonneg (mul_nonneg l0 (sub_nonneg.2 h.f0)) (mul_nonneg l1 (sub_nonneg.2 h.f1))) (mul_nonneg l2 (sub_nonneg.2 h.f7))) ls

theorem glide_0_5_4 {r e v a : K} (h : Gliding e v a) (hl : 1 / 4 ≤ r) (hu : r ≤ 7 / 24) :
    33 / 100 * glideE0 r e v a + 1 * glideV0 r e v a + 3 / 50 * glideA0 r e v a ≤ 20319 / 10000 := by
  have hx : 0 ≤ (r - 1 / 4) := by linarith
  have hy : 0 ≤ (7 / 24 - r) := by linarith
  have l0 : 0 ≤ 40715703 / 1900 * (7 / 24 - r) ^ 3 + 47894661 / 760 * ((r - 1 / 4) * (7 / 24 - r) ^ 2) + 467623197 / 7600 * ((r - 1 / 4) ^ 2 * (7 / 24 - r)) + 303279867 / 15200 * (r - 1 / 4) ^ 3 :=
    bern_nonneg hx hy (by norm_num) (by norm_num) (by norm_num) (by norm_num)
  have l1 : 0 ≤ 111564 / 19 * (7 / 24 - r) ^ 3 + 272826 / 19 * ((r - 1 / 4) * (7 / 24 - r) ^ 2) + 205425 / 19 * ((r - 1 / 4) ^ 2 * (7 / 24 - r)) + 89415 / 38 * (r - 1 / 4) ^ 3 :=
    bern_nonneg hx hy (by norm_num) (by norm_num) (by norm_num) (by norm_num)
  have l2 : 0 ≤ 1103733 / 950 * (7 / 24 - r) ^ 3 + 1671903 / 380 * ((r - 1 / 4) * (7 / 24 - r) ^ 2) + 19703943 / 3800 * ((r - 1 / 4) ^ 2 * (7 / 24 - r)) + 14831073 / 7600 * (r - 1 / 4) ^ 3 :=
    bern_nonneg hx hy (by norm_num) (by norm_num) (by norm_num) (by norm_num)
  have ls : 0 ≤ 142111287 / 23750 * (7 / 24 - r) ^ 3 + 178744149 / 9500 * ((r - 1 / 4) * (7 / 24 - r) ^ 2) + 1897132221 / 95000 * ((r - 1 / 4) ^ 2 * (7 / 24 - r)) + 1353277899 / 190000 * (r - 1 / 4) ^ 3 :=
    bern_nonneg hx hy (by norm_num) (by norm_num) (by norm_num) (by norm_num)
  have key : 20319 / 10000 - (33 / 100 * glideE0 r e v a + 1 * glideV0 r e v a + 3 / 50 * glideA0 r e v a) =
      (40715703 / 1900 * (7 / 24 - r) ^ 3 + 47894661 / 760 * ((r - 1 / 4) * (7 / 24 - r) ^ 2) + 467623197 / 7600 * ((r - 1 / 4) ^ 2 * (7 / 24 - r)) + 303279867 / 15200 * (r - 1 / 4) ^ 3) * (1 - (e))
      + (111564 / 19 * (7 / 24 - r) ^ 3 + 272826 / 19 * ((r - 1 / 4) * (7 / 24 - r) ^ 2) + 205425 / 19 * ((r - 1 / 4) ^ 2 * (7 / 24 - r)) + 89415 / 38 * (r - 1 / 4) ^ 3) * (81 / 5000 - (-e + 91 / 200 * v + 19 / 200 * a))
      + (1103733 / 950 * (7 / 24 - r) ^ 3 + 1671903 / 380 * ((r - 1 / 4) * (7 / 24 - r) ^ 2) + 19703943 / 3800 * ((r - 1 / 4) ^ 2 * (7 / 24 - r)) + 14831073 / 7600 * (r - 1 / 4) ^ 3) * (1 / 2 - (1 / 2 * e - v))
      + (142111287 / 23750 * (7 / 24 - r) ^ 3 + 178744149 / 9500 * ((r - 1 / 4) * (7 / 24 - r) ^ 2) + 1897132221 / 95000 * ((r - 1 / 4) ^ 2 * (7 / 24 - r)) + 1353277899 / 190000 * (r - 1 / 4) ^ 3) := by
    simp only [glideE0, glideV0, glideA0]; ring
  rw [← sub_nonneg, key]
  exact add_nonneg (add_nonneg (add_nonneg (mul_nonneg l0 (sub_nonneg.2 h.f0)) (mul_nonneg l1 (sub_nonneg.2 h.f1))) (mul_nonneg l2 (sub_nonneg.2 h.f7))) ls

theorem glide_0_5_5 {r e v a : K} (h : Gliding e v a) (hl : 7 / 24 ≤ r) (hu : r ≤ 5 / 16) :
    33 / 100 * glideE0 r e v a + 1 * glideV0 r e v a + 3 / 50 * glideA0 r e v a ≤ 20319 / 10000 := by
  have hx : 0 ≤ (r - 7 / 24) := by linarith
  have hy : 0 ≤ (5 / 16 - r) := by linarith
  have l0 : 0 ≤ 303279867 / 1900 * (5 / 16 - r) ^ 3 + 1794272409 / 3800 * ((r - 7 / 24) * (5 / 16 - r) ^ 2) + 706994253 / 1520 * ((r - 7 / 24) ^ 2 * (5 / 16 - r)) + 2319292899 / 15200 * (r - 7 / 24) ^ 3 :=
    bern_nonneg hx hy (by norm_num) (by norm_num) (by norm_num) (by norm_num)
  have l1 : 0 ≤ 357660 / 19 * (5 / 16 - r) ^ 3 + 787770 / 19 * ((r - 7 / 24) * (5 / 16 - r) ^ 2) + 494757 / 19 * ((r - 7 / 24) ^ 2 * (5 / 16 - r)) + 130383 / 38 * (r - 7 / 24) ^ 3 :=
    bern_nonneg hx hy (by norm_num) (by norm_num) (by norm_num) (by norm_num)
  have l2 : 0 ≤ 14831073 / 950 * (5 / 16 - r) ^ 3 + 94071771 / 1900 * ((r - 7 / 24) * (5 / 16 - r) ^ 2) + 39485943 / 760 * ((r - 7 / 24) ^ 2 * (5 / 16 - r)) + 137252313 / 7600 * (r - 7 / 24) ^ 3 :=
    bern_nonneg hx hy (by norm_num) (by norm_num) (by norm_num) (by norm_num)
  have ls : 0 ≤ 1353277899 / 23750 * (5 / 16 - r) ^ 3 + 8385236649 / 47500 * ((r - 7 / 24) * (5 / 16 - r) ^ 2) + 17347799601 / 95000 * ((r - 7 / 24) ^ 2 * (5 / 16 - r)) + 11977881939 / 190000 * (r - 7 / 24) ^ 3 :=
    bern_nonneg hx hy (by norm_num) (by norm_num) (by norm_num) (by norm_num)
  have key : 20319 / 10000 - (33 / 100 * glideE0 r e v a + 1 * glideV0 r e v a + 3 / 50 * glideA0 r e v a) =
      (303279867 / 1900 * (5 / 16 - r) ^ 3 + 1794272409 / 3800 * ((r - 7 / 24) * (5 / 16 - r) ^ 2) + 706994253 / 1520 * ((r - 7 / 24) ^ 2 * (5 / 16 - r)) + 2319292899 / 15200 * (r - 7 / 24) ^ 3) * (1 - (e))
      + (357660 / 19 * (5 / 16 - r) ^ 3 + 787770 / 19 * ((r - 7 / 24) * (5 / 16 - r) ^ 2) + 494757 / 19 * ((r - 7 / 24) ^ 2 * (5 / 16 - r)) + 130383 / 38 * (r - 7 / 24) ^ 3) * (81 / 5000 - (-e + 91 / 200 * v + 19 / 200 * a))
      + (14831073 / 950 * (5 / 16 - r) ^ 3 + 94071771 / 1900 * ((r - 7 / 24) * (5 / 16 - r) ^ 2) + 39485943 / 760 * ((r - 7 / 24) ^ 2 * (5 / 16 - r)) + 137252313 / 7600 * (r - 7 / 24) ^ 3) * (1 / 2 - (1 / 2 * e - v))
      + (1353277899 / 23750 * (5 / 16 - r) ^ 3 + 8385236649 / 47500 * ((r - 7 / 24) * (5 / 16 - r) ^ 2) + 17347799601 / 95000 * ((r - 7 / 24) ^ 2 * (5 / 16 - r)) + 11977881939 / 190000 * (r - 7 / 24) ^ 3) := by
    simp only [glideE0, glideV0, glideA0]; ring
  rw [← sub_nonneg, key]
  exact add_nonneg (add_nonneg (add_nonneg (mul_nonneg l0 (sub_nonneg.2 h.f0)) (mul_nonneg l1 (sub_nonneg.2 h.f1))) (mul_nonneg l2 (sub_nonneg.2 h.f7))) ls

theorem glide_0_5_6 {r e v a : K} (h : Gliding e v a) (hl : 5 / 16 ≤ r) (hu : r ≤ 1 / 3) :
    33 / 100 * glideE0 r e v a + 1 * glideV0 r e v a + 3 / 50 * glideA0 r e v a ≤ 20319 / 10000 := by
  have hx : 0 ≤ (r - 5 / 16) := by linarith
  have hy : 0 ≤ (1 / 3 - r) := by linarith
  have l0 : 0 ≤ 68667832107 / 380000 * (1 / 3 - r) ^ 3 + 12700118781 / 23750 * ((r - 5 / 16) * (1 / 3 - r) ^ 2) + 6258668328 / 11875 * ((r - 5 / 16) ^ 2 * (1 / 3 - r)) + 2054635776 / 11875 * (r - 5 / 16) ^ 3 :=
    bern_nonneg hx hy (by norm_num) (by norm_num) (by norm_num) (by norm_num)
  have l1 : 0 ≤ 381083103 / 23750 * (1 / 3 - r) ^ 3 + 384635592 / 11875 * ((r - 5 / 16) * (1 / 3 - r) ^ 2) + 193790592 / 11875 * ((r - 5 / 16) ^ 2 * (1 / 3 - r)) + 36864 / 11875 * (r - 5 / 16) ^ 3 :=
    bern_nonneg hx hy (by norm_num) (by norm_num) (by norm_num) (by norm_num)
  have l2 : 0 ≤ 7658908209 / 190000 * (1 / 3 - r) ^ 3 + 1462447647 / 11875 * ((r - 5 / 16) * (1 / 3 - r) ^ 2) + 1486233072 / 11875 * ((r - 5 / 16) ^ 2 * (1 / 3 - r)) + 502516224 / 11875 * (r - 5 / 16) ^ 3 :=
    bern_nonneg hx hy (by norm_num) (by norm_num) (by norm_num) (by norm_num)
  have l3 : 0 ≤ 16644096 / 625 * (1 / 3 - r) ^ 3 + 49932288 / 625 * ((r - 5 / 16) * (1 / 3 - r) ^ 2) + 49932288 / 625 * ((r - 5 / 16) ^ 2 * (1 / 3 - r)) + 16644096 / 625 * (r - 5 / 16) ^ 3 :=
    bern_nonneg hx hy (by norm_num) (by norm_num) (by norm_num) (by norm_num)
  have ls : 0 ≤ 224278136199 / 23750000 * (1 / 3 - r) ^ 3 + 51724389717 / 1484375 * ((r - 5 / 16) * (1 / 3 - r) ^ 2) + 62048144592 / 1484375 * ((r - 5 / 16) ^ 2 * (1 / 3 - r)) + 24317748864 / 1484375 * (r - 5 / 16) ^ 3 :=
    bern_nonneg hx hy (by norm_num) (by norm_num) (by norm_num) (by norm_num)
  have key : 20319 / 10000 - (33 / 100 * glideE0 r e v a + 1 * glideV0 r e v a + 3 / 50 * glideA0 r e v a) =
      (68667832107 / 380000 * (1 / 3 - r) ^ 3 + 12700118781 / 23750 * ((r - 5 / 16) * (1 / 3 - r) ^ 2) + 6258668328 / 11875 * ((r - 5 / 16) ^ 2 * (1 / 3 - r)) + 2054635776 / 11875 * (r - 5 / 16) ^ 3) * (1 - (e))
      + (381083103 / 23750 * (1 / 3 - r) ^ 3 + 384635592 / 11875 * ((r - 5 / 16) * (1 / 3 - r) ^ 2) + 193790592 / 11875 * ((r - 5 / 16) ^ 2 * (1 / 3 - r)) + 36864 / 11875 * (r - 5 / 16) ^ 3) * (81 / 5000 - (-e + 91 / 200 * v + 19 / 200 * a))
      + (7658908209 / 190000 * (1 / 3 - r) ^ 3 + 1462447647 / 11875 * ((r - 5 / 16) * (1 / 3 - r) ^ 2) + 1486233072 / 11875 * ((r - 5 / 16) ^ 2 * (1 / 3 - r)) + 502516224 / 11875 * (r - 5 / 16) ^ 3) * (1 / 2 - (1 / 2 * e - v))
      + (16644096 / 625 * (1 / 3 - r) ^ 3 + 49932288 / 625 * ((r - 5 / 16) * (1 / 3 - r) ^ 2) + 49932288 / 625 * ((r - 5 / 16) ^ 2 * (1 / 3 - r)) + 16644096 / 625 * (r - 5 / 16) ^ 3) * (5313 / 10000 - (-e + 31 / 50 * v - 9 / 200 * a))
      + (224278136199 / 23750000 * (1 / 3 - r) ^ 3 + 51724389717 / 1484375 * ((r - 5 / 16) * (1 / 3 - r) ^ 2) + 62048144592 / 1484375 * ((r - 5 / 16) ^ 2 * (1 / 3 - r)) + 24317748864 / 1484375 * (r - 5 / 16) ^ 3) := by
    simp only [glideE0, glideV0, glideA0]; ring
  rw [← sub_nonneg, key]
  exact add_nonneg (add_nonneg (add_nonneg (add_nonneg (mul_nonneg l0 (sub_nonneg.2 h.f0)) (mul_nonneg l1 (sub_nonneg.2 h.f1))) (mul_nonneg l2 (sub_nonneg.2 h.f7))) (mul_nonneg l3 (sub_nonneg.2 h.f2))) ls

theorem Gliding.step0_5 {r e v a : K} (h : Gliding e v a) (hl : 0 ≤ r) (hu : r ≤ 1 / 3) :
    33 / 100 * glideE0 r e v a + 1 * glideV0 r e v a + 3 / 50 * glideA0 r e v a ≤ 20319 / 10000 := by
  rcases le_total r (1 / 6) with c0 | c0
  · exact glide_0_5_0 h hl c0
  rcases le_total r (3 / 16) with c1 | c1
  · exact glide_0_5_1 h c0 c1
  rcases le_total r (5 / 24) with c2 | c2
  · exact glide_0_5_2 h c1 c2
  rcases le_total r (1 / 4) with c3 | c3
  · exact glide_0_5_3 h c2 c3
  rcases le_total r (7 / 24) with c4 | c4
  · exact glide_0_5_4 h c3 c4
  rcases le_total r (5 / 16) with c5 | c5
  · exact glide_0_5_5 h c4 c5
  exact glide_0_5_6 h c5 hu

theorem glide_0_6_0 {r e v a : K} (h : Gliding e v a) (hl : 0 ≤ r) (hu : r ≤ 1 / 3) :
    (-1) * glideE0 r e v a + (-(3 / 200)) * glideV0 r e v a ≤ 591 / 10000 := by
  have hx : 0 ≤ r := by linarith
  have hy : 0 ≤ (1 / 3 - r) := by linarith
  have l0 : 0 ≤ 0 * (1 / 3 - r) ^ 3 + 213 / 310 * (r * (1 / 3 - r) ^ 2) + 2139443 / 124000 * (r ^ 2 * (1 / 3 - r)) + 3801629 / 558000 * r ^ 3 :=
    bern_nonneg hx hy (by norm_num) (by norm_num) (by norm_num) (by norm_num)
  have l1 : 0 ≤ 0 * (1 / 3 - r) ^ 3 + 12417 / 310 * (r * (1 / 3 - r) ^ 2) + 5960417 / 124000 * (r ^ 2 * (1 / 3 - r)) + 7967951 / 558000 * r ^ 3 :=
    bern_nonneg hx hy (by norm_num) (by norm_num) (by norm_num) (by norm_num)
  have l2 : 0 ≤ 27 * (1 / 3 - r) ^ 3 + 1248 / 31 * (r * (1 / 3 - r) ^ 2) + 201947 / 12400 * (r ^ 2 * (1 / 3 - r)) + 101141 / 55800 * r ^ 3 :=
    bern_nonneg hx hy (by norm_num) (by norm_num) (by norm_num) (by norm_num)
  have ls : 0 ≤ 0 * (1 / 3 - r) ^ 3 + 116211 / 3100000 * (r * (1 / 3 - r) ^ 2) + 885221851 / 1240000000 * (r ^ 2 * (1 / 3 - r)) + 2997275653 / 5580000000 * r ^ 3 :=
    bern_nonneg hx hy (by norm_num) (by norm_num) (by norm_num) (by norm_num)
  have key : 591 / 10000 - ((-1) * glideE0 r e v a + (-(3 / 200)) * glideV0 r e v a) =
      (0 * (1 / 3 - r) ^ 3 + 213 / 310 * (r * (1 / 3 - r) ^ 2) + 2139443 / 124000 * (r ^ 2 * (1 / 3 - r)) + 3801629 / 558000 * r ^ 3) * (81 / 5000 - (-e + 91 / 200 * v + 19 / 200 * a))
      + (0 * (1 / 3 - r) ^ 3 + 12417 / 310 * (r * (1 / 3 - r) ^ 2) + 5960417 / 124000 * (r ^ 2 * (1 / 3 - r)) + 7967951 / 558000 * r ^ 3) * (589 / 10000 - (-e + 41 / 200 * v - 1 / 200 * a))
      + (27 * (1 / 3 - r) ^ 3 + 1248 / 31 * (r * (1 / 3 - r) ^ 2) + 201947 / 12400 * (r ^ 2 * (1 / 3 - r)) + 101141 / 55800 * r ^ 3) * (591 / 10000 - (-e - 3 / 200 * v))
      + (0 * (1 / 3 - r) ^ 3 + 116211 / 3100000 * (r * (1 / 3 - r) ^ 2) + 885221851 / 1240000000 * (r ^ 2 * (1 / 3 - r)) + 2997275653 / 5580000000 * r ^ 3) := by
    simp only [glideE0, glideV0]; ring
  rw [← sub_nonneg, key]
  exact add_nonneg (add_nonneg (add_nonneg (mul_nonneg l0 (sub_nonneg.2 h.f1)) (mul_nonneg l1 (sub_nonneg.2 h.f4))) (mul_nonneg l2 (sub_nonneg.2 h.f6))) ls

theorem Gliding.step0_6 {r e v a : K} (h : Gliding e v a) (hl : 0 ≤ r) (hu : r ≤ 1 / 3) :
    (-1) * glideE0 r e v a + (-(3 / 200)) * glideV0 r e v a ≤ 591 / 10000 := by
  exact glide_0_6_0 h hl hu

theorem glide_0_7_0 {r e v a : K} (h : Gliding e v a) (hl : 0 ≤ r) (hu : r ≤ 1 / 48) :
    1 / 2 * glideE0 r e v a + (-1) * glideV0 r e v a ≤ 1 / 2 := by
  have hx : 0 ≤ r := by linarith
  have hy : 0 ≤ (1 / 48 - r) := by linarith
  have l0 : 0 ≤ 0 * (1 / 48 - r) ^ 3 + 768 * (r * (1 / 48 - r) ^ 2) + 1090 * (r ^ 2 * (1 / 48 - r)) + 94951 / 288 * r ^ 3 :=
    bern_nonneg hx hy (by norm_num) (by norm_num) (by norm_num) (by norm_num)
  have l1 : 0 ≤ 0 * (1 / 48 - r) ^ 3 + 3840 * (r * (1 / 48 - r) ^ 2) + 7400 * (r ^ 2 * (1 / 48 - r)) + 256595 / 72 * r ^ 3 :=
    bern_nonneg hx hy (by norm_num) (by norm_num) (by norm_num) (by norm_num)
  have l2 : 0 ≤ 110592 * (1 / 48 - r) ^ 3 + 326784 * (r * (1 / 48 - r) ^ 2) + 321640 * (r ^ 2 * (1 / 48 - r)) + 7592521 / 72 * r ^ 3 :=
    bern_nonneg hx hy (by norm_num) (by norm_num) (by norm_num) (by norm_num)
  have ls : 0 ≤ 0 * (1 / 48 - r) ^ 3 + 0 * (r * (1 / 48 - r) ^ 2) + 648 * (r ^ 2 * (1 / 48 - r)) + 2547 / 4 * r ^ 3 :=
    bern_nonneg hx hy (by norm_num) (by norm_num) (by norm_num) (by norm_num)
  have key : 1 / 2 - (1 / 2 * glideE0 r e v a + (-1) * glideV0 r e v a) =
      (0 * (1 / 48 - r) ^ 3 + 768 * (r * (1 / 48 - r) ^ 2) + 1090 * (r ^ 2 * (1 / 48 - r)) + 94951 / 288 * r ^ 3) * (1 - (e))
      + (0 * (1 / 48 - r) ^ 3 + 3840 * (r * (1 / 48 - r) ^ 2) + 7400 * (r ^ 2 * (1 / 48 - r)) + 256595 / 72 * r ^ 3) * (9 / 20 - (9 / 20 * e - v - 3 / 5 * a))
      + (110592 * (1 / 48 - r) ^ 3 + 326784 * (r * (1 / 48 - r) ^ 2) + 321640 * (r ^ 2 * (1 / 48 - r)) + 7592521 / 72 * r ^ 3) * (1 / 2 - (1 / 2 * e - v))
      + (0 * (1 / 48 - r) ^ 3 + 0 * (r * (1 / 48 - r) ^ 2) + 648 * (r ^ 2 * (1 / 48 - r)) + 2547 / 4 * r ^ 3) := by
    simp only [glideE0, glideV0]; ring
  rw [← sub_nonneg, key]
  exact add_nonneg (add_nonneg (add_nonneg (mul_nonneg l0 (sub_nonneg.2 h.f0)) (mul_nonneg l1 (sub_nonneg.2 h.f3))) (mul_nonneg l2 (sub_nonneg.2 h.f7))) ls

theorem glide_0_7_1 {r e v a : K} (h : Gliding e v a) (hl : 1 / 48 ≤ r) (hu : r ≤ 1 / 24) :
    1 / 2 * glideE0 r e v a + (-1) * glideV0 r e v a ≤ 1 / 2 := by
  have hx : 0 ≤ (r - 1 / 48) := by linarith
  have hy : 0 ≤ (1 / 24 - r) := by linarith
  have l0 : 0 ≤ 2338056991 / 4500000 * (1 / 24 - r) ^ 3 + 1093333183 / 750000 * ((r - 1 / 48) * (1 / 24 - r) ^ 2) + 350221279 / 375000 * ((r - 1 / 48) ^ 2 * (1 / 24 - r)) + 1915327 / 562500 * (r - 1 / 48) ^ 3 :=
    bern_nonneg hx hy (by norm_num) (by norm_num) (by norm_num) (by norm_num)
  have l1 : 0 ≤ 810527023 / 225000 * (1 / 24 - r) ^ 3 + 528693199 / 37500 * ((r - 1 / 48) * (1 / 24 - r) ^ 2) + 321026287 / 18750 * ((r - 1 / 48) ^ 2 * (1 / 24 - r)) + 186442831 / 28125 * (r - 1 / 48) ^ 3 :=
    bern_nonneg hx hy (by norm_num) (by norm_num) (by norm_num) (by norm_num)
  have l2 : 0 ≤ 118714342801 / 1125000 * (1 / 24 - r) ^ 3 + 58366241713 / 187500 * ((r - 1 / 48) * (1 / 24 - r) ^ 2) + 28674441169 / 93750 * ((r - 1 / 48) ^ 2 * (1 / 24 - r)) + 14076790897 / 140625 * (r - 1 / 48) ^ 3 :=
    bern_nonneg hx hy (by norm_num) (by norm_num) (by norm_num) (by norm_num)
  have l3 : 0 ≤ 152064 / 625 * (1 / 24 - r) ^ 3 + 456192 / 625 * ((r - 1 / 48) * (1 / 24 - r) ^ 2) + 456192 / 625 * ((r - 1 / 48) ^ 2 * (1 / 24 - r)) + 152064 / 625 * (r - 1 / 48) ^ 3 :=
    bern_nonneg hx hy (by norm_num) (by norm_num) (by norm_num) (by norm_num)
  have ls : 0 ≤ 608603283 / 1562500 * (1 / 24 - r) ^ 3 + 1899037737 / 781250 * ((r - 1 / 48) * (1 / 24 - r) ^ 2) + 1682526681 / 390625 * ((r - 1 / 48) ^ 2 * (1 / 24 - r)) + 880764102 / 390625 * (r - 1 / 48) ^ 3 :=
    bern_nonneg hx hy (by norm_num) (by norm_num) (by norm_num) (by norm_num)
  have key : 1 / 2 - (1 / 2 * glideE0 r e v a + (-1) * glideV0 r e v a) =
      (2338056991 / 4500000 * (1 / 24 - r) ^ 3 + 1093333183 / 750000 * ((r - 1 / 48) * (1 / 24 - r) ^ 2) + 350221279 / 375000 * ((r - 1 / 48) ^ 2 * (1 / 24 - r)) + 1915327 / 562500 * (r - 1 / 48) ^ 3) * (1 - (e))
      + (810527023 / 225000 * (1 / 24 - r) ^ 3 + 528693199 / 37500 * ((r - 1 / 48) * (1 / 24 - r) ^ 2) + 321026287 / 18750 * ((r - 1 / 48) ^ 2 * (1 / 24 - r)) + 186442831 / 28125 * (r - 1 / 48) ^ 3) * (9 / 20 - (9 / 20 * e - v - 3 / 5 * a))
      + (118714342801 / 1125000 * (1 / 24 - r) ^ 3 + 58366241713 / 187500 * ((r - 1 / 48) * (1 / 24 - r) ^ 2) + 28674441169 / 93750 * ((r - 1 / 48) ^ 2 * (1 / 24 - r)) + 14076790897 / 140625 * (r - 1 / 48) ^ 3) * (1 / 2 - (1 / 2 * e - v))
      + (152064 / 625 * (1 / 24 - r) ^ 3 + 456192 / 625 * ((r - 1 / 48) * (1 / 24 - r) ^ 2) + 456192 / 625 * ((r - 1 / 48) ^ 2 * (1 / 24 - r)) + 152064 / 625 * (r - 1 / 48) ^ 3) * (81 / 5000 - (-e + 91 / 200 * v + 19 / 200 * a))
      + (608603283 / 1562500 * (1 / 24 - r) ^ 3 + 1899037737 / 781250 * ((r - 1 / 48) * (1 / 24 - r) ^ 2) + 1682526681 / 390625 * ((r - 1 / 48) ^ 2 * (1 / 24 - r)) + 880764102 / 390625 * (r - 1 / 48) ^ 3) := by
    simp only [glideE0, glideV0]; ring
  rw [← sub_nonneg, key]
  exact add_nonneg (add_nonneg (add_nonneg (add_nonneg (mul_nonneg l0 (sub_nonneg.2 h.f0)) (mul_nonneg l1 (sub_nonneg.2 h.f3))) (mul_nonneg l2 (sub_nonneg.2 h.f7))) (mul_nonneg l3 (sub_nonneg.2 h.f1))) ls

theorem glide_0_7_2 {r e v a : K} (h : Gliding e v a) (hl : 1 / 24 ≤ r) (hu : r ≤ 1 / 12) :
    1 / 2 * glideE0 r e v a + (-1) * glideV0 r e v a ≤ 1 / 2 := by
  have hx : 0 ≤ (r - 1 / 24) := by linarith
  have hy : 0 ≤ (1 / 12 - r) := by linarith
  have l0 : 0 ≤ 167825 / 5619 * (1 / 12 - r) ^ 3 + 722050 / 1873 * ((r - 1 / 24) * (1 / 12 - r) ^ 2) + 1756100 / 1873 * ((r - 1 / 24) ^ 2 * (1 / 12 - r)) + 3214600 / 5619 * (r - 1 / 24) ^ 3 :=
    bern_nonneg hx hy (by norm_num) (by norm_num) (by norm_num) (by norm_num)
  have l1 : 0 ≤ 6207485 / 7492 * (1 / 12 - r) ^ 3 + 12076935 / 3746 * ((r - 1 / 24) * (1 / 12 - r) ^ 2) + 7256535 / 1873 * ((r - 1 / 24) ^ 2 * (1 / 12 - r)) + 2774170 / 1873 * (r - 1 / 24) ^ 3 :=
    bern_nonneg hx hy (by norm_num) (by norm_num) (by norm_num) (by norm_num)
  have l2 : 0 ≤ 562463753 / 44952 * (1 / 12 - r) ^ 3 + 271483481 / 7492 * ((r - 1 / 24) * (1 / 12 - r) ^ 2) + 130908905 / 3746 * ((r - 1 / 24) ^ 2 * (1 / 12 - r)) + 63062969 / 5619 * (r - 1 / 24) ^ 3 :=
    bern_nonneg hx hy (by norm_num) (by norm_num) (by norm_num) (by norm_num)
  have ls : 0 ≤ 317359697 / 1123800 * (1 / 12 - r) ^ 3 + 217408529 / 187300 * ((r - 1 / 24) * (1 / 12 - r) ^ 2) + 140870609 / 93650 * ((r - 1 / 24) ^ 2 * (1 / 12 - r)) + 87745937 / 140475 * (r - 1 / 24) ^ 3 :=
    bern_nonneg hx hy (by norm_num) (by norm_num) (by norm_num) (by norm_num)
  have key : 1 / 2 - (1 / 2 * glideE0 r e v a + (-1) * glideV0 r e v a) =
      (167825 / 5619 * (1 / 12 - r) ^ 3 + 722050 / 1873 * ((r - 1 / 24) * (1 / 12 - r) ^ 2) + 1756100 / 1873 * ((r - 1 / 24) ^ 2 * (1 / 12 - r)) + 3214600 / 5619 * (r - 1 / 24) ^ 3) * (81 / 5000 - (-e + 91 / 200 * v + 19 / 200 * a))
      + (6207485 / 7492 * (1 / 12 - r) ^ 3 + 12076935 / 3746 * ((r - 1 / 24) * (1 / 12 - r) ^ 2) + 7256535 / 1873 * ((r - 1 / 24) ^ 2 * (1 / 12 - r)) + 2774170 / 1873 * (r - 1 / 24) ^ 3) * (9 / 20 - (9 / 20 * e - v - 3 / 5 * a))
      + (562463753 / 44952 * (1 / 12 - r) ^ 3 + 271483481 / 7492 * ((r - 1 / 24) * (1 / 12 - r) ^ 2) + 130908905 / 3746 * ((r - 1 / 24) ^ 2 * (1 / 12 - r)) + 63062969 / 5619 * (r - 1 / 24) ^ 3) * (1 / 2 - (1 / 2 * e - v))
      + (317359697 / 1123800 * (1 / 12 - r) ^ 3 + 217408529 / 187300 * ((r - 1 / 24) * (1 / 12 - r) ^ 2) + 140870609 / 93650 * ((r - 1 / 24) ^ 2 * (1 / 12 - r)) + 87745937 / 140475 * (r - 1 / 24) ^ 3) := by
    simp only [glideE0, glideV0]; ring
  rw [← sub_nonneg, key]
  exact add_nonneg (add_nonneg (add_nonneg (mul_nonneg l0 (sub_nonneg.2 h.f1)) (mul_nonneg l1 (sub_nonneg.2 h.f3))) (mul_nonneg l2 (sub_nonneg.2 h.f7))) ls

theorem glide_0_7_3 {r e v a : K} (h : Gliding e v a) (hl : 1 / 12 ≤ r) (hu : r ≤ 1 / 6) :
    1 / 2 * glideE0 r e v a + (-1) * glideV0 r e v a ≤ 1 / 2 := by
  have hx : 0 ≤ (r - 1 / 12) := by linarith
  have hy : 0 ≤ (1 / 6 - r) := by linarith
  have l0 : 0 ≤ 401825 / 5619 * (1 / 6 - r) ^ 3 + 766450 / 1873 * ((r - 1 / 12) * (1 / 6 - r) ^ 2) + 1343300 / 1873 * ((r - 1 / 12) ^ 2 * (1 / 6 - r)) + 2077000 / 5619 * (r - 1 / 12) ^ 3 :=
    bern_nonneg hx hy (by norm_num) (by norm_num) (by norm_num) (by norm_num)
  have l1 : 0 ≤ 1387085 / 7492 * (1 / 6 - r) ^ 3 + 2613615 / 3746 * ((r - 1 / 12) * (1 / 6 - r) ^ 2) + 1497255 / 1873 * ((r - 1 / 12) ^ 2 * (1 / 6 - r)) + 541450 / 1873 * (r - 1 / 12) ^ 3 :=
    bern_nonneg hx hy (by norm_num) (by norm_num) (by norm_num) (by norm_num)
  have l2 : 0 ≤ 63062969 / 44952 * (1 / 6 - r) ^ 3 + 29140001 / 7492 * ((r - 1 / 12) * (1 / 6 - r) ^ 2) + 13399193 / 3746 * ((r - 1 / 12) ^ 2 * (1 / 6 - r)) + 6130913 / 5619 * (r - 1 / 12) ^ 3 :=
    bern_nonneg hx hy (by norm_num) (by norm_num) (by norm_num) (by norm_num)
  have ls : 0 ≤ 87745937 / 1123800 * (1 / 6 - r) ^ 3 + 61183601 / 187300 * ((r - 1 / 12) * (1 / 6 - r) ^ 2) + 40474577 / 93650 * ((r - 1 / 12) ^ 2 * (1 / 6 - r)) + 5123773 / 28095 * (r - 1 / 12) ^ 3 :=
    bern_nonneg hx hy (by norm_num) (by norm_num) (by norm_num) (by norm_num)
  have key : 1 / 2 - (1 / 2 * glideE0 r e v a + (-1) * glideV0 r e v a) =
      (401825 / 5619 * (1 / 6 - r) ^ 3 + 766450 / 1873 * ((r - 1 / 12) * (1 / 6 - r) ^ 2) + 1343300 / 1873 * ((r - 1 / 12) ^ 2 * (1 / 6 - r)) + 2077000 / 5619 * (r - 1 / 12) ^ 3) * (81 / 5000 - (-e + 91 / 200 * v + 19 / 200 * a))
      + (1387085 / 7492 * (1 / 6 - r) ^ 3 + 2613615 / 3746 * ((r - 1 / 12) * (1 / 6 - r) ^ 2) + 1497255 / 1873 * ((r - 1 / 12) ^ 2 * (1 / 6 - r)) + 541450 / 1873 * (r - 1 / 12) ^ 3) * (9 / 20 - (9 / 20 * e - v - 3 / 5 * a))
      + (63062969 / 44952 * (1 / 6 - r) ^ 3 + 29140001 / 7492 * ((r - 1 / 12) * (1 / 6 - r) ^ 2) + 13399193 / 3746 * ((r - 1 / 12) ^ 2 * (1 / 6 - r)) + 6130913 / 5619 * (r - 1 / 12) ^ 3) * (1 / 2 - (1 / 2 * e - v))
      + (87745937 / 1123800 * (1 / 6 - r) ^ 3 + 61183601 / 187300 * ((r - 1 / 12) * (1 / 6 - r) ^ 2) + 40474577 / 93650 * ((r - 1 / 12) ^ 2 * (1 / 6 - r)) + 5123773 / 28095 * (r - 1 / 12) ^ 3) := by
    simp only [glideE0, glideV0]; ring
  rw [← sub_nonneg, key]
  exact add_nonneg (add_nonneg (add_nonneg (mul_nonneg l0 (sub_nonneg.2 h.f1)) (mul_nonneg l1 (sub_nonneg.2 h.f3))) (mul_nonneg l2 (sub_nonneg.2 h.f7))) ls

theorem glide_0_7_4 {r e v a : K} (h : Gliding e v a) (hl : 1 / 6 ≤ r) (hu : r ≤ 1 / 3) :
    1 / 2 * glideE0 r e v a + (-1) * glideV0 r e v a ≤ 1 / 2 := by
  have hx : 0 ≤ (r - 1 / 6) := by linarith
  have hy : 0 ≤ (1 / 3 - r) := by linarith
  have l0 : 0 ≤ 259625 / 5619 * (1 / 3 - r) ^ 3 + 443050 / 1873 * ((r - 1 / 6) * (1 / 3 - r) ^ 2) + 704900 / 1873 * ((r - 1 / 6) ^ 2 * (1 / 3 - r)) + 989800 / 5619 * (r - 1 / 6) ^ 3 :=
    bern_nonneg hx hy (by norm_num) (by norm_num) (by norm_num) (by norm_num)
  have l1 : 0 ≤ 270725 / 7492 * (1 / 3 - r) ^ 3 + 469635 / 3746 * ((r - 1 / 6) * (1 / 3 - r) ^ 2) + 234915 / 1873 * ((r - 1 / 6) ^ 2 * (1 / 3 - r)) + 72010 / 1873 * (r - 1 / 6) ^ 3 :=
    bern_nonneg hx hy (by norm_num) (by norm_num) (by norm_num) (by norm_num)
  have l2 : 0 ≤ 6130913 / 44952 * (1 / 3 - r) ^ 3 + 2496773 / 7492 * ((r - 1 / 6) * (1 / 3 - r) ^ 2) + 980765 / 3746 * ((r - 1 / 6) ^ 2 * (1 / 3 - r)) + 369185 / 5619 * (r - 1 / 6) ^ 3 :=
    bern_nonneg hx hy (by norm_num) (by norm_num) (by norm_num) (by norm_num)
  have ls : 0 ≤ 5123773 / 224760 * (1 / 3 - r) ^ 3 + 18191009 / 187300 * ((r - 1 / 6) * (1 / 3 - r) ^ 2) + 12226481 / 93650 * ((r - 1 / 6) ^ 2 * (1 / 3 - r)) + 7725281 / 140475 * (r - 1 / 6) ^ 3 :=
    bern_nonneg hx hy (by norm_num) (by norm_num) (by norm_num) (by norm_num)
  have key : 1 / 2 - (1 / 2 * glideE0 r e v a + (-1) * glideV0 r e v a) =
      (259625 / 5619 * (1 / 3 - r) ^ 3 + 443050 / 1873 * ((r - 1 / 6) * (1 / 3 - r) ^ 2) + 704900 / 1873 * ((r - 1 / 6) ^ 2 * (1 / 3 - r)) + 989800 / 5619 * (r - 1 / 6) ^ 3) * (81 / 5000 - (-e + 91 / 200 * v + 19 / 200 * a))
      + (270725 / 7492 * (1 / 3 - r) ^ 3 + 469635 / 3746 * ((r - 1 / 6) * (1 / 3 - r) ^ 2) + 234915 / 1873 * ((r - 1 / 6) ^ 2 * (1 / 3 - r)) + 72010 / 1873 * (r - 1 / 6) ^ 3) * (9 / 20 - (9 / 20 * e - v - 3 / 5 * a))
      + (6130913 / 44952 * (1 / 3 - r) ^ 3 + 2496773 / 7492 * ((r - 1 / 6) * (1 / 3 - r) ^ 2) + 980765 / 3746 * ((r - 1 / 6) ^ 2 * (1 / 3 - r)) + 369185 / 5619 * (r - 1 / 6) ^ 3) * (1 / 2 - (1 / 2 * e - v))
      + (5123773 / 224760 * (1 / 3 - r) ^ 3 + 18191009 / 187300 * ((r - 1 / 6) * (1 / 3 - r) ^ 2) + 12226481 / 93650 * ((r - 1 / 6) ^ 2 * (1 / 3 - r)) + 7725281 / 140475 * (r - 1 / 6) ^ 3) := by
    simp only [glideE0, glideV0]; ring
  rw [← sub_nonneg, key]
  exact add_nonneg (add_nonneg (add_nonneg (mul_nonneg l0 (sub_nonneg.2 h.f1)) (mul_nonneg l1 (sub_nonneg.2 h.f3))) (mul_nonneg l2 (sub_nonneg.2 h.f7))) ls

theorem Gliding.step0_7 {r e v a : K} (h : Gliding e v a) (hl : 0 ≤ r) (hu : r ≤ 1 / 3) :
    1 / 2 * glideE0 r e v a + (-1) * glideV0 r e v a ≤ 1 / 2 := by
  rcases le_total r (1 / 48) with c0 | c0
  · exact glide_0_7_0 h hl c0
  rcases le_total r (1 / 24) with c1 | c1
  · exact glide_0_7_1 h c0 c1
  rcases le_total r (1 / 12) with c2 | c2
  · exact glide_0_7_2 h c1 c2
  rcases le_total r (1 / 6) with c3 | c3
  · exact glide_0_7_3 h c2 c3
  exact glide_0_7_4 h c3 hu

/-- The polytope is kept in piece 0. -/
theorem Gliding.step0 {r e v a : K} (h : Gliding e v a) (hl : 0 ≤ r) (hu : r ≤ 1 / 3) :
    Gliding (glideE0 r e v a) (glideV0 r e v a) (glideA0 r e v a) := by
  have h0 := h.step0_0 hl hu
  have h1 := h.step0_1 hl hu
  have h2 := h.step0_2 hl hu
  have h3 := h.step0_3 hl hu
  have h4 := h.step0_4 hl hu
  have h5 := h.step0_5 hl hu
  have h6 := h.step0_6 hl hu
  have h7 := h.step0_7 hl hu
  constructor <;> linarith

theorem glide_1_0_0 {r e v a : K} (h : Gliding e v a) (hl : 1 / 3 ≤ r) (hu : r ≤ 2 / 3) :
    1 * glideE1 r e v a ≤ 1 := by
  have hx : 0 ≤ (r - 1 / 3) := by linarith
  have hy : 0 ≤ (2 / 3 - r) := by linarith
  have l0 : 0 ≤ 2815 / 144 * (2 / 3 - r) ^ 3 + 271 / 6 * ((r - 1 / 3) * (2 / 3 - r) ^ 2) + 271 / 12 * ((r - 1 / 3) ^ 2 * (2 / 3 - r)) + 271 / 72 * (r - 1 / 3) ^ 3 :=
    bern_nonneg hx hy (by norm_num) (by norm_num) (by norm_num) (by norm_num)
  have l1 : 0 ≤ 35 / 36 * (2 / 3 - r) ^ 3 + 10 / 3 * ((r - 1 / 3) * (2 / 3 - r) ^ 2) + 5 / 3 * ((r - 1 / 3) ^ 2 * (2 / 3 - r)) + 5 / 18 * (r - 1 / 3) ^ 3 :=
    bern_nonneg hx hy (by norm_num) (by norm_num) (by norm_num) (by norm_num)
  have l2 : 0 ≤ 181 / 36 * (2 / 3 - r) ^ 3 + 44 / 3 * ((r - 1 / 3) * (2 / 3 - r) ^ 2) + 22 / 3 * ((r - 1 / 3) ^ 2 * (2 / 3 - r)) + 11 / 9 * (r - 1 / 3) ^ 3 :=
    bern_nonneg hx hy (by norm_num) (by norm_num) (by norm_num) (by norm_num)
  have ls : 0 ≤ 9 / 2 * (2 / 3 - r) ^ 3 + 27 * ((r - 1 / 3) * (2 / 3 - r) ^ 2) + 54 * ((r - 1 / 3) ^ 2 * (2 / 3 - r)) + 45 / 2 * (r - 1 / 3) ^ 3 :=
    bern_nonneg hx hy (by norm_num) (by norm_num) (by norm_num) (by norm_num)
  have key : 1 - (1 * glideE1 r e v a) =
      (2815 / 144 * (2 / 3 - r) ^ 3 + 271 / 6 * ((r - 1 / 3) * (2 / 3 - r) ^ 2) + 271 / 12 * ((r - 1 / 3) ^ 2 * (2 / 3 - r)) + 271 / 72 * (r - 1 / 3) ^ 3) * (1 - (e))
      + (35 / 36 * (2 / 3 - r) ^ 3 + 10 / 3 * ((r - 1 / 3) * (2 / 3 - r) ^ 2) + 5 / 3 * ((r - 1 / 3) ^ 2 * (2 / 3 - r)) + 5 / 18 * (r - 1 / 3) ^ 3) * (9 / 20 - (9 / 20 * e - v - 3 / 5 * a))
      + (181 / 36 * (2 / 3 - r) ^ 3 + 44 / 3 * ((r - 1 / 3) * (2 / 3 - r) ^ 2) + 22 / 3 * ((r - 1 / 3) ^ 2 * (2 / 3 - r)) + 11 / 9 * (r - 1 / 3) ^ 3) * (1 / 2 - (1 / 2 * e - v))
      + (9 / 2 * (2 / 3 - r) ^ 3 + 27 * ((r - 1 / 3) * (2 / 3 - r) ^ 2) + 54 * ((r - 1 / 3) ^ 2 * (2 / 3 - r)) + 45 / 2 * (r - 1 / 3) ^ 3) := by
    simp only [glideE1]; ring
  rw [← sub_nonneg, key]
  exact add_nonneg (add_nonneg (add_nonneg (mul_nonneg l0 (sub_nonneg.2 h.f0)) (mul_nonneg l1 (sub_nonneg.2 h.f3))) (mul_nonneg l2 (sub_nonneg.2 h.f7))) ls

theorem Gliding.step1_0 {r e v a : K} (h : Gliding e v a) (hl : 1 / 3 ≤ r) (hu : r ≤ 2 / 3) :
    1 * glideE1 r e v a ≤ 1 := by
  exact glide_1_0_0 h hl hu

theorem glide_1_1_0 {r e v a : K} (h : Gliding e v a) (hl : 1 / 3 ≤ r) (hu : r ≤ 5 / 12) :
    (-1) * glideE1 r e v a + 91 / 200 * glideV1 r e v a + 19 / 200 * glideA1 r e v a ≤ 81 / 5000 := by
  have hx : 0 ≤ (r - 1 / 3) := by linarith
  have hy : 0 ≤ (5 / 12 - r) := by linarith
  have l0 : 0 ≤ 668 / 45 * (5 / 12 - r) ^ 3 + 1223 / 30 * ((r - 1 / 3) * (5 / 12 - r) ^ 2) + 451 / 12 * ((r - 1 / 3) ^ 2 * (5 / 12 - r)) + 3301 / 288 * (r - 1 / 3) ^ 3 :=
    bern_nonneg hx hy (by norm_num) (by norm_num) (by norm_num) (by norm_num)
  have l1 : 0 ≤ 83728 / 3627 * (5 / 12 - r) ^ 3 + 55010 / 1209 * ((r - 1 / 3) * (5 / 12 - r) ^ 2) + 28741 / 1209 * ((r - 1 / 3) ^ 2 * (5 / 12 - r)) + 79507 / 29016 * (r - 1 / 3) ^ 3 :=
    bern_nonneg hx hy (by norm_num) (by norm_num) (by norm_num) (by norm_num)
  have l2 : 0 ≤ 699454 / 18135 * (5 / 12 - r) ^ 3 + 13094779 / 120900 * ((r - 1 / 3) * (5 / 12 - r) ^ 2) + 24731323 / 241800 * ((r - 1 / 3) ^ 2 * (5 / 12 - r)) + 184510381 / 5803200 * (r - 1 / 3) ^ 3 :=
    bern_nonneg hx hy (by norm_num) (by norm_num) (by norm_num) (by norm_num)
  have ls : 0 ≤ 1506689 / 2266875 * (5 / 12 - r) ^ 3 + 53143481 / 6045000 * ((r - 1 / 3) * (5 / 12 - r) ^ 2) + 175586741 / 12090000 * ((r - 1 / 3) ^ 2 * (5 / 12 - r)) + 1966283939 / 290160000 * (r - 1 / 3) ^ 3 :=
    bern_nonneg hx hy (by norm_num) (by norm_num) (by norm_num) (by norm_num)
  have key : 81 / 5000 - ((-1) * glideE1 r e v a + 91 / 200 * glideV1 r e v a + 19 / 200 * glideA1 r e v a) =
      (668 / 45 * (5 / 12 - r) ^ 3 + 1223 / 30 * ((r - 1 / 3) * (5 / 12 - r) ^ 2) + 451 / 12 * ((r - 1 / 3) ^ 2 * (5 / 12 - r)) + 3301 / 288 * (r - 1 / 3) ^ 3) * (9 / 20 - (9 / 20 * e - v - 3 / 5 * a))
      + (83728 / 3627 * (5 / 12 - r) ^ 3 + 55010 / 1209 * ((r - 1 / 3) * (5 / 12 - r) ^ 2) + 28741 / 1209 * ((r - 1 / 3) ^ 2 * (5 / 12 - r)) + 79507 / 29016 * (r - 1 / 3) ^ 3) * (591 / 10000 - (-e - 3 / 200 * v))
      + (699454 / 18135 * (5 / 12 - r) ^ 3 + 13094779 / 120900 * ((r - 1 / 3) * (5 / 12 - r) ^ 2) + 24731323 / 241800 * ((r - 1 / 3) ^ 2 * (5 / 12 - r)) + 184510381 / 5803200 * (r - 1 / 3) ^ 3) * (1 / 2 - (1 / 2 * e - v))
      + (1506689 / 2266875 * (5 / 12 - r) ^ 3 + 53143481 / 6045000 * ((r - 1 / 3) * (5 / 12 - r) ^ 2) + 175586741 / 12090000 * ((r - 1 / 3) ^ 2 * (5 / 12 - r)) + 1966283939 / 290160000 * (r - 1 / 3) ^ 3) := by
    simp only [glideE1, glideV1, glideA1]; ring
  rw [← sub_nonneg, key]
  exact add_nonneg (add_nonneg (add_nonneg (mul_nonneg l0 (sub_nonneg.2 h.f3)) (mul_nonneg l1 (sub_nonneg.2 h.f6))) (mul_nonneg l2 (sub_nonneg.2 h.f7))) ls

theorem glide_1_1_1 {r e v a : K} (h : Gliding e v a) (hl : 5 / 12 ≤ r) (hu : r ≤ 7 / 16) :
    (-1) * glideE1 r e v a + 91 / 200 * glideV1 r e v a + 19 / 200 * glideA1 r e v a ≤ 81 / 5000 := by
  have hx : 0 ≤ (r - 5 / 12) := by linarith
  have hy : 0 ≤ (7 / 16 - r) := by linarith
  have l0 : 0 ≤ 1283693 / 281250 * (7 / 16 - r) ^ 3 + 33049299 / 125000 * ((r - 5 / 12) * (7 / 16 - r) ^ 2) + 245104071 / 500000 * ((r - 5 / 12) ^ 2 * (7 / 16 - r)) + 457968553 / 2000000 * (r - 5 / 12) ^ 3 :=
    bern_nonneg hx hy (by norm_num) (by norm_num) (by norm_num) (by norm_num)
  have l1 : 0 ≤ 21665458 / 28125 * (7 / 16 - r) ^ 3 + 14123847 / 6250 * ((r - 5 / 12) * (7 / 16 - r) ^ 2) + 55214763 / 25000 * ((r - 5 / 12) ^ 2 * (7 / 16 - r)) + 71890309 / 100000 * (r - 5 / 12) ^ 3 :=
    bern_nonneg hx hy (by norm_num) (by norm_num) (by norm_num) (by norm_num)
  have l2 : 0 ≤ 296210146 / 140625 * (7 / 16 - r) ^ 3 + 193908639 / 31250 * ((r - 5 / 12) * (7 / 16 - r) ^ 2) + 760988931 / 125000 * ((r - 5 / 12) ^ 2 * (7 / 16 - r)) + 994247533 / 500000 * (r - 5 / 12) ^ 3 :=
    bern_nonneg hx hy (by norm_num) (by norm_num) (by norm_num) (by norm_num)
  have l3 : 0 ≤ 145152 / 625 * (7 / 16 - r) ^ 3 + 435456 / 625 * ((r - 5 / 12) * (7 / 16 - r) ^ 2) + 435456 / 625 * ((r - 5 / 12) ^ 2 * (7 / 16 - r)) + 145152 / 625 * (r - 5 / 12) ^ 3 :=
    bern_nonneg hx hy (by norm_num) (by norm_num) (by norm_num) (by norm_num)
  have ls : 0 ≤ 149775336 / 390625 * (7 / 16 - r) ^ 3 + 382669758 / 390625 * ((r - 5 / 12) * (7 / 16 - r) ^ 2) + 652698891 / 781250 * ((r - 5 / 12) ^ 2 * (7 / 16 - r)) + 753405813 / 3125000 * (r - 5 / 12) ^ 3 :=
    bern_nonneg hx hy (by norm_num) (by norm_num) (by norm_num) (by norm_num)
  have key : 81 / 5000 - ((-1) * glideE1 r e v a + 91 / 200 * glideV1 r e v a + 19 / 200 * glideA1 r e v a) =
      (1283693 / 281250 * (7 / 16 - r) ^ 3 + 33049299 / 125000 * ((r - 5 / 12) * (7 / 16 - r) ^ 2) + 245104071 / 500000 * ((r - 5 / 12) ^ 2 * (7 / 16 - r)) + 457968553 / 2000000 * (r - 5 / 12) ^ 3) * (1 - (e))
      + (21665458 / 28125 * (7 / 16 - r) ^ 3 + 14123847 / 6250 * ((r - 5 / 12) * (7 / 16 - r) ^ 2) + 55214763 / 25000 * ((r - 5 / 12) ^ 2 * (7 / 16 - r)) + 71890309 / 100000 * (r - 5 / 12) ^ 3) * (9 / 20 - (9 / 20 * e - v - 3 / 5 * a))
      + (296210146 / 140625 * (7 / 16 - r) ^ 3 + 193908639 / 31250 * ((r - 5 / 12) * (7 / 16 - r) ^ 2) + 760988931 / 125000 * ((r - 5 / 12) ^ 2 * (7 / 16 - r)) + 994247533 / 500000 * (r - 5 / 12) ^ 3) * (1 / 2 - (1 / 2 * e - v))
      + (145152 / 625 * (7 / 16 - r) ^ 3 + 435456 / 625 * ((r - 5 / 12) * (7 / 16 - r) ^ 2) + 435456 / 625 * ((r - 5 / 12) ^ 2 * (7 / 16 - r)) + 145152 / 625 * (r - 5 / 12) ^ 3) * (81 / 5000 - (-e + 91 / 200 * v + 19 / 200 * a))
      + (149775336 / 390625 * (7 / 16 - r) ^ 3 + 382669758 / 390625 * ((r - 5 / 12) * (7 / 16 - r) ^ 2) + 652698891 / 781250 * ((r - 5 / 12) ^ 2 * (7 / 16 - r)) + 753405813 / 3125000 * (r - 5 / 12) ^ 3) := by
    simp only [glideE1, glideV1, glideA1]; ring
  rw [← sub_nonneg, key]
  exact add_nonneg (add_nonneg (add_nonneg (add_nonneg (mul_nonneg l0 (sub_nonneg.2 h.f0)) (mul_nonneg l1 (sub_nonneg.2 h.f3))) (mul_nonneg l2 (sub_nonneg.2 h.f7))) (mul_nonneg l3 (sub_nonneg.2 h.f1))) ls

theorem glide_1_1_2 {r e v a : K} (h : Gliding e v a) (hl : 7 / 16 ≤ r) (hu : r ≤ 11 / 24) :
    (-1) * glideE1 r e v a + 91 / 200 * glideV1 r e v a + 19 / 200 * glideA1 r e v a ≤ 81 / 5000 := by
  have hx : 0 ≤ (r - 7 / 16) := by linarith
  have hy : 0 ≤ (11 / 24 - r) := by linarith
  have l0 : 0 ≤ 152761 / 3200 * (11 / 24 - r) ^ 3 + 543933 / 1600 * ((r - 7 / 16) * (11 / 24 - r) ^ 2) + 406107 / 800 * ((r - 7 / 16) ^ 2 * (11 / 24 - r)) + 770471 / 3600 * (r - 7 / 16) ^ 3 :=
    bern_nonneg hx hy (by norm_num) (by norm_num) (by norm_num) (by norm_num)
  have l1 : 0 ≤ 109141 / 160 * (11 / 24 - r) ^ 3 + 159561 / 80 * ((r - 7 / 16) * (11 / 24 - r) ^ 2) + 77679 / 40 * ((r - 7 / 16) ^ 2 * (11 / 24 - r)) + 113291 / 180 * (r - 7 / 16) ^ 3 :=
    bern_nonneg hx hy (by norm_num) (by norm_num) (by norm_num) (by norm_num)
  have l2 : 0 ≤ 1535677 / 800 * (11 / 24 - r) ^ 3 + 450909 / 80 * ((r - 7 / 16) * (11 / 24 - r) ^ 2) + 220347 / 40 * ((r - 7 / 16) ^ 2 * (11 / 24 - r)) + 1612067 / 900 * (r - 7 / 16) ^ 3 :=
    bern_nonneg hx hy (by norm_num) (by norm_num) (by norm_num) (by norm_num)
  have ls : 0 ≤ 2385477 / 5000 * (11 / 24 - r) ^ 3 + 3297753 / 2500 * ((r - 7 / 16) * (11 / 24 - r) ^ 2) + 1548639 / 1250 * ((r - 7 / 16) ^ 2 * (11 / 24 - r)) + 249219 / 625 * (r - 7 / 16) ^ 3 :=
    bern_nonneg hx hy (by norm_num) (by norm_num) (by norm_num) (by norm_num)
  have key : 81 / 5000 - ((-1) * glideE1 r e v a + 91 / 200 * glideV1 r e v a + 19 / 200 * glideA1 r e v a) =
      (152761 / 3200 * (11 / 24 - r) ^ 3 + 543933 / 1600 * ((r - 7 / 16) * (11 / 24 - r) ^ 2) + 406107 / 800 * ((r - 7 / 16) ^ 2 * (11 / 24 - r)) + 770471 / 3600 * (r - 7 / 16) ^ 3) * (1 - (e))
      + (109141 / 160 * (11 / 24 - r) ^ 3 + 159561 / 80 * ((r - 7 / 16) * (11 / 24 - r) ^ 2) + 77679 / 40 * ((r - 7 / 16) ^ 2 * (11 / 24 - r)) + 113291 / 180 * (r - 7 / 16) ^ 3) * (9 / 20 - (9 / 20 * e - v - 3 / 5 * a))
      + (1535677 / 800 * (11 / 24 - r) ^ 3 + 450909 / 80 * ((r - 7 / 16) * (11 / 24 - r) ^ 2) + 220347 / 40 * ((r - 7 / 16) ^ 2 * (11 / 24 - r)) + 1612067 / 900 * (r - 7 / 16) ^ 3) * (1 / 2 - (1 / 2 * e - v))
      + (2385477 / 5000 * (11 / 24 - r) ^ 3 + 3297753 / 2500 * ((r - 7 / 16) * (11 / 24 - r) ^ 2) + 1548639 / 1250 * ((r - 7 / 16) ^ 2 * (11 / 24 - r)) + 249219 / 625 * (r - 7 / 16) ^ 3) := by
    simp only [glideE1, glideV1, glideA1]; ring
  rw [← sub_nonneg, key]
  exact add_nonneg (add_nonneg (add_nonneg (mul_nonneg l0 (sub_nonneg.2 h.f0)) (mul_nonneg l1 (sub_nonneg.2 h.f3))) (mul_nonneg l2 (sub_nonneg.2 h.f7))) ls

theorem glide_1_1_3 {r e v a : K} (h : Gliding e v a) (hl : 11 / 24 ≤ r) (hu : r ≤ 1 / 2) :
    (-1) * glideE1 r e v a + 91 / 200 * glideV1 r e v a + 19 / 200 * glideA1 r e v a ≤ 81 / 5000 := by
  have hx : 0 ≤ (r - 11 / 24) := by linarith
  have hy : 0 ≤ (1 / 2 - r) := by linarith
  have l0 : 0 ≤ 770471 / 28800 * (1 / 2 - r) ^ 3 + 91091 / 800 * ((r - 11 / 24) * (1 / 2 - r) ^ 2) + 26169 / 200 * ((r - 11 / 24) ^ 2 * (1 / 2 - r)) + 2117 / 50 * (r - 11 / 24) ^ 3 :=
    bern_nonneg hx hy (by norm_num) (by norm_num) (by norm_num) (by norm_num)
  have l1 : 0 ≤ 113291 / 1440 * (1 / 2 - r) ^ 3 + 8903 / 40 * ((r - 11 / 24) * (1 / 2 - r) ^ 2) + 417 / 2 * ((r - 11 / 24) ^ 2 * (1 / 2 - r)) + 322 / 5 * (r - 11 / 24) ^ 3 :=
    bern_nonneg hx hy (by norm_num) (by norm_num) (by norm_num) (by norm_num)
  have l2 : 0 ≤ 1612067 / 7200 * (1 / 2 - r) ^ 3 + 127583 / 200 * ((r - 11 / 24) * (1 / 2 - r) ^ 2) + 30021 / 50 * ((r - 11 / 24) ^ 2 * (1 / 2 - r)) + 4642 / 25 * (r - 11 / 24) ^ 3 :=
    bern_nonneg hx hy (by norm_num) (by norm_num) (by norm_num) (by norm_num)
  have ls : 0 ≤ 249219 / 5000 * (1 / 2 - r) ^ 3 + 173583 / 1250 * ((r - 11 / 24) * (1 / 2 - r) ^ 2) + 91854 / 625 * ((r - 11 / 24) ^ 2 * (1 / 2 - r)) + 37368 / 625 * (r - 11 / 24) ^ 3 :=
    bern_nonneg hx hy (by norm_num) (by norm_num) (by norm_num) (by norm_num)
  have key : 81 / 5000 - ((-1) * glideE1 r e v a + 91 / 200 * glideV1 r e v a + 19 / 200 * glideA1 r e v a) =
      (770471 / 28800 * (1 / 2 - r) ^ 3 + 91091 / 800 * ((r - 11 / 24) * (1 / 2 - r) ^ 2) + 26169 / 200 * ((r - 11 / 24) ^ 2 * (1 / 2 - r)) + 2117 / 50 * (r - 11 / 24) ^ 3) * (1 - (e))
      + (113291 / 1440 * (1 / 2 - r) ^ 3 + 8903 / 40 * ((r - 11 / 24) * (1 / 2 - r) ^ 2) + 417 / 2 * ((r - 11 / 24) ^ 2 * (1 / 2 - r)) + 322 / 5 * (r - 11 / 24) ^ 3) * (9 / 20 - (9 / 20 * e - v - 3 / 5 * a))
      + (1612067 / 7200 * (1 / 2 - r) ^ 3 + 127583 / 200 * ((r - 11 / 24) * (1 / 2 - r) ^ 2) + 30021 / 50 * ((r - 11 / 24) ^ 2 * (1 / 2 - r)) + 4642 / 25 * (r - 11 / 24) ^ 3) * (1 / 2 - (1 / 2 * e - v))
      + (249219 / 5000 * (1 / 2 - r) ^ 3 + 173583 / 1250 * ((r - 11 / 24) * (1 / 2 - r) ^ 2) + 91854 / 625 * ((r - 11 / 24) ^ 2 * (1 / 2 - r)) + 37368 / 625 * (r - 11 / 24) ^ 3) := by
    simp only [glideE1, glideV1, glideA1]; ring
  rw [← sub_nonneg, key]
  exact add_nonneg (add_nonneg (add_nonneg (mul_nonneg l0 (sub_nonneg.2 h.f0)) (mul_nonneg l1 (sub_nonneg.2 h.f3))) (mul_nonneg l2 (sub_nonneg.2 h.f7))) ls

theorem glide_1_1_4 {r e v a : K} (h : Gliding e v a) (hl : 1 / 2 ≤ r) (hu : r ≤ 13 / 24) :
    (-1) * glideE1 r e v a + 91 / 200 * glideV1 r e v a + 19 / 200 * glideA1 r e v a ≤ 81 / 5000 := by
  have hx : 0 ≤ (r - 1 / 2) := by linarith
  have hy : 0 ≤ (13 / 24 - r) := by linarith
  have l0 : 0 ≤ 2117 / 50 * (13 / 24 - r) ^ 3 + 24639 / 200 * ((r - 1 / 2) * (13 / 24 - r) ^ 2) + 78851 / 800 * ((r - 1 / 2) ^ 2 * (13 / 24 - r)) + 469873 / 28800 * (r - 1 / 2) ^ 3 :=
    bern_nonneg hx hy (by norm_num) (by norm_num) (by norm_num) (by norm_num)
  have l1 : 0 ≤ 322 / 5 * (13 / 24 - r) ^ 3 + 1779 / 10 * ((r - 1 / 2) * (13 / 24 - r) ^ 2) + 1291 / 8 * ((r - 1 / 2) ^ 2 * (13 / 24 - r)) + 68653 / 1440 * (r - 1 / 2) ^ 3 :=
    bern_nonneg hx hy (by norm_num) (by norm_num) (by norm_num) (by norm_num)
  have l2 : 0 ≤ 4642 / 25 * (13 / 24 - r) ^ 3 + 25683 / 50 * ((r - 1 / 2) * (13 / 24 - r) ^ 2) + 92879 / 200 * ((r - 1 / 2) ^ 2 * (13 / 24 - r)) + 976981 / 7200 * (r - 1 / 2) ^ 3 :=
    bern_nonneg hx hy (by norm_num) (by norm_num) (by norm_num) (by norm_num)
  have ls : 0 ≤ 37368 / 625 * (13 / 24 - r) ^ 3 + 132354 / 625 * ((r - 1 / 2) * (13 / 24 - r) ^ 2) + 335583 / 1250 * ((r - 1 / 2) ^ 2 * (13 / 24 - r)) + 591669 / 5000 * (r - 1 / 2) ^ 3 :=
    bern_nonneg hx hy (by norm_num) (by norm_num) (by norm_num) (by norm_num)
  have key : 81 / 5000 - ((-1) * glideE1 r e v a + 91 / 200 * glideV1 r e v a + 19 / 200 * glideA1 r e v a) =
      (2117 / 50 * (13 / 24 - r) ^ 3 + 24639 / 200 * ((r - 1 / 2) * (13 / 24 - r) ^ 2) + 78851 / 800 * ((r - 1 / 2) ^ 2 * (13 / 24 - r)) + 469873 / 28800 * (r - 1 / 2) ^ 3) * (1 - (e))
      + (322 / 5 * (13 / 24 - r) ^ 3 + 1779 / 10 * ((r - 1 / 2) * (13 / 24 - r) ^ 2) + 1291 / 8 * ((r - 1 / 2) ^ 2 * (13 / 24 - r)) + 68653 / 1440 * (r - 1 / 2) ^ 3) * (9 / 20 - (9 / 20 * e - v - 3 / 5 * a))
      + (4642 / 25 * (13 / 24 - r) ^ 3 + 25683 / 50 * ((r - 1 / 2) * (13 / 24 - r) ^ 2) + 92879 / 200 * ((r - 1 / 2) ^ 2 * (13 / 24 - r)) + 976981 / 7200 * (r - 1 / 2) ^ 3) * (1 / 2 - (1 / 2 * e - v))
      + (37368 / 625 * (13 / 24 - r) ^ 3 + 132354 / 625 * ((r - 1 / 2) * (13 / 24 - r) ^ 2) + 335583 / 1250 * ((r - 1 / 2) ^ 2 * (13 / 24 - r)) + 591669 / 5000 * (r - 1 / 2) ^ 3) := by
    simp only [glideE1, glideV1, glideA1]; ring
  rw [← sub_nonneg, key]
  exact add_nonneg (add_nonneg (add_nonneg (mul_nonneg l0 (sub_nonneg.2 h.f0)) (mul_nonneg l1 (sub_nonneg.2 h.f3))) (mul_nonneg l2 (sub_nonneg.2 h.f7))) ls

theorem glide_1_1_5 {r e v a : K} (h : Gliding e v a) (hl : 13 / 24 ≤ r) (hu : r ≤ 9 / 16) :
    (-1) * glideE1 r e v a + 91 / 200 * glideV1 r e v a + 19 / 200 * glideA1 r e v a ≤ 81 / 5000 := by
  have hx : 0 ≤ (r - 13 / 24) := by linarith
  have hy : 0 ≤ (9 / 16 - r) := by linarith
  have l0 : 0 ≤ 565540321 / 2250000 * (9 / 16 - r) ^ 3 + 277789589 / 500000 * ((r - 13 / 24) * (9 / 16 - r) ^ 2) + 307129803 / 1000000 * ((r - 13 / 24) ^ 2 * (9 / 16 - r)) + 3016327 / 2000000 * (r - 13 / 24) ^ 3 :=
    bern_nonneg hx hy (by norm_num) (by norm_num) (by norm_num) (by norm_num)
  have l1 : 0 ≤ 45666013 / 112500 * (9 / 16 - r) ^ 3 + 28609217 / 25000 * ((r - 13 / 24) * (9 / 16 - r) ^ 2) + 53366559 / 50000 * ((r - 13 / 24) ^ 2 * (9 / 16 - r)) + 32868331 / 100000 * (r - 13 / 24) ^ 3 :=
    bern_nonneg hx hy (by norm_num) (by norm_num) (by norm_num) (by norm_num)
  have l2 : 0 ≤ 636450181 / 562500 * (9 / 16 - r) ^ 3 + 395640329 / 125000 * ((r - 13 / 24) * (9 / 16 - r) ^ 2) + 729933783 / 250000 * ((r - 13 / 24) ^ 2 * (9 / 16 - r)) + 442678147 / 500000 * (r - 13 / 24) ^ 3 :=
    bern_nonneg hx hy (by norm_num) (by norm_num) (by norm_num) (by norm_num)
  have l3 : 0 ≤ 96768 / 625 * (9 / 16 - r) ^ 3 + 290304 / 625 * ((r - 13 / 24) * (9 / 16 - r) ^ 2) + 290304 / 625 * ((r - 13 / 24) ^ 2 * (9 / 16 - r)) + 96768 / 625 * (r - 13 / 24) ^ 3 :=
    bern_nonneg hx hy (by norm_num) (by norm_num) (by norm_num) (by norm_num)
  have ls : 0 ≤ 308333349 / 390625 * (9 / 16 - r) ^ 3 + 2120421969 / 781250 * ((r - 13 / 24) * (9 / 16 - r) ^ 2) + 4874922063 / 1562500 * ((r - 13 / 24) ^ 2 * (9 / 16 - r)) + 3740588667 / 3125000 * (r - 13 / 24) ^ 3 :=
    bern_nonneg hx hy (by norm_num) (by norm_num) (by norm_num) (by norm_num)
  have key : 81 / 5000 - ((-1) * glideE1 r e v a + 91 / 200 * glideV1 r e v a + 19 / 200 * glideA1 r e v a) =
      (565540321 / 2250000 * (9 / 16 - r) ^ 3 + 277789589 / 500000 * ((r - 13 / 24) * (9 / 16 - r) ^ 2) + 307129803 / 1000000 * ((r - 13 / 24) ^ 2 * (9 / 16 - r)) + 3016327 / 2000000 * (r - 13 / 24) ^ 3) * (1 - (e))
      + (45666013 / 112500 * (9 / 16 - r) ^ 3 + 28609217 / 25000 * ((r - 13 / 24) * (9 / 16 - r) ^ 2) + 53366559 / 50000 * ((r - 13 / 24) ^ 2 * (9 / 16 - r)) + 32868331 / 100000 * (r - 13 / 24) ^ 3) * (9 / 20 - (9 / 20 * e - v - 3 / 5 * a))
      + (636450181 / 562500 * (9 / 16 - r) ^ 3 + 395640329 / 125000 * ((r - 13 / 24) * (9 / 16 - r) ^ 2) + 729933783 / 250000 * ((r - 13 / 24) ^ 2 * (9 / 16 - r)) + 442678147 / 500000 * (r - 13 / 24) ^ 3) * (1 / 2 - (1 / 2 * e - v))
      + (96768 / 625 * (9 / 16 - r) ^ 3 + 290304 / 625 * ((r - 13 / 24) * (9 / 16 - r) ^ 2) + 290304 / 625 * ((r - 13 / 24) ^ 2 * (9 / 16 - r)) + 96768 / 625 * (r - 13 / 24) ^ 3) * (81 / 5000 - (-e + 91 / 200 * v + 19 / 200 * a))
      + (308333349 / 390625 * (9 / 16 - r) ^ 3 + 2120421969 / 781250 * ((r - 13 / 24) * (9 / 16 - r) ^ 2) + 4874922063 / 1562500 * ((r - 13 / 24) ^ 2 * (9 / 16 - r)) + 3740588667 / 3125000 * (r - 13 / 24) ^ 3) := by
    simp only [glideE1, glideV1, glideA1]; ring
  rw [← sub_nonneg, key]
  exact add_nonneg (add_nonneg (add_nonneg (add_nonneg (mul_nonneg l0 (sub_nonneg.2 h.f0)) (mul_nonneg l1 (sub_nonneg.2 h.f3))) (mul_nonneg l2 (sub_nonneg.2 h.f7))) (mul_nonneg l3 (sub_nonneg.2 h.f1))) ls

theorem glide_1_1_6 {r e v a : K} (h : Gliding e v a) (hl : 9 / 16 ≤ r) (hu : r ≤ 7 / 12) :
    (-1) * glideE1 r e v a + 91 / 200 * glideV1 r e v a + 19 / 200 * glideA1 r e v a ≤ 81 / 5000 := by
  have hx : 0 ≤ (r - 9 / 16) := by linarith
  have hy : 0 ≤ (7 / 12 - r) := by linarith
  have l0 : 0 ≤ 1145499 / 7492 * (7 / 12 - r) ^ 3 + 1585377 / 1873 * ((r - 9 / 16) * (7 / 12 - r) ^ 2) + 2441604 / 1873 * ((r - 9 / 16) ^ 2 * (7 / 12 - r)) + 3437840 / 5619 * (r - 9 / 16) ^ 3 :=
    bern_nonneg hx hy (by norm_num) (by norm_num) (by norm_num) (by norm_num)
  have l1 : 0 ≤ 49204059 / 149840 * (7 / 12 - r) ^ 3 + 36158049 / 37460 * ((r - 9 / 16) * (7 / 12 - r) ^ 2) + 8916417 / 9365 * ((r - 9 / 16) ^ 2 * (7 / 12 - r)) + 590588 / 1873 * (r - 9 / 16) ^ 3 :=
    bern_nonneg hx hy (by norm_num) (by norm_num) (by norm_num) (by norm_num)
  have l2 : 0 ≤ 1325758821 / 1498400 * (7 / 12 - r) ^ 3 + 187728147 / 74920 * ((r - 9 / 16) * (7 / 12 - r) ^ 2) + 44191347 / 18730 * ((r - 9 / 16) ^ 2 * (7 / 12 - r)) + 4148302 / 5619 * (r - 9 / 16) ^ 3 :=
    bern_nonneg hx hy (by norm_num) (by norm_num) (by norm_num) (by norm_num)
  have ls : 0 ≤ 8982549813 / 7492000 * (7 / 12 - r) ^ 3 + 34405527051 / 9365000 * ((r - 9 / 16) * (7 / 12 - r) ^ 2) + 8769184491 / 2341250 * ((r - 9 / 16) ^ 2 * (7 / 12 - r)) + 4462380406 / 3511875 * (r - 9 / 16) ^ 3 :=
    bern_nonneg hx hy (by norm_num) (by norm_num) (by norm_num) (by norm_num)
  have key : 81 / 5000 - ((-1) * glideE1 r e v a + 91 / 200 * glideV1 r e v a + 19 / 200 * glideA1 r e v a) =
      (1145499 / 7492 * (7 / 12 - r) ^ 3 + 1585377 / 1873 * ((r - 9 / 16) * (7 / 12 - r) ^ 2) + 2441604 / 1873 * ((r - 9 / 16) ^ 2 * (7 / 12 - r)) + 3437840 / 5619 * (r - 9 / 16) ^ 3) * (81 / 5000 - (-e + 91 / 200 * v + 19 / 200 * a))
      + (49204059 / 149840 * (7 / 12 - r) ^ 3 + 36158049 / 37460 * ((r - 9 / 16) * (7 / 12 - r) ^ 2) + 8916417 / 9365 * ((r - 9 / 16) ^ 2 * (7 / 12 - r)) + 590588 / 1873 * (r - 9 / 16) ^ 3) * (9 / 20 - (9 / 20 * e - v - 3 / 5 * a))
      + (1325758821 / 1498400 * (7 / 12 - r) ^ 3 + 187728147 / 74920 * ((r - 9 / 16) * (7 / 12 - r) ^ 2) + 44191347 / 18730 * ((r - 9 / 16) ^ 2 * (7 / 12 - r)) + 4148302 / 5619 * (r - 9 / 16) ^ 3) * (1 / 2 - (1 / 2 * e - v))
      + (8982549813 / 7492000 * (7 / 12 - r) ^ 3 + 34405527051 / 9365000 * ((r - 9 / 16) * (7 / 12 - r) ^ 2) + 8769184491 / 2341250 * ((r - 9 / 16) ^ 2 * (7 / 12 - r)) + 4462380406 / 3511875 * (r - 9 / 16) ^ 3) := by
    simp only [glideE1, glideV1, glideA1]; ring
  rw [← sub_nonneg, key]
  exact add_nonneg (add_nonneg (add_nonneg (mul_nonneg l0 (sub_nonneg.2 h.f1)) (mul_nonneg l1 (sub_nonneg.2 h.f3))) (mul_nonneg l2 (sub_nonneg.2 h.f7))) ls

theorem glide_1_1_7 {r e v a : K} (h : Gliding e v a) (hl : 7 / 12 ≤ r) (hu : r ≤ 2 / 3) :
    (-1) * glideE1 r e v a + 91 / 200 * glideV1 r e v a + 19 / 200 * glideA1 r e v a ≤ 81 / 5000 := by
  have hx : 0 ≤ (r - 7 / 12) := by linarith
  have hy : 0 ≤ (2 / 3 - r) := by linarith
  have l0 : 0 ≤ 214865 / 22476 * (2 / 3 - r) ^ 3 + 115981 / 1873 * ((r - 7 / 12) * (2 / 3 - r) ^ 2) + 213248 / 1873 * ((r - 7 / 12) ^ 2 * (2 / 3 - r)) + 355552 / 5619 * (r - 7 / 12) ^ 3 :=
    bern_nonneg hx hy (by norm_num) (by norm_num) (by norm_num) (by norm_num)
  have l1 : 0 ≤ 147647 / 29968 * (2 / 3 - r) ^ 3 + 539277 / 37460 * ((r - 7 / 12) * (2 / 3 - r) ^ 2) + 147594 / 9365 * ((r - 7 / 12) ^ 2 * (2 / 3 - r)) + 59696 / 9365 * (r - 7 / 12) ^ 3 :=
    bern_nonneg hx hy (by norm_num) (by norm_num) (by norm_num) (by norm_num)
  have l2 : 0 ≤ 2074151 / 179808 * (2 / 3 - r) ^ 3 + 1915607 / 74920 * ((r - 7 / 12) * (2 / 3 - r) ^ 2) + 158861 / 9365 * ((r - 7 / 12) ^ 2 * (2 / 3 - r)) + 384416 / 140475 * (r - 7 / 12) ^ 3 :=
    bern_nonneg hx hy (by norm_num) (by norm_num) (by norm_num) (by norm_num)
  have ls : 0 ≤ 2231190203 / 112380000 * (2 / 3 - r) ^ 3 + 596691631 / 9365000 * ((r - 7 / 12) * (2 / 3 - r) ^ 2) + 77919913 / 1170625 * ((r - 7 / 12) ^ 2 * (2 / 3 - r)) + 15966232 / 702375 * (r - 7 / 12) ^ 3 :=
    bern_nonneg hx hy (by norm_num) (by norm_num) (by norm_num) (by norm_num)
  have key : 81 / 5000 - ((-1) * glideE1 r e v a + 91 / 200 * glideV1 r e v a + 19 / 200 * glideA1 r e v a) =
      (214865 / 22476 * (2 / 3 - r) ^ 3 + 115981 / 1873 * ((r - 7 / 12) * (2 / 3 - r) ^ 2) + 213248 / 1873 * ((r - 7 / 12) ^ 2 * (2 / 3 - r)) + 355552 / 5619 * (r - 7 / 12) ^ 3) * (81 / 5000 - (-e + 91 / 200 * v + 19 / 200 * a))
      + (147647 / 29968 * (2 / 3 - r) ^ 3 + 539277 / 37460 * ((r - 7 / 12) * (2 / 3 - r) ^ 2) + 147594 / 9365 * ((r - 7 / 12) ^ 2 * (2 / 3 - r)) + 59696 / 9365 * (r - 7 / 12) ^ 3) * (9 / 20 - (9 / 20 * e - v - 3 / 5 * a))
      + (2074151 / 179808 * (2 / 3 - r) ^ 3 + 1915607 / 74920 * ((r - 7 / 12) * (2 / 3 - r) ^ 2) + 158861 / 9365 * ((r - 7 / 12) ^ 2 * (2 / 3 - r)) + 384416 / 140475 * (r - 7 / 12) ^ 3) * (1 / 2 - (1 / 2 * e - v))
      + (2231190203 / 112380000 * (2 / 3 - r) ^ 3 + 596691631 / 9365000 * ((r - 7 / 12) * (2 / 3 - r) ^ 2) + 77919913 / 1170625 * ((r - 7 / 12) ^ 2 * (2 / 3 - r)) + 15966232 / 702375 * (r - 7 / 12) ^ 3) := by
    simp only [glideE1, glideV1, glideA1]; ring
  rw [← sub_nonneg, key]
  exact add_nonneg (add_nonneg (add_nonneg (mul_nonneg l0 (sub_nonneg.2 h.f1)) (mul_nonneg l1 (sub_nonneg.2 h.f3))) (mul_nonneg l2 (sub_nonneg.2 h.f7))) ls

theorem Gliding.step1_1 {r e v a : K} (h : Gliding e v a) (hl : 1 / 3 ≤ r) (hu : r ≤ 2 / 3) :
    (-1) * glideE1 r e v a + 91 / 200 * glideV1 r e v a + 19 / 200 * glideA1 r e v a ≤ 81 / 5000 := by
  rcases le_total r (5 / 12) with c0 | c0
  · exact glide_1_1_0 h hl c0
  rcases le_total r (7 / 16) with c1 | c1
  · exact glide_1_1_1 h c0 c1
  rcases le_total r (11 / 24) with c2 | c2
  · exact glide_1_1_2 h c1 c2
  rcases le_total r (1 / 2) with c3 | c3
  · exact glide_1_1_3 h c2 c3
  rcases le_total r (13 / 24) with c4 | c4
  · exact glide_1_1_4 h c3 c4
  rcases le_total r (9 / 16) with c5 | c5
  · exact glide_1_1_5 h c4 c5
  rcases le_total r (7 / 12) with c6 | c6
  · exact glide_1_1_6 h c5 c6
  exact glide_1_1_7 h c6 hu

theorem glide_1_2_0 {r e v a : K} (h : Gliding e v a) (hl : 1 / 3 ≤ r) (hu : r ≤ 5 / 12) :
    (-1) * glideE1 r e v a + 31 / 50 * glideV1 r e v a + (-(9 / 200)) * glideA1 r e v a ≤ 5313 / 10000 := by
  have hx : 0 ≤ (r - 1 / 3) := by linarith
  have hy : 0 ≤ (5 / 12 - r) := by linarith
  have l0 : 0 ≤ 1721056 / 3175 * (5 / 12 - r) ^ 3 + 4708212 / 3175 * ((r - 1 / 3) * (5 / 12 - r) ^ 2) + 8566431 / 6350 * ((r - 1 / 3) ^ 2 * (5 / 12 - r)) + 5182091 / 12700 * (r - 1 / 3) ^ 3 :=
    bern_nonneg hx hy (by norm_num) (by norm_num) (by norm_num) (by norm_num)
  have l1 : 0 ≤ 1917952 / 1905 * (5 / 12 - r) ^ 3 + 7092736 / 3175 * ((r - 1 / 3) * (5 / 12 - r) ^ 2) + 5091296 / 3175 * ((r - 1 / 3) ^ 2 * (5 / 12 - r)) + 3508939 / 9525 * (r - 1 / 3) ^ 3 :=
    bern_nonneg hx hy (by norm_num) (by norm_num) (by norm_num) (by norm_num)
  have l2 : 0 ≤ 409472 / 1905 * (5 / 12 - r) ^ 3 + 1387376 / 3175 * ((r - 1 / 3) * (5 / 12 - r) ^ 2) + 866986 / 3175 * ((r - 1 / 3) ^ 2 * (5 / 12 - r)) + 928423 / 19050 * (r - 1 / 3) ^ 3 :=
    bern_nonneg hx hy (by norm_num) (by norm_num) (by norm_num) (by norm_num)
  have ls : 0 ≤ 19487404 / 79375 * (5 / 12 - r) ^ 3 + 398068221 / 396875 * ((r - 1 / 3) * (5 / 12 - r) ^ 2) + 3918448803 / 3175000 * ((r - 1 / 3) ^ 2 * (5 / 12 - r)) + 6072965771 / 12700000 * (r - 1 / 3) ^ 3 :=
    bern_nonneg hx hy (by norm_num) (by norm_num) (by norm_num) (by norm_num)
  have key : 5313 / 10000 - ((-1) * glideE1 r e v a + 31 / 50 * glideV1 r e v a + (-(9 / 200)) * glideA1 r e v a) =
      (1721056 / 3175 * (5 / 12 - r) ^ 3 + 4708212 / 3175 * ((r - 1 / 3) * (5 / 12 - r) ^ 2) + 8566431 / 6350 * ((r - 1 / 3) ^ 2 * (5 / 12 - r)) + 5182091 / 12700 * (r - 1 / 3) ^ 3) * (1 - (e))
      + (1917952 / 1905 * (5 / 12 - r) ^ 3 + 7092736 / 3175 * ((r - 1 / 3) * (5 / 12 - r) ^ 2) + 5091296 / 3175 * ((r - 1 / 3) ^ 2 * (5 / 12 - r)) + 3508939 / 9525 * (r - 1 / 3) ^ 3) * (81 / 5000 - (-e + 91 / 200 * v + 19 / 200 * a))
      + (409472 / 1905 * (5 / 12 - r) ^ 3 + 1387376 / 3175 * ((r - 1 / 3) * (5 / 12 - r) ^ 2) + 866986 / 3175 * ((r - 1 / 3) ^ 2 * (5 / 12 - r)) + 928423 / 19050 * (r - 1 / 3) ^ 3) * (5313 / 10000 - (-e + 31 / 50 * v - 9 / 200 * a))
      + (19487404 / 79375 * (5 / 12 - r) ^ 3 + 398068221 / 396875 * ((r - 1 / 3) * (5 / 12 - r) ^ 2) + 3918448803 / 3175000 * ((r - 1 / 3) ^ 2 * (5 / 12 - r)) + 6072965771 / 12700000 * (r - 1 / 3) ^ 3) := by
    simp only [glideE1, glideV1, glideA1]; ring
  rw [← sub_nonneg, key]
  exact add_nonneg (add_nonneg (add_nonneg (mul_nonneg l0 (sub_nonneg.2 h.f0)) (mul_nonneg l1 (sub_nonneg.2 h.f1))) (mul_nonneg l2 (sub_nonneg.2 h.f2))) ls

theorem glide_1_2_1 {r e v a : K} (h : Gliding e v a) (hl : 5 / 12 ≤ r) (hu : r ≤ 7 / 16) :
    (-1) * glideE1 r e v a + 31 / 50 * glideV1 r e v a + (-(9 / 200)) * glideA1 r e v a ≤ 5313 / 10000 := by
  have hx : 0 ≤ (r - 5 / 12) := by linarith
  have hy : 0 ≤ (7 / 16 - r) := by linarith
  have l0 : 0 ≤ 82913456 / 3175 * (7 / 16 - r) ^ 3 + 242394012 / 3175 * ((r - 5 / 12) * (7 / 16 - r) ^ 2) + 236161053 / 3175 * ((r - 5 / 12) ^ 2 * (7 / 16 - r)) + 306719841 / 12700 * (r - 5 / 12) ^ 3 :=
    bern_nonneg hx hy (by norm_num) (by norm_num) (by norm_num) (by norm_num)
  have l1 : 0 ≤ 224572096 / 9525 * (7 / 16 - r) ^ 3 + 199254384 / 3175 * ((r - 5 / 12) * (7 / 16 - r) ^ 2) + 175613004 / 3175 * ((r - 5 / 12) ^ 2 * (7 / 16 - r)) + 10238097 / 635 * (r - 5 / 12) ^ 3 :=
    bern_nonneg hx hy (by norm_num) (by norm_num) (by norm_num) (by norm_num)
  have l2 : 0 ≤ 29709536 / 9525 * (7 / 16 - r) ^ 3 + 23265144 / 3175 * ((r - 5 / 12) * (7 / 16 - r) ^ 2) + 17291214 / 3175 * ((r - 5 / 12) ^ 2 * (7 / 16 - r)) + 1568769 / 1270 * (r - 5 / 12) ^ 3 :=
    bern_nonneg hx hy (by norm_num) (by norm_num) (by norm_num) (by norm_num)
  have ls : 0 ≤ 12145931542 / 396875 * (7 / 16 - r) ^ 3 + 75420691353 / 793750 * ((r - 5 / 12) * (7 / 16 - r) ^ 2) + 311472663777 / 3175000 * ((r - 5 / 12) ^ 2 * (7 / 16 - r)) + 85569754359 / 2540000 * (r - 5 / 12) ^ 3 :=
    bern_nonneg hx hy (by norm_num) (by norm_num) (by norm_num) (by norm_num)
  have key : 5313 / 10000 - ((-1) * glideE1 r e v a + 31 / 50 * glideV1 r e v a + (-(9 / 200)) * glideA1 r e v a) =
      (82913456 / 3175 * (7 / 16 - r) ^ 3 + 242394012 / 3175 * ((r - 5 / 12) * (7 / 16 - r) ^ 2) + 236161053 / 3175 * ((r - 5 / 12) ^ 2 * (7 / 16 - r)) + 306719841 / 12700 * (r - 5 / 12) ^ 3) * (1 - (e))
      + (224572096 / 9525 * (7 / 16 - r) ^ 3 + 199254384 / 3175 * ((r - 5 / 12) * (7 / 16 - r) ^ 2) + 175613004 / 3175 * ((r - 5 / 12) ^ 2 * (7 / 16 - r)) + 10238097 / 635 * (r - 5 / 12) ^ 3) * (81 / 5000 - (-e + 91 / 200 * v + 19 / 200 * a))
      + (29709536 / 9525 * (7 / 16 - r) ^ 3 + 23265144 / 3175 * ((r - 5 / 12) * (7 / 16 - r) ^ 2) + 17291214 / 3175 * ((r - 5 / 12) ^ 2 * (7 / 16 - r)) + 1568769 / 1270 * (r - 5 / 12) ^ 3) * (5313 / 10000 - (-e + 31 / 50 * v - 9 / 200 * a))
      + (12145931542 / 396875 * (7 / 16 - r) ^ 3 + 75420691353 / 793750 * ((r - 5 / 12) * (7 / 16 - r) ^ 2) + 311472663777 / 3175000 * ((r - 5 / 12) ^ 2 * (7 / 16 - r)) + 85569754359 / 2540000 * (r - 5 / 12) ^ 3) := by
    simp only [glideE1, glideV1, glideA1]; ring
  rw [← sub_nonneg, key]
  exact add_nonneg (add_nonneg (add_nonneg (mul_nonneg l0 (sub_nonneg.2 h.f0)) (mul_nonneg l1 (sub_nonneg.2 h.f1))) (mul_nonneg l2 (sub_nonneg.2 h.f2))) ls

theorem glide_1_2_2 {r e v a : K} (h : Gliding e v a) (hl : 7 / 16 ≤ r) (hu : r ≤ 11 / 24) :
    (-1) * glideE1 r e v a + 31 / 50 * glideV1 r e v a + (-(9 / 200)) * glideA1 r e v a ≤ 5313 / 10000 := by
  have hx : 0 ≤ (r - 7 / 16) := by linarith
  have hy : 0 ≤ (11 / 24 - r) := by linarith
  have l0 : 0 ≤ 357853210833 / 7937500 * (11 / 24 - r) ^ 3 + 529128350937 / 3968750 * ((r - 7 / 16) * (11 / 24 - r) ^ 2) + 260808309531 / 1984375 * ((r - 7 / 16) ^ 2 * (11 / 24 - r)) + 85707101302 / 1984375 * (r - 7 / 16) ^ 3 :=
    bern_nonneg hx hy (by norm_num) (by norm_num) (by norm_num) (by norm_num)
  have l1 : 0 ≤ 32338187781 / 1984375 * (11 / 24 - r) ^ 3 + 83238595218 / 1984375 * ((r - 7 / 16) * (11 / 24 - r) ^ 2) + 70462521468 / 1984375 * ((r - 7 / 16) ^ 2 * (11 / 24 - r)) + 58638528968 / 5953125 * (r - 7 / 16) ^ 3 :=
    bern_nonneg hx hy (by norm_num) (by norm_num) (by norm_num) (by norm_num)
  have l2 : 0 ≤ 6355416117 / 3968750 * (11 / 24 - r) ^ 3 + 6079720113 / 1984375 * ((r - 7 / 16) * (11 / 24 - r) ^ 2) + 2906618238 / 1984375 * ((r - 7 / 16) ^ 2 * (11 / 24 - r)) + 81988 / 5953125 * (r - 7 / 16) ^ 3 :=
    bern_nonneg hx hy (by norm_num) (by norm_num) (by norm_num) (by norm_num)
  have l3 : 0 ≤ 12745728 / 625 * (11 / 24 - r) ^ 3 + 38237184 / 625 * ((r - 7 / 16) * (11 / 24 - r) ^ 2) + 38237184 / 625 * ((r - 7 / 16) ^ 2 * (11 / 24 - r)) + 12745728 / 625 * (r - 7 / 16) ^ 3 :=
    bern_nonneg hx hy (by norm_num) (by norm_num) (by norm_num) (by norm_num)
  have ls : 0 ≤ 90119339567907 / 7937500000 * (11 / 24 - r) ^ 3 + 146946403188423 / 3968750000 * ((r - 7 / 16) * (11 / 24 - r) ^ 2) + 79121908952649 / 1984375000 * ((r - 7 / 16) ^ 2 * (11 / 24 - r)) + 14090784327629 / 992187500 * (r - 7 / 16) ^ 3 :=
    bern_nonneg hx hy (by norm_num) (by norm_num) (by norm_num) (by norm_num)
  have key : 5313 / 10000 - ((-1) * glideE1 r e v a + 31 / 50 * glideV1 r e v a + (-(9 / 200)) * glideA1 r e v a) =
      (357853210833 / 7937500 * (11 / 24 - r) ^ 3 + 529128350937 / 3968750 * ((r - 7 / 16) * (11 / 24 - r) ^ 2) + 260808309531 / 1984375 * ((r - 7 / 16) ^ 2 * (11 / 24 - r)) + 85707101302 / 1984375 * (r - 7 / 16) ^ 3) * (1 - (e))
      + (32338187781 / 1984375 * (11 / 24 - r) ^ 3 + 83238595218 / 1984375 * ((r - 7 / 16) * (11 / 24 - r) ^ 2) + 70462521468 / 1984375 * ((r - 7 / 16) ^ 2 * (11 / 24 - r)) + 58638528968 / 5953125 * (r - 7 / 16) ^ 3) * (81 / 5000 - (-e + 91 / 200 * v + 19 / 200 * a))
      + (6355416117 / 3968750 * (11 / 24 - r) ^ 3 + 6079720113 / 1984375 * ((r - 7 / 16) * (11 / 24 - r) ^ 2) + 2906618238 / 1984375 * ((r - 7 / 16) ^ 2 * (11 / 24 - r)) + 81988 / 5953125 * (r - 7 / 16) ^ 3) * (5313 / 10000 - (-e + 31 / 50 * v - 9 / 200 * a))
      + (12745728 / 625 * (11 / 24 - r) ^ 3 + 38237184 / 625 * ((r - 7 / 16) * (11 / 24 - r) ^ 2) + 38237184 / 625 * ((r - 7 / 16) ^ 2 * (11 / 24 - r)) + 12745728 / 625 * (r - 7 / 16) ^ 3) * (591 / 10000 - (-e - 3 / 200 * v))
      + (90119339567907 / 7937500000 * (11 / 24 - r) ^ 3 + 146946403188423 / 3968750000 * ((r - 7 / 16) * (11 / 24 - r) ^ 2) + 79121908952649 / 1984375000 * ((r - 7 / 16) ^ 2 * (11 / 24 - r)) + 14090784327629 / 992187500 * (r - 7 / 16) ^ 3) := by
    simp only [glideE1, glideV1, glideA1]; ring
  rw [← sub_nonneg, key]
  exact add_nonneg (add_nonneg (add_nonneg (add_nonneg (mul_nonneg l0 (sub_nonneg.2 h.f0)) (mul_nonneg l1 (sub_nonneg.2 h.f1))) (mul_nonneg l2 (sub_nonneg.2 h.f2))) (mul_nonneg l3 (sub_nonneg.2 h.f6))) ls

theorem glide_1_2_3 {r e v a : K} (h : Gliding e v a) (hl : 11 / 24 ≤ r) (hu : r ≤ 1 / 2) :
    (-1) * glideE1 r e v a + 31 / 50 * glideV1 r e v a + (-(9 / 200)) * glideA1 r e v a ≤ 5313 / 10000 := by
  have hx : 0 ≤ (r - 11 / 24) := by linarith
  have hy : 0 ≤ (1 / 2 - r) := by linarith
  have l0 : 0 ≤ 43025219 / 15200 * (1 / 2 - r) ^ 3 + 6394617 / 760 * ((r - 11 / 24) * (1 / 2 - r) ^ 2) + 7868421 / 950 * ((r - 11 / 24) ^ 2 * (1 / 2 - r)) + 256638 / 95 * (r - 11 / 24) ^ 3 :=
    bern_nonneg hx hy (by norm_num) (by norm_num) (by norm_num) (by norm_num)
  have l1 : 0 ≤ 140363 / 114 * (1 / 2 - r) ^ 3 + 45174 / 19 * ((r - 11 / 24) * (1 / 2 - r) ^ 2) + 24120 / 19 * ((r - 11 / 24) ^ 2 * (1 / 2 - r)) + 2208 / 19 * (r - 11 / 24) ^ 3 :=
    bern_nonneg hx hy (by norm_num) (by norm_num) (by norm_num) (by norm_num)
  have l2 : 0 ≤ 34871 / 912 * (1 / 2 - r) ^ 3 + 799251 / 1900 * ((r - 11 / 24) * (1 / 2 - r) ^ 2) + 318483 / 475 * ((r - 11 / 24) ^ 2 * (1 / 2 - r)) + 137748 / 475 * (r - 11 / 24) ^ 3 :=
    bern_nonneg hx hy (by norm_num) (by norm_num) (by norm_num) (by norm_num)
  have ls : 0 ≤ 2550761681 / 570000 * (1 / 2 - r) ^ 3 + 635134749 / 47500 * ((r - 11 / 24) * (1 / 2 - r) ^ 2) + 159074109 / 11875 * ((r - 11 / 24) ^ 2 * (1 / 2 - r)) + 53394252 / 11875 * (r - 11 / 24) ^ 3 :=
    bern_nonneg hx hy (by norm_num) (by norm_num) (by norm_num) (by norm_num)
  have key : 5313 / 10000 - ((-1) * glideE1 r e v a + 31 / 50 * glideV1 r e v a + (-(9 / 200)) * glideA1 r e v a) =
      (43025219 / 15200 * (1 / 2 - r) ^ 3 + 6394617 / 760 * ((r - 11 / 24) * (1 / 2 - r) ^ 2) + 7868421 / 950 * ((r - 11 / 24) ^ 2 * (1 / 2 - r)) + 256638 / 95 * (r - 11 / 24) ^ 3) * (1 - (e))
      + (140363 / 114 * (1 / 2 - r) ^ 3 + 45174 / 19 * ((r - 11 / 24) * (1 / 2 - r) ^ 2) + 24120 / 19 * ((r - 11 / 24) ^ 2 * (1 / 2 - r)) + 2208 / 19 * (r - 11 / 24) ^ 3) * (81 / 5000 - (-e + 91 / 200 * v + 19 / 200 * a))
      + (34871 / 912 * (1 / 2 - r) ^ 3 + 799251 / 1900 * ((r - 11 / 24) * (1 / 2 - r) ^ 2) + 318483 / 475 * ((r - 11 / 24) ^ 2 * (1 / 2 - r)) + 137748 / 475 * (r - 11 / 24) ^ 3) * (1 / 2 - (1 / 2 * e - v))
      + (2550761681 / 570000 * (1 / 2 - r) ^ 3 + 635134749 / 47500 * ((r - 11 / 24) * (1 / 2 - r) ^ 2) + 159074109 / 11875 * ((r - 11 / 24) ^ 2 * (1 / 2 - r)) + 53394252 / 11875 * (r - 11 / 24) ^ 3) := by
    simp only [glideE1, glideV1, glideA1]; ring
  rw [← sub_nonneg, key]
  exact add_nonneg (add_nonneg (add_nonneg (mul_nonneg l0 (sub_nonneg.2 h.f0)) (mul_nonneg l1 (sub_nonneg.2 h.f1))) (mul_nonneg l2 (sub_nonneg.2 h.f7))) ls

theorem glide_1_2_4 {r e v a : K} (h : Gliding e v a) (hl : 1 / 2 ≤ r) (hu : r ≤ 25 / 48) :
    (-1) * glideE1 r e v a + 31 / 50 * glideV1 r e v a + (-(9 / 200)) * glideA1 r e v a ≤ 5313 / 10000 := by
  have hx : 0 ≤ (r - 1 / 2) := by linarith
  have hy : 0 ≤ (25 / 48 - r) := by linarith
  have l0 : 0 ≤ 319872432 / 11875 * (25 / 48 - r) ^ 3 + 951153246 / 11875 * ((r - 1 / 2) * (25 / 48 - r) ^ 2) + 3766313709 / 47500 * ((r - 1 / 2) ^ 2 * (25 / 48 - r)) + 9930385249 / 380000 * (r - 1 / 2) ^ 3 :=
    bern_nonneg hx hy (by norm_num) (by norm_num) (by norm_num) (by norm_num)
  have l1 : 0 ≤ 39406848 / 11875 * (25 / 48 - r) ^ 3 + 74480544 / 11875 * ((r - 1 / 2) * (25 / 48 - r) ^ 2) + 35188044 / 11875 * ((r - 1 / 2) ^ 2 * (25 / 48 - r)) + 191713 / 71250 * (r - 1 / 2) ^ 3 :=
    bern_nonneg hx hy (by norm_num) (by norm_num) (by norm_num) (by norm_num)
  have l2 : 0 ≤ 77585568 / 11875 * (25 / 48 - r) ^ 3 + 242232804 / 11875 * ((r - 1 / 2) * (25 / 48 - r) ^ 2) + 501026883 / 23750 * ((r - 1 / 2) ^ 2 * (25 / 48 - r)) + 4122676789 / 570000 * (r - 1 / 2) ^ 3 :=
    bern_nonneg hx hy (by norm_num) (by norm_num) (by norm_num) (by norm_num)
  have l3 : 0 ≤ 3151872 / 625 * (25 / 48 - r) ^ 3 + 9455616 / 625 * ((r - 1 / 2) * (25 / 48 - r) ^ 2) + 9455616 / 625 * ((r - 1 / 2) ^ 2 * (25 / 48 - r)) + 3151872 / 625 * (r - 1 / 2) ^ 3 :=
    bern_nonneg hx hy (by norm_num) (by norm_num) (by norm_num) (by norm_num)
  have ls : 0 ≤ 38328106848 / 1484375 * (25 / 48 - r) ^ 3 + 115538644044 / 1484375 * ((r - 1 / 2) * (25 / 48 - r) ^ 2) + 232595047713 / 2968750 * ((r - 1 / 2) ^ 2 * (25 / 48 - r)) + 1875953131079 / 71250000 * (r - 1 / 2) ^ 3 :=
    bern_nonneg hx hy (by norm_num) (by norm_num) (by norm_num) (by norm_num)
  have key : 5313 / 10000 - ((-1) * glideE1 r e v a + 31 / 50 * glideV1 r e v a + (-(9 / 200)) * glideA1 r e v a) =
      (319872432 / 11875 * (25 / 48 - r) ^ 3 + 951153246 / 11875 * ((r - 1 / 2) * (25 / 48 - r) ^ 2) + 3766313709 / 47500 * ((r - 1 / 2) ^ 2 * (25 / 48 - r)) + 9930385249 / 380000 * (r - 1 / 2) ^ 3) * (1 - (e))
      + (39406848 / 11875 * (25 / 48 - r) ^ 3 + 74480544 / 11875 * ((r - 1 / 2) * (25 / 48 - r) ^ 2) + 35188044 / 11875 * ((r - 1 / 2) ^ 2 * (25 / 48 - r)) + 191713 / 71250 * (r - 1 / 2) ^ 3) * (81 / 5000 - (-e + 91 / 200 * v + 19 / 200 * a))
      + (77585568 / 11875 * (25 / 48 - r) ^ 3 + 242232804 / 11875 * ((r - 1 / 2) * (25 / 48 - r) ^ 2) + 501026883 / 23750 * ((r - 1 / 2) ^ 2 * (25 / 48 - r)) + 4122676789 / 570000 * (r - 1 / 2) ^ 3) * (1 / 2 - (1 / 2 * e - v))
      + (3151872 / 625 * (25 / 48 - r) ^ 3 + 9455616 / 625 * ((r - 1 / 2) * (25 / 48 - r) ^ 2) + 9455616 / 625 * ((r - 1 / 2) ^ 2 * (25 / 48 - r)) + 3151872 / 625 * (r - 1 / 2) ^ 3) * (5313 / 10000 - (-e + 31 / 50 * v - 9 / 200 * a))
      + (38328106848 / 1484375 * (25 / 48 - r) ^ 3 + 115538644044 / 1484375 * ((r - 1 / 2) * (25 / 48 - r) ^ 2) + 232595047713 / 2968750 * ((r - 1 / 2) ^ 2 * (25 / 48 - r)) + 1875953131079 / 71250000 * (r - 1 / 2) ^ 3) := by
    simp only [glideE1, glideV1, glideA1]; ring
  rw [← sub_nonneg, key]
  exact add_nonneg (add_nonneg (add_nonneg (add_nonneg (mul_nonneg l0 (sub_nonneg.2 h.f0)) (mul_nonneg l1 (sub_nonneg.2 h.f1))) (mul_nonneg l2 (sub_nonneg.2 h.f7))) (mul_nonneg l3 (sub_nonneg.2 h.f2))) ls

theorem glide_1_2_5 {r e v a : K} (h : Gliding e v a) (hl : 25 / 48 ≤ r) (hu : r ≤ 13 / 24) :
    (-1) * glideE1 r e v a + 31 / 50 * glideV1 r e v a + (-(9 / 200)) * glideA1 r e v a ≤ 5313 / 10000 := by
  have hx : 0 ≤ (r - 25 / 48) := by linarith
  have hy : 0 ≤ (13 / 24 - r) := by linarith
  have l0 : 0 ≤ 94055741 / 3600 * (13 / 24 - r) ^ 3 + 50444537 / 600 * ((r - 25 / 48) * (13 / 24 - r) ^ 2) + 26668037 / 300 * ((r - 25 / 48) ^ 2 * (13 / 24 - r)) + 13933601 / 450 * (r - 25 / 48) ^ 3 :=
    bern_nonneg hx hy (by norm_num) (by norm_num) (by norm_num) (by norm_num)
  have l1 : 0 ≤ 272015 / 54 * (13 / 24 - r) ^ 3 + 192155 / 9 * ((r - 25 / 48) * (13 / 24 - r) ^ 2) + 241582 / 9 * ((r - 25 / 48) ^ 2 * (13 / 24 - r)) + 284684 / 27 * (r - 25 / 48) ^ 3 :=
    bern_nonneg hx hy (by norm_num) (by norm_num) (by norm_num) (by norm_num)
  have l2 : 0 ≤ 39031309 / 5400 * (13 / 24 - r) ^ 3 + 24749113 / 900 * ((r - 25 / 48) * (13 / 24 - r) ^ 2) + 14667829 / 450 * ((r - 25 / 48) ^ 2 * (13 / 24 - r)) + 1665677 / 135 * (r - 25 / 48) ^ 3 :=
    bern_nonneg hx hy (by norm_num) (by norm_num) (by norm_num) (by norm_num)
  have ls : 0 ≤ 14223923689 / 540000 * (13 / 24 - r) ^ 3 + 6039477277 / 90000 * ((r - 25 / 48) * (13 / 24 - r) ^ 2) + 2556906913 / 45000 * ((r - 25 / 48) ^ 2 * (13 / 24 - r)) + 43261693 / 2700 * (r - 25 / 48) ^ 3 :=
    bern_nonneg hx hy (by norm_num) (by norm_num) (by norm_num) (by norm_num)
  have key : 5313 / 10000 - ((-1) * glideE1 r e v a + 31 / 50 * glideV1 r e v a + (-(9 / 200)) * glideA1 r e v a) =
      (94055741 / 3600 * (13 / 24 - r) ^ 3 + 50444537 / 600 * ((r - 25 / 48) * (13 / 24 - r) ^ 2) + 26668037 / 300 * ((r - 25 / 48) ^ 2 * (13 / 24 - r)) + 13933601 / 450 * (r - 25 / 48) ^ 3) * (1 - (e))
      + (272015 / 54 * (13 / 24 - r) ^ 3 + 192155 / 9 * ((r - 25 / 48) * (13 / 24 - r) ^ 2) + 241582 / 9 * ((r - 25 / 48) ^ 2 * (13 / 24 - r)) + 284684 / 27 * (r - 25 / 48) ^ 3) * (5313 / 10000 - (-e + 31 / 50 * v - 9 / 200 * a))
      + (39031309 / 5400 * (13 / 24 - r) ^ 3 + 24749113 / 900 * ((r - 25 / 48) * (13 / 24 - r) ^ 2) + 14667829 / 450 * ((r - 25 / 48) ^ 2 * (13 / 24 - r)) + 1665677 / 135 * (r - 25 / 48) ^ 3) * (1 / 2 - (1 / 2 * e - v))
      + (14223923689 / 540000 * (13 / 24 - r) ^ 3 + 6039477277 / 90000 * ((r - 25 / 48) * (13 / 24 - r) ^ 2) + 2556906913 / 45000 * ((r - 25 / 48) ^ 2 * (13 / 24 - r)) + 43261693 / 2700 * (r - 25 / 48) ^ 3) := by
    simp only [glideE1, glideV1, glideA1]; ring
  rw [← sub_nonneg, key]
  exact add_nonneg (add_nonneg (add_nonneg (mul_nonneg l0 (sub_nonneg.2 h.f0)) (mul_nonneg l1 (sub_nonneg.2 h.f2))) (mul_nonneg l2 (sub_nonneg.2 h.f7))) ls

theorem glide_1_2_6 {r e v a : K} (h : Gliding e v a) (hl : 13 / 24 ≤ r) (hu : r ≤ 7 / 12) :
    (-1) * glideE1 r e v a + 31 / 50 * glideV1 r e v a + (-(9 / 200)) * glideA1 r e v a ≤ 5313 / 10000 := by
  have hx : 0 ≤ (r - 13 / 24) := by linarith
  have hy : 0 ≤ (7 / 12 - r) := by linarith
  have l0 : 0 ≤ 13933601 / 3600 * (7 / 12 - r) ^ 3 + 7566383 / 600 * ((r - 13 / 24) * (7 / 12 - r) ^ 2) + 3959681 / 300 * ((r - 13 / 24) ^ 2 * (7 / 12 - r)) + 402883 / 90 * (r - 13 / 24) ^ 3 :=
    bern_nonneg hx hy (by norm_num) (by norm_num) (by norm_num) (by norm_num)
  have l1 : 0 ≤ 71171 / 54 * (7 / 12 - r) ^ 3 + 46361 / 9 * ((r - 13 / 24) * (7 / 12 - r) ^ 2) + 53974 / 9 * ((r - 13 / 24) ^ 2 * (7 / 12 - r)) + 58820 / 27 * (r - 13 / 24) ^ 3 :=
    bern_nonneg hx hy (by norm_num) (by norm_num) (by norm_num) (by norm_num)
  have l2 : 0 ≤ 1665677 / 1080 * (7 / 12 - r) ^ 3 + 5158663 / 900 * ((r - 13 / 24) * (7 / 12 - r) ^ 2) + 2924401 / 450 * ((r - 13 / 24) ^ 2 * (7 / 12 - r)) + 313643 / 135 * (r - 13 / 24) ^ 3 :=
    bern_nonneg hx hy (by norm_num) (by norm_num) (by norm_num) (by norm_num)
  have ls : 0 ≤ 43261693 / 21600 * (7 / 12 - r) ^ 3 + 343860031 / 90000 * ((r - 13 / 24) * (7 / 12 - r) ^ 2) + 107979181 / 45000 * ((r - 13 / 24) ^ 2 * (7 / 12 - r)) + 37065991 / 67500 * (r - 13 / 24) ^ 3 :=
    bern_nonneg hx hy (by norm_num) (by norm_num) (by norm_num) (by norm_num)
  have key : 5313 / 10000 - ((-1) * glideE1 r e v a + 31 / 50 * glideV1 r e v a + (-(9 / 200)) * glideA1 r e v a) =
      (13933601 / 3600 * (7 / 12 - r) ^ 3 + 7566383 / 600 * ((r - 13 / 24) * (7 / 12 - r) ^ 2) + 3959681 / 300 * ((r - 13 / 24) ^ 2 * (7 / 12 - r)) + 402883 / 90 * (r - 13 / 24) ^ 3) * (1 - (e))
      + (71171 / 54 * (7 / 12 - r) ^ 3 + 46361 / 9 * ((r - 13 / 24) * (7 / 12 - r) ^ 2) + 53974 / 9 * ((r - 13 / 24) ^ 2 * (7 / 12 - r)) + 58820 / 27 * (r - 13 / 24) ^ 3) * (5313 / 10000 - (-e + 31 / 50 * v - 9 / 200 * a))
      + (1665677 / 1080 * (7 / 12 - r) ^ 3 + 5158663 / 900 * ((r - 13 / 24) * (7 / 12 - r) ^ 2) + 2924401 / 450 * ((r - 13 / 24) ^ 2 * (7 / 12 - r)) + 313643 / 135 * (r - 13 / 24) ^ 3) * (1 / 2 - (1 / 2 * e - v))
      + (43261693 / 21600 * (7 / 12 - r) ^ 3 + 343860031 / 90000 * ((r - 13 / 24) * (7 / 12 - r) ^ 2) + 107979181 / 45000 * ((r - 13 / 24) ^ 2 * (7 / 12 - r)) + 37065991 / 67500 * (r - 13 / 24) ^ 3) := by
    simp only [glideE1, glideV1, glideA1]; ring
  rw [← sub_nonneg, key]
  exact add_nonneg (add_nonneg (add_nonneg (mul_nonneg l0 (sub_nonneg.2 h.f0)) (mul_nonneg l1 (sub_nonneg.2 h.f2))) (mul_nonneg l2 (sub_nonneg.2 h.f7))) ls

theorem glide_1_2_7 {r e v a : K} (h : Gliding e v a) (hl : 7 / 12 ≤ r) (hu : r ≤ 2 / 3) :
    (-1) * glideE1 r e v a + 31 / 50 * glideV1 r e v a + (-(9 / 200)) * glideA1 r e v a ≤ 5313 / 10000 := by
  have hx : 0 ≤ (r - 7 / 12) := by linarith
  have hy : 0 ≤ (2 / 3 - r) := by linarith
  have l0 : 0 ≤ 402883 / 720 * (2 / 3 - r) ^ 3 + 520891 / 300 * ((r - 7 / 12) * (2 / 3 - r) ^ 2) + 121127 / 75 * ((r - 7 / 12) ^ 2 * (2 / 3 - r)) + 102604 / 225 * (r - 7 / 12) ^ 3 :=
    bern_nonneg hx hy (by norm_num) (by norm_num) (by norm_num) (by norm_num)
  have l1 : 0 ≤ 14705 / 54 * (2 / 3 - r) ^ 3 + 8564 / 9 * ((r - 7 / 12) * (2 / 3 - r) ^ 2) + 8392 / 9 * ((r - 7 / 12) ^ 2 * (2 / 3 - r)) + 7232 / 27 * (r - 7 / 12) ^ 3 :=
    bern_nonneg hx hy (by norm_num) (by norm_num) (by norm_num) (by norm_num)
  have l2 : 0 ≤ 313643 / 1080 * (2 / 3 - r) ^ 3 + 445061 / 450 * ((r - 7 / 12) * (2 / 3 - r) ^ 2) + 215774 / 225 * ((r - 7 / 12) ^ 2 * (2 / 3 - r)) + 37064 / 135 * (r - 7 / 12) ^ 3 :=
    bern_nonneg hx hy (by norm_num) (by norm_num) (by norm_num) (by norm_num)
  have ls : 0 ≤ 37065991 / 540000 * (2 / 3 - r) ^ 3 + 402349 / 22500 * ((r - 7 / 12) * (2 / 3 - r) ^ 2) + 1848679 / 11250 * ((r - 7 / 12) ^ 2 * (2 / 3 - r)) + 3079432 / 16875 * (r - 7 / 12) ^ 3 :=
    bern_nonneg hx hy (by norm_num) (by norm_num) (by norm_num) (by norm_num)
  have key : 5313 / 10000 - ((-1) * glideE1 r e v a + 31 / 50 * glideV1 r e v a + (-(9 / 200)) * glideA1 r e v a) =
      (402883 / 720 * (2 / 3 - r) ^ 3 + 520891 / 300 * ((r - 7 / 12) * (2 / 3 - r) ^ 2) + 121127 / 75 * ((r - 7 / 12) ^ 2 * (2 / 3 - r)) + 102604 / 225 * (r - 7 / 12) ^ 3) * (1 - (e))
      + (14705 / 54 * (2 / 3 - r) ^ 3 + 8564 / 9 * ((r - 7 / 12) * (2 / 3 - r) ^ 2) + 8392 / 9 * ((r - 7 / 12) ^ 2 * (2 / 3 - r)) + 7232 / 27 * (r - 7 / 12) ^ 3) * (5313 / 10000 - (-e + 31 / 50 * v - 9 / 200 * a))
      + (313643 / 1080 * (2 / 3 - r) ^ 3 + 445061 / 450 * ((r - 7 / 12) * (2 / 3 - r) ^ 2) + 215774 / 225 * ((r - 7 / 12) ^ 2 * (2 / 3 - r)) + 37064 / 135 * (r - 7 / 12) ^ 3) * (1 / 2 - (1 / 2 * e - v))
      + (37065991 / 540000 * (2 / 3 - r) ^ 3 + 402349 / 22500 * ((r - 7 / 12) * (2 / 3 - r) ^ 2) + 1848679 / 11250 * ((r - 7 / 12) ^ 2 * (2 / 3 - r)) + 3079432 / 16875 * (r - 7 / 12) ^ 3) := by
    simp only [glideE1, glideV1, glideA1]; ring
  rw [← sub_nonneg, key]
  exact add_nonneg (add_nonneg (add_nonneg (mul_nonneg l0 (sub_nonneg.2 h.f0)) (mul_nonneg l1 (sub_nonneg.2 h.f2))) (mul_nonneg l2 (sub_nonneg.2 h.f7))) ls

theorem Gliding.step1_2 {r e v a : K} (h : Gliding e v a) (hl : 1 / 3 ≤ r) (hu : r ≤ 2 / 3) :
    (-1) * glideE1 r e v a + 31 / 50 * glideV1 r e v a + (-(9 / 200)) * glideA1 r e v a ≤ 5313 / 10000 := by
  rcases le_total r (5 / 12) with c0 | c0
  · exact glide_1_2_0 h hl c0
  rcases le_total r (7 / 16) with c1 | c1
  · exact glide_1_2_1 h c0 c1
  rcases le_total r (11 / 24) with c2 | c2
  · exact glide_1_2_2 h c1 c2
  rcases le_total r (1 / 2) with c3 | c3
  · exact glide_1_2_3 h c2 c3
  rcases le_total r (25 / 48) with c4 | c4
  · exact glide_1_2_4 h c3 c4
  rcases le_total r (13 / 24) with c5 | c5
  · exact glide_1_2_5 h c4 c5
  rcases le_total r (7 / 12) with c6 | c6
  · exact glide_1_2_6 h c5 c6
  exact glide_1_2_7 h c6 hu

theorem glide_1_3_0 {r e v a : K} (h : Gliding e v a) (hl : 1 / 3 ≤ r) (hu : r ≤ 1 / 2) :
    9 / 20 * glideE1 r e v a + (-1) * glideV1 r e v a + (-(3 / 5)) * glideA1 r e v a ≤ 9 / 20 := by
  have hx : 0 ≤ (r - 1 / 3) := by linarith
  have hy : 0 ≤ (1 / 2 - r) := by linarith
  have l0 : 0 ≤ 3279 / 635 * (1 / 2 - r) ^ 3 + 27693 / 1270 * ((r - 1 / 3) * (1 / 2 - r) ^ 2) + 68967 / 2540 * ((r - 1 / 3) ^ 2 * (1 / 2 - r)) + 13149 / 1270 * (r - 1 / 3) ^ 3 :=
    bern_nonneg hx hy (by norm_num) (by norm_num) (by norm_num) (by norm_num)
  have l1 : 0 ≤ 324464 / 635 * (1 / 2 - r) ^ 3 + 685944 / 635 * ((r - 1 / 3) * (1 / 2 - r) ^ 2) + 467712 / 635 * ((r - 1 / 3) ^ 2 * (1 / 2 - r)) + 101493 / 635 * (r - 1 / 3) ^ 3 :=
    bern_nonneg hx hy (by norm_num) (by norm_num) (by norm_num) (by norm_num)
  have l2 : 0 ≤ 93724 / 635 * (1 / 2 - r) ^ 3 + 197154 / 635 * ((r - 1 / 3) * (1 / 2 - r) ^ 2) + 133317 / 635 * ((r - 1 / 3) ^ 2 * (1 / 2 - r)) + 57051 / 1270 * (r - 1 / 3) ^ 3 :=
    bern_nonneg hx hy (by norm_num) (by norm_num) (by norm_num) (by norm_num)
  have ls : 0 ≤ 1695561 / 317500 * (1 / 2 - r) ^ 3 + 55459287 / 635000 * ((r - 1 / 3) * (1 / 2 - r) ^ 2) + 179031987 / 1270000 * ((r - 1 / 3) ^ 2 * (1 / 2 - r)) + 153390861 / 2540000 * (r - 1 / 3) ^ 3 :=
    bern_nonneg hx hy (by norm_num) (by norm_num) (by norm_num) (by norm_num)
  have key : 9 / 20 - (9 / 20 * glideE1 r e v a + (-1) * glideV1 r e v a + (-(3 / 5)) * glideA1 r e v a) =
      (3279 / 635 * (1 / 2 - r) ^ 3 + 27693 / 1270 * ((r - 1 / 3) * (1 / 2 - r) ^ 2) + 68967 / 2540 * ((r - 1 / 3) ^ 2 * (1 / 2 - r)) + 13149 / 1270 * (r - 1 / 3) ^ 3) * (1 - (e))
      + (324464 / 635 * (1 / 2 - r) ^ 3 + 685944 / 635 * ((r - 1 / 3) * (1 / 2 - r) ^ 2) + 467712 / 635 * ((r - 1 / 3) ^ 2 * (1 / 2 - r)) + 101493 / 635 * (r - 1 / 3) ^ 3) * (81 / 5000 - (-e + 91 / 200 * v + 19 / 200 * a))
      + (93724 / 635 * (1 / 2 - r) ^ 3 + 197154 / 635 * ((r - 1 / 3) * (1 / 2 - r) ^ 2) + 133317 / 635 * ((r - 1 / 3) ^ 2 * (1 / 2 - r)) + 57051 / 1270 * (r - 1 / 3) ^ 3) * (5313 / 10000 - (-e + 31 / 50 * v - 9 / 200 * a))
      + (1695561 / 317500 * (1 / 2 - r) ^ 3 + 55459287 / 635000 * ((r - 1 / 3) * (1 / 2 - r) ^ 2) + 179031987 / 1270000 * ((r - 1 / 3) ^ 2 * (1 / 2 - r)) + 153390861 / 2540000 * (r - 1 / 3) ^ 3) := by
    simp only [glideE1, glideV1, glideA1]; ring
  rw [← sub_nonneg, key]
  exact add_nonneg (add_nonneg (add_nonneg (mul_nonneg l0 (sub_nonneg.2 h.f0)) (mul_nonneg l1 (sub_nonneg.2 h.f1))) (mul_nonneg l2 (sub_nonneg.2 h.f2))) ls

theorem glide_1_3_1 {r e v a : K} (h : Gliding e v a) (hl : 1 / 2 ≤ r) (hu : r ≤ 7 / 12) :
    9 / 20 * glideE1 r e v a + (-1) * glideV1 r e v a + (-(3 / 5)) * glideA1 r e v a ≤ 9 / 20 := by
  have hx : 0 ≤ (r - 1 / 2) := by linarith
  have hy : 0 ≤ (7 / 12 - r) := by linarith
  have l0 : 0 ≤ 52596 / 635 * (7 / 12 - r) ^ 3 + 33543 / 127 * ((r - 1 / 2) * (7 / 12 - r) ^ 2) + 35163 / 127 * ((r - 1 / 2) ^ 2 * (7 / 12 - r)) + 48477 / 508 * (r - 1 / 2) ^ 3 :=
    bern_nonneg hx hy (by norm_num) (by norm_num) (by norm_num) (by norm_num)
  have l1 : 0 ≤ 811944 / 635 * (7 / 12 - r) ^ 3 + 356580 / 127 * ((r - 1 / 2) * (7 / 12 - r) ^ 2) + 1239966 / 635 * ((r - 1 / 2) ^ 2 * (7 / 12 - r)) + 264271 / 635 * (r - 1 / 2) ^ 3 :=
    bern_nonneg hx hy (by norm_num) (by norm_num) (by norm_num) (by norm_num)
  have l2 : 0 ≤ 228204 / 635 * (7 / 12 - r) ^ 3 + 98730 / 127 * ((r - 1 / 2) * (7 / 12 - r) ^ 2) + 334881 / 635 * ((r - 1 / 2) ^ 2 * (7 / 12 - r)) + 136147 / 1270 * (r - 1 / 2) ^ 3 :=
    bern_nonneg hx hy (by norm_num) (by norm_num) (by norm_num) (by norm_num)
  have ls : 0 ≤ 153390861 / 317500 * (7 / 12 - r) ^ 3 + 40898151 / 25400 * ((r - 1 / 2) * (7 / 12 - r) ^ 2) + 2215006551 / 1270000 * ((r - 1 / 2) ^ 2 * (7 / 12 - r)) + 1570924437 / 2540000 * (r - 1 / 2) ^ 3 :=
    bern_nonneg hx hy (by norm_num) (by norm_num) (by norm_num) (by norm_num)
  have key : 9 / 20 - (9 / 20 * glideE1 r e v a + (-1) * glideV1 r e v a + (-(3 / 5)) * glideA1 r e v a) =
      (52596 / 635 * (7 / 12 - r) ^ 3 + 33543 / 127 * ((r - 1 / 2) * (7 / 12 - r) ^ 2) + 35163 / 127 * ((r - 1 / 2) ^ 2 * (7 / 12 - r)) + 48477 / 508 * (r - 1 / 2) ^ 3) * (1 - (e))
      + (811944 / 635 * (7 / 12 - r) ^ 3 + 356580 / 127 * ((r - 1 / 2) * (7 / 12 - r) ^ 2) + 1239966 / 635 * ((r - 1 / 2) ^ 2 * (7 / 12 - r)) + 264271 / 635 * (r - 1 / 2) ^ 3) * (81 / 5000 - (-e + 91 / 200 * v + 19 / 200 * a))
      + (228204 / 635 * (7 / 12 - r) ^ 3 + 98730 / 127 * ((r - 1 / 2) * (7 / 12 - r) ^ 2) + 334881 / 635 * ((r - 1 / 2) ^ 2 * (7 / 12 - r)) + 136147 / 1270 * (r - 1 / 2) ^ 3) * (5313 / 10000 - (-e + 31 / 50 * v - 9 / 200 * a))
      + (153390861 / 317500 * (7 / 12 - r) ^ 3 + 40898151 / 25400 * ((r - 1 / 2) * (7 / 12 - r) ^ 2) + 2215006551 / 1270000 * ((r - 1 / 2) ^ 2 * (7 / 12 - r)) + 1570924437 / 2540000 * (r - 1 / 2) ^ 3) := by
    simp only [glideE1, glideV1, glideA1]; ring
  rw [← sub_nonneg, key]
  exact add_nonneg (add_nonneg (add_nonneg (mul_nonneg l0 (sub_nonneg.2 h.f0)) (mul_nonneg l1 (sub_nonneg.2 h.f1))) (mul_nonneg l2 (sub_nonneg.2 h.f2))) ls

theorem glide_1_3_2 {r e v a : K} (h : Gliding e v a) (hl : 7 / 12 ≤ r) (hu : r ≤ 5 / 8) :
    9 / 20 * glideE1 r e v a + (-1) * glideV1 r e v a + (-(3 / 5)) * glideA1 r e v a ≤ 9 / 20 := by
  have hx : 0 ≤ (r - 7 / 12) := by linarith
  have hy : 0 ≤ (5 / 8 - r) := by linarith
  have l0 : 0 ≤ 96954 / 127 * (5 / 8 - r) ^ 3 + 295641 / 127 * ((r - 7 / 12) * (5 / 8 - r) ^ 2) + 599139 / 254 * ((r - 7 / 12) ^ 2 * (5 / 8 - r)) + 2017251 / 2540 * (r - 7 / 12) ^ 3 :=
    bern_nonneg hx hy (by norm_num) (by norm_num) (by norm_num) (by norm_num)
  have l1 : 0 ≤ 2114168 / 635 * (5 / 8 - r) ^ 3 + 4553892 / 635 * ((r - 7 / 12) * (5 / 8 - r) ^ 2) + 2956842 / 635 * ((r - 7 / 12) ^ 2 * (5 / 8 - r)) + 512379 / 635 * (r - 7 / 12) ^ 3 :=
    bern_nonneg hx hy (by norm_num) (by norm_num) (by norm_num) (by norm_num)
  have l2 : 0 ≤ 544588 / 635 * (5 / 8 - r) ^ 3 + 1111122 / 635 * ((r - 7 / 12) * (5 / 8 - r) ^ 2) + 644697 / 635 * ((r - 7 / 12) ^ 2 * (5 / 8 - r)) + 153603 / 1270 * (r - 7 / 12) ^ 3 :=
    bern_nonneg hx hy (by norm_num) (by norm_num) (by norm_num) (by norm_num)
  have ls : 0 ≤ 1570924437 / 317500 * (5 / 8 - r) ^ 3 + 9708306831 / 635000 * ((r - 7 / 12) * (5 / 8 - r) ^ 2) + 19924696287 / 1270000 * ((r - 7 / 12) ^ 2 * (5 / 8 - r)) + 13587160293 / 2540000 * (r - 7 / 12) ^ 3 :=
    bern_nonneg hx hy (by norm_num) (by norm_num) (by norm_num) (by norm_num)
  have key : 9 / 20 - (9 / 20 * glideE1 r e v a + (-1) * glideV1 r e v a + (-(3 / 5)) * glideA1 r e v a) =
      (96954 / 127 * (5 / 8 - r) ^ 3 + 295641 / 127 * ((r - 7 / 12) * (5 / 8 - r) ^ 2) + 599139 / 254 * ((r - 7 / 12) ^ 2 * (5 / 8 - r)) + 2017251 / 2540 * (r - 7 / 12) ^ 3) * (1 - (e))
      + (2114168 / 635 * (5 / 8 - r) ^ 3 + 4553892 / 635 * ((r - 7 / 12) * (5 / 8 - r) ^ 2) + 2956842 / 635 * ((r - 7 / 12) ^ 2 * (5 / 8 - r)) + 512379 / 635 * (r - 7 / 12) ^ 3) * (81 / 5000 - (-e + 91 / 200 * v + 19 / 200 * a))
      + (544588 / 635 * (5 / 8 - r) ^ 3 + 1111122 / 635 * ((r - 7 / 12) * (5 / 8 - r) ^ 2) + 644697 / 635 * ((r - 7 / 12) ^ 2 * (5 / 8 - r)) + 153603 / 1270 * (r - 7 / 12) ^ 3) * (5313 / 10000 - (-e + 31 / 50 * v - 9 / 200 * a))
      + (1570924437 / 317500 * (5 / 8 - r) ^ 3 + 9708306831 / 635000 * ((r - 7 / 12) * (5 / 8 - r) ^ 2) + 19924696287 / 1270000 * ((r - 7 / 12) ^ 2 * (5 / 8 - r)) + 13587160293 / 2540000 * (r - 7 / 12) ^ 3) := by
    simp only [glideE1, glideV1, glideA1]; ring
  rw [← sub_nonneg, key]
  exact add_nonneg (add_nonneg (add_nonneg (mul_nonneg l0 (sub_nonneg.2 h.f0)) (mul_nonneg l1 (sub_nonneg.2 h.f1))) (mul_nonneg l2 (sub_nonneg.2 h.f2))) ls

theorem glide_1_3_3 {r e v a : K} (h : Gliding e v a) (hl : 5 / 8 ≤ r) (hu : r ≤ 31 / 48) :
    9 / 20 * glideE1 r e v a + (-1) * glideV1 r e v a + (-(3 / 5)) * glideA1 r e v a ≤ 9 / 20 := by
  have hx : 0 ≤ (r - 5 / 8) := by linarith
  have hy : 0 ≤ (31 / 48 - r) := by linarith
  have l0 : 0 ≤ 133239033 / 15650 * (31 / 48 - r) ^ 3 + 515449323 / 31300 * ((r - 5 / 8) * (31 / 48 - r) ^ 2) + 498657771 / 62600 * ((r - 5 / 8) ^ 2 * (31 / 48 - r)) + 496889 / 125200 * (r - 5 / 8) ^ 3 :=
    bern_nonneg hx hy (by norm_num) (by norm_num) (by norm_num) (by norm_num)
  have l1 : 0 ≤ 2768073291 / 313000 * (31 / 48 - r) ^ 3 + 17962529121 / 626000 * ((r - 5 / 8) * (31 / 48 - r) ^ 2) + 38454907617 / 1252000 * ((r - 5 / 8) ^ 2 * (31 / 48 - r)) + 27208288203 / 2504000 * (r - 5 / 8) ^ 3 :=
    bern_nonneg hx hy (by norm_num) (by norm_num) (by norm_num) (by norm_num)
  have l2 : 0 ≤ 24719300577 / 3130000 * (31 / 48 - r) ^ 3 + 171615319587 / 6260000 * ((r - 5 / 8) * (31 / 48 - r) ^ 2) + 386841211299 / 12520000 * ((r - 5 / 8) ^ 2 * (31 / 48 - r)) + 285048934241 / 25040000 * (r - 5 / 8) ^ 3 :=
    bern_nonneg hx hy (by norm_num) (by norm_num) (by norm_num) (by norm_num)
  have l3 : 0 ≤ 801792 / 625 * (31 / 48 - r) ^ 3 + 2405376 / 625 * ((r - 5 / 8) * (31 / 48 - r) ^ 2) + 2405376 / 625 * ((r - 5 / 8) ^ 2 * (31 / 48 - r)) + 801792 / 625 * (r - 5 / 8) ^ 3 :=
    bern_nonneg hx hy (by norm_num) (by norm_num) (by norm_num) (by norm_num)
  have ls : 0 ≤ 84926087593551 / 3130000000 * (31 / 48 - r) ^ 3 + 471313136483181 / 6260000000 * ((r - 5 / 8) * (31 / 48 - r) ^ 2) + 871141437888237 / 12520000000 * ((r - 5 / 8) ^ 2 * (31 / 48 - r)) + 536324023352783 / 25040000000 * (r - 5 / 8) ^ 3 :=
    bern_nonneg hx hy (by norm_num) (by norm_num) (by norm_num) (by norm_num)
  have key : 9 / 20 - (9 / 20 * glideE1 r e v a + (-1) * glideV1 r e v a + (-(3 / 5)) * glideA1 r e v a) =
      (133239033 / 15650 * (31 / 48 - r) ^ 3 + 515449323 / 31300 * ((r - 5 / 8) * (31 / 48 - r) ^ 2) + 498657771 / 62600 * ((r - 5 / 8) ^ 2 * (31 / 48 - r)) + 496889 / 125200 * (r - 5 / 8) ^ 3) * (81 / 5000 - (-e + 91 / 200 * v + 19 / 200 * a))
      + (2768073291 / 313000 * (31 / 48 - r) ^ 3 + 17962529121 / 626000 * ((r - 5 / 8) * (31 / 48 - r) ^ 2) + 38454907617 / 1252000 * ((r - 5 / 8) ^ 2 * (31 / 48 - r)) + 27208288203 / 2504000 * (r - 5 / 8) ^ 3) * (20319 / 10000 - (33 / 100 * e + v + 3 / 50 * a))
      + (24719300577 / 3130000 * (31 / 48 - r) ^ 3 + 171615319587 / 6260000 * ((r - 5 / 8) * (31 / 48 - r) ^ 2) + 386841211299 / 12520000 * ((r - 5 / 8) ^ 2 * (31 / 48 - r)) + 285048934241 / 25040000 * (r - 5 / 8) ^ 3) * (1 / 2 - (1 / 2 * e - v))
      + (801792 / 625 * (31 / 48 - r) ^ 3 + 2405376 / 625 * ((r - 5 / 8) * (31 / 48 - r) ^ 2) + 2405376 / 625 * ((r - 5 / 8) ^ 2 * (31 / 48 - r)) + 801792 / 625 * (r - 5 / 8) ^ 3) * (9 / 20 - (9 / 20 * e - v - 3 / 5 * a))
      + (84926087593551 / 3130000000 * (31 / 48 - r) ^ 3 + 471313136483181 / 6260000000 * ((r - 5 / 8) * (31 / 48 - r) ^ 2) + 871141437888237 / 12520000000 * ((r - 5 / 8) ^ 2 * (31 / 48 - r)) + 536324023352783 / 25040000000 * (r - 5 / 8) ^ 3) := by
    simp only [glideE1, glideV1, glideA1]; ring
  rw [← sub_nonneg, key]
  exact add_nonneg (add_nonneg (add_nonneg (add_nonneg (mul_nonneg l0 (sub_nonneg.2 h.f1)) (mul_nonneg l1 (sub_nonneg.2 h.f5))) (mul_nonneg l2 (sub_nonneg.2 h.f7))) (mul_nonneg l3 (sub_nonneg.2 h.f3))) ls

theorem glide_1_3_4 {r e v a : K} (h : Gliding e v a) (hl : 31 / 48 ≤ r) (hu : r ≤ 2 / 3) :
    9 / 20 * glideE1 r e v a + (-1) * glideV1 r e v a + (-(3 / 5)) * glideA1 r e v a ≤ 9 / 20 := by
  have hx : 0 ≤ (r - 31 / 48) := by linarith
  have hy : 0 ≤ (2 / 3 - r) := by linarith
  have l0 : 0 ≤ 2580349 / 240 * (2 / 3 - r) ^ 3 + 249077 / 5 * ((r - 31 / 48) * (2 / 3 - r) ^ 2) + 330832 / 5 * ((r - 31 / 48) ^ 2 * (2 / 3 - r)) + 406784 / 15 * (r - 31 / 48) ^ 3 :=
    bern_nonneg hx hy (by norm_num) (by norm_num) (by norm_num) (by norm_num)
  have l1 : 0 ≤ 46955 / 18 * (2 / 3 - r) ^ 3 + 66320 / 3 * ((r - 31 / 48) * (2 / 3 - r) ^ 2) + 106240 / 3 * ((r - 31 / 48) ^ 2 * (2 / 3 - r)) + 143360 / 9 * (r - 31 / 48) ^ 3 :=
    bern_nonneg hx hy (by norm_num) (by norm_num) (by norm_num) (by norm_num)
  have l2 : 0 ≤ 1229837 / 360 * (2 / 3 - r) ^ 3 + 361382 / 15 * ((r - 31 / 48) * (2 / 3 - r) ^ 2) + 554848 / 15 * ((r - 31 / 48) ^ 2 * (2 / 3 - r)) + 146944 / 9 * (r - 31 / 48) ^ 3 :=
    bern_nonneg hx hy (by norm_num) (by norm_num) (by norm_num) (by norm_num)
  have ls : 0 ≤ 1293151817 / 36000 * (2 / 3 - r) ^ 3 + 28384673 / 375 * ((r - 31 / 48) * (2 / 3 - r) ^ 2) + 17183536 / 375 * ((r - 31 / 48) ^ 2 * (2 / 3 - r)) + 6773504 / 1125 * (r - 31 / 48) ^ 3 :=
    bern_nonneg hx hy (by norm_num) (by norm_num) (by norm_num) (by norm_num)
  have key : 9 / 20 - (9 / 20 * glideE1 r e v a + (-1) * glideV1 r e v a + (-(3 / 5)) * glideA1 r e v a) =
      (2580349 / 240 * (2 / 3 - r) ^ 3 + 249077 / 5 * ((r - 31 / 48) * (2 / 3 - r) ^ 2) + 330832 / 5 * ((r - 31 / 48) ^ 2 * (2 / 3 - r)) + 406784 / 15 * (r - 31 / 48) ^ 3) * (1 - (e))
      + (46955 / 18 * (2 / 3 - r) ^ 3 + 66320 / 3 * ((r - 31 / 48) * (2 / 3 - r) ^ 2) + 106240 / 3 * ((r - 31 / 48) ^ 2 * (2 / 3 - r)) + 143360 / 9 * (r - 31 / 48) ^ 3) * (5313 / 10000 - (-e + 31 / 50 * v - 9 / 200 * a))
      + (1229837 / 360 * (2 / 3 - r) ^ 3 + 361382 / 15 * ((r - 31 / 48) * (2 / 3 - r) ^ 2) + 554848 / 15 * ((r - 31 / 48) ^ 2 * (2 / 3 - r)) + 146944 / 9 * (r - 31 / 48) ^ 3) * (1 / 2 - (1 / 2 * e - v))
      + (1293151817 / 36000 * (2 / 3 - r) ^ 3 + 28384673 / 375 * ((r - 31 / 48) * (2 / 3 - r) ^ 2) + 17183536 / 375 * ((r - 31 / 48) ^ 2 * (2 / 3 - r)) + 6773504 / 1125 * (r - 31 / 48) ^ 3) := by
    simp only [glideE1, glideV1, glideA1]; ring
  rw [← sub_nonneg, key]
  exact add_nonneg (add_nonneg (add_nonneg (mul_nonneg l0 (sub_nonneg.2 h.f0)) (mul_nonneg l1 (sub_nonneg.2 h.f2))) (mul_nonneg l2 (sub_nonneg.2 h.f7))) ls

theorem Gliding.step1_3 {r e v a : K} (h : Gliding e v a) (hl : 1 / 3 ≤ r) (hu : r ≤ 2 / 3) :
    9 / 20 * glideE1 r e v a + (-1) * glideV1 r e v a + (-(3 / 5)) * glideA1 r e v a ≤ 9 / 20 := by
  rcases le_total r (1 / 2) with c0 | c0
  · exact glide_1_3_0 h hl c0
  rcases le_total r (7 / 12) with c1 | c1
  · exact glide_1_3_1 h c0 c1
  rcases le_total r (5 / 8) with c2 | c2
  · exact glide_1_3_2 h c1 c2
  rcases le_total r (31 / 48) with c3 | c3
  · exact glide_1_3_3 h c2 c3
  exact glide_1_3_4 h c3 hu

theorem glide_1_4_0 {r e v a : K} (h : Gliding e v a) (hl : 1 / 3 ≤ r) (hu : r ≤ 2 / 3) :
    (-1) * glideE1 r e v a + 41 / 200 * glideV1 r e v a + (-(1 / 200)) * glideA1 r e v a ≤ 589 / 10000 := by
  have hx : 0 ≤ (r - 1 / 3) := by linarith
  have hy : 0 ≤ (2 / 3 - r) := by linarith
  have l0 : 0 ≤ 2172253 / 247200 * (2 / 3 - r) ^ 3 + 2487127 / 164800 * ((r - 1 / 3) * (2 / 3 - r) ^ 2) + 184379 / 41200 * ((r - 1 / 3) ^ 2 * (2 / 3 - r)) + 346267 / 494400 * (r - 1 / 3) ^ 3 :=
    bern_nonneg hx hy (by norm_num) (by norm_num) (by norm_num) (by norm_num)
  have l1 : 0 ≤ 171139 / 123600 * (2 / 3 - r) ^ 3 + 211081 / 82400 * ((r - 1 / 3) * (2 / 3 - r) ^ 2) + 10337 / 20600 * ((r - 1 / 3) ^ 2 * (2 / 3 - r)) + 17821 / 247200 * (r - 1 / 3) ^ 3 :=
    bern_nonneg hx hy (by norm_num) (by norm_num) (by norm_num) (by norm_num)
  have l2 : 0 ≤ 120847 / 16480 * (2 / 3 - r) ^ 3 + 377031 / 32960 * ((r - 1 / 3) * (2 / 3 - r) ^ 2) + 41307 / 8240 * ((r - 1 / 3) ^ 2 * (2 / 3 - r)) + 27193 / 32960 * (r - 1 / 3) ^ 3 :=
    bern_nonneg hx hy (by norm_num) (by norm_num) (by norm_num) (by norm_num)
  have ls : 0 ≤ 46207357 / 164800000 * (2 / 3 - r) ^ 3 + 6569961 / 2636800 * ((r - 1 / 3) * (2 / 3 - r) ^ 2) + 68170053 / 16480000 * ((r - 1 / 3) ^ 2 * (2 / 3 - r)) + 491782123 / 329600000 * (r - 1 / 3) ^ 3 :=
    bern_nonneg hx hy (by norm_num) (by norm_num) (by norm_num) (by norm_num)
  have key : 589 / 10000 - ((-1) * glideE1 r e v a + 41 / 200 * glideV1 r e v a + (-(1 / 200)) * glideA1 r e v a) =
      (2172253 / 247200 * (2 / 3 - r) ^ 3 + 2487127 / 164800 * ((r - 1 / 3) * (2 / 3 - r) ^ 2) + 184379 / 41200 * ((r - 1 / 3) ^ 2 * (2 / 3 - r)) + 346267 / 494400 * (r - 1 / 3) ^ 3) * (81 / 5000 - (-e + 91 / 200 * v + 19 / 200 * a))
      + (171139 / 123600 * (2 / 3 - r) ^ 3 + 211081 / 82400 * ((r - 1 / 3) * (2 / 3 - r) ^ 2) + 10337 / 20600 * ((r - 1 / 3) ^ 2 * (2 / 3 - r)) + 17821 / 247200 * (r - 1 / 3) ^ 3) * (5313 / 10000 - (-e + 31 / 50 * v - 9 / 200 * a))
      + (120847 / 16480 * (2 / 3 - r) ^ 3 + 377031 / 32960 * ((r - 1 / 3) * (2 / 3 - r) ^ 2) + 41307 / 8240 * ((r - 1 / 3) ^ 2 * (2 / 3 - r)) + 27193 / 32960 * (r - 1 / 3) ^ 3) * (589 / 10000 - (-e + 41 / 200 * v - 1 / 200 * a))
      + (46207357 / 164800000 * (2 / 3 - r) ^ 3 + 6569961 / 2636800 * ((r - 1 / 3) * (2 / 3 - r) ^ 2) + 68170053 / 16480000 * ((r - 1 / 3) ^ 2 * (2 / 3 - r)) + 491782123 / 329600000 * (r - 1 / 3) ^ 3) := by
    simp only [glideE1, glideV1, glideA1]; ring
  rw [← sub_nonneg, key]
  exact add_nonneg (add_nonneg (add_nonneg (mul_nonneg l0 (sub_nonneg.2 h.f1)) (mul_nonneg l1 (sub_nonneg.2 h.f2))) (mul_nonneg l2 (sub_nonneg.2 h.f4))) ls

theorem Gliding.step1_4 {r e v a : K} (h : Gliding e v a) (hl : 1 / 3 ≤ r) (hu : r ≤ 2 / 3) :
    (-1) * glideE1 r e v a + 41 / 200 * glideV1 r e v a + (-(1 / 200)) * glideA1 r e v a ≤ 589 / 10000 := by
  exact glide_1_4_0 h hl hu

theorem glide_1_5_0 {r e v a : K} (h : Gliding e v a) (hl : 1 / 3 ≤ r) (hu : r ≤ 2 / 3) :
    33 / 100 * glideE1 r e v a + 1 * glideV1 r e v a + 3 / 50 * glideA1 r e v a ≤ 20319 / 10000 := by
  have hx : 0 ≤ (r - 1 / 3) := by linarith
  have hy : 0 ≤ (2 / 3 - r) := by linarith
  have l0 : 0 ≤ 60447 / 1600 * (2 / 3 - r) ^ 3 + 47067 / 400 * ((r - 1 / 3) * (2 / 3 - r) ^ 2) + 567 / 8 * ((r - 1 / 3) ^ 2 * (2 / 3 - r)) + 8943 / 800 * (r - 1 / 3) ^ 3 :=
    bern_nonneg hx hy (by norm_num) (by norm_num) (by norm_num) (by norm_num)
  have l1 : 0 ≤ 39 / 80 * (2 / 3 - r) ^ 3 + 159 / 20 * ((r - 1 / 3) * (2 / 3 - r) ^ 2) + 27 / 5 * ((r - 1 / 3) ^ 2 * (2 / 3 - r)) + 33 / 40 * (r - 1 / 3) ^ 3 :=
    bern_nonneg hx hy (by norm_num) (by norm_num) (by norm_num) (by norm_num)
  have l2 : 0 ≤ 93 / 16 * (2 / 3 - r) ^ 3 + 723 / 20 * ((r - 1 / 3) * (2 / 3 - r) ^ 2) + 2349 / 100 * ((r - 1 / 3) ^ 2 * (2 / 3 - r)) + 363 / 100 * (r - 1 / 3) ^ 3 :=
    bern_nonneg hx hy (by norm_num) (by norm_num) (by norm_num) (by norm_num)
  have ls : 0 ≤ 139563 / 10000 * (2 / 3 - r) ^ 3 + 252639 / 10000 * ((r - 1 / 3) * (2 / 3 - r) ^ 2) + 795339 / 10000 * ((r - 1 / 3) ^ 2 * (2 / 3 - r)) + 414963 / 10000 * (r - 1 / 3) ^ 3 :=
    bern_nonneg hx hy (by norm_num) (by norm_num) (by norm_num) (by norm_num)
  have key : 20319 / 10000 - (33 / 100 * glideE1 r e v a + 1 * glideV1 r e v a + 3 / 50 * glideA1 r e v a) =
      (60447 / 1600 * (2 / 3 - r) ^ 3 + 47067 / 400 * ((r - 1 / 3) * (2 / 3 - r) ^ 2) + 567 / 8 * ((r - 1 / 3) ^ 2 * (2 / 3 - r)) + 8943 / 800 * (r - 1 / 3) ^ 3) * (1 - (e))
      + (39 / 80 * (2 / 3 - r) ^ 3 + 159 / 20 * ((r - 1 / 3) * (2 / 3 - r) ^ 2) + 27 / 5 * ((r - 1 / 3) ^ 2 * (2 / 3 - r)) + 33 / 40 * (r - 1 / 3) ^ 3) * (9 / 20 - (9 / 20 * e - v - 3 / 5 * a))
      + (93 / 16 * (2 / 3 - r) ^ 3 + 723 / 20 * ((r - 1 / 3) * (2 / 3 - r) ^ 2) + 2349 / 100 * ((r - 1 / 3) ^ 2 * (2 / 3 - r)) + 363 / 100 * (r - 1 / 3) ^ 3) * (1 / 2 - (1 / 2 * e - v))
      + (139563 / 10000 * (2 / 3 - r) ^ 3 + 252639 / 10000 * ((r - 1 / 3) * (2 / 3 - r) ^ 2) + 795339 / 10000 * ((r - 1 / 3) ^ 2 * (2 / 3 - r)) + 414963 / 10000 * (r - 1 / 3) ^ 3) := by
    simp only [glideE1, glideV1, glideA1]; ring
  rw [← sub_nonneg, key]
  exact add_nonneg (add_nonneg (add_nonneg (mul_nonneg l0 (sub_nonneg.2 h.f0)) (mul_nonneg l1 (sub_nonneg.2 h.f3))) (mul_nonneg l2 (sub_nonneg.2 h.f7))) ls

theorem Gliding.step1_5 {r e v a : K} (h : Gliding e v a) (hl : 1 / 3 ≤ r) (hu : r ≤ 2 / 3) :
    33 / 100 * glideE1 r e v a + 1 * glideV1 r e v a + 3 / 50 * glideA1 r e v a ≤ 20319 / 10000 := by
  exact glide_1_5_0 h hl hu

theorem glide_1_6_0 {r e v a : K} (h : Gliding e v a) (hl : 1 / 3 ≤ r) (hu : r ≤ 2 / 3) :
    (-1) * glideE1 r e v a + (-(3 / 200)) * glideV1 r e v a ≤ 591 / 10000 := by
  have hx : 0 ≤ (r - 1 / 3) := by linarith
  have hy : 0 ≤ (2 / 3 - r) := by linarith
  have l0 : 0 ≤ 15486839 / 894522 * (2 / 3 - r) ^ 3 + 30580073 / 596348 * ((r - 1 / 3) * (2 / 3 - r) ^ 2) + 3875905 / 149087 * ((r - 1 / 3) ^ 2 * (2 / 3 - r)) + 3875905 / 894522 * (r - 1 / 3) ^ 3 :=
    bern_nonneg hx hy (by norm_num) (by norm_num) (by norm_num) (by norm_num)
  have l1 : 0 ≤ 7967951 / 4472610 * (2 / 3 - r) ^ 3 + 13990553 / 2981740 * ((r - 1 / 3) * (2 / 3 - r) ^ 2) + 3540251 / 1490870 * ((r - 1 / 3) ^ 2 * (2 / 3 - r)) + 3540251 / 8945220 * (r - 1 / 3) ^ 3 :=
    bern_nonneg hx hy (by norm_num) (by norm_num) (by norm_num) (by norm_num)
  have l2 : 0 ≤ 5719303 / 894522 * (2 / 3 - r) ^ 3 + 3968713 / 596348 * ((r - 1 / 3) * (2 / 3 - r) ^ 2) + 489896 / 149087 * ((r - 1 / 3) ^ 2 * (2 / 3 - r)) + 244948 / 447261 * (r - 1 / 3) ^ 3 :=
    bern_nonneg hx hy (by norm_num) (by norm_num) (by norm_num) (by norm_num)
  have ls : 0 ≤ 404585221 / 2981740000 * (2 / 3 - r) ^ 3 + 8656796199 / 5963480000 * ((r - 1 / 3) * (2 / 3 - r) ^ 2) + 4626405681 / 1490870000 * ((r - 1 / 3) ^ 2 * (2 / 3 - r)) + 1960558243 / 1490870000 * (r - 1 / 3) ^ 3 :=
    bern_nonneg hx hy (by norm_num) (by norm_num) (by norm_num) (by norm_num)
  have key : 591 / 10000 - ((-1) * glideE1 r e v a + (-(3 / 200)) * glideV1 r e v a) =
      (15486839 / 894522 * (2 / 3 - r) ^ 3 + 30580073 / 596348 * ((r - 1 / 3) * (2 / 3 - r) ^ 2) + 3875905 / 149087 * ((r - 1 / 3) ^ 2 * (2 / 3 - r)) + 3875905 / 894522 * (r - 1 / 3) ^ 3) * (81 / 5000 - (-e + 91 / 200 * v + 19 / 200 * a))
      + (7967951 / 4472610 * (2 / 3 - r) ^ 3 + 13990553 / 2981740 * ((r - 1 / 3) * (2 / 3 - r) ^ 2) + 3540251 / 1490870 * ((r - 1 / 3) ^ 2 * (2 / 3 - r)) + 3540251 / 8945220 * (r - 1 / 3) ^ 3) * (9 / 20 - (9 / 20 * e - v - 3 / 5 * a))
      + (5719303 / 894522 * (2 / 3 - r) ^ 3 + 3968713 / 596348 * ((r - 1 / 3) * (2 / 3 - r) ^ 2) + 489896 / 149087 * ((r - 1 / 3) ^ 2 * (2 / 3 - r)) + 244948 / 447261 * (r - 1 / 3) ^ 3) * (591 / 10000 - (-e - 3 / 200 * v))
      + (404585221 / 2981740000 * (2 / 3 - r) ^ 3 + 8656796199 / 5963480000 * ((r - 1 / 3) * (2 / 3 - r) ^ 2) + 4626405681 / 1490870000 * ((r - 1 / 3) ^ 2 * (2 / 3 - r)) + 1960558243 / 1490870000 * (r - 1 / 3) ^ 3) := by
    simp only [glideE1, glideV1]; ring
  rw [← sub_nonneg, key]
  exact add_nonneg (add_nonneg (add_nonneg (mul_nonneg l0 (sub_nonneg.2 h.f1)) (mul_nonneg l1 (sub_nonneg.2 h.f3))) (mul_nonneg l2 (sub_nonneg.2 h.f6))) ls

theorem Gliding.step1_6 {r e v a : K} (h : Gliding e v a) (hl : 1 / 3 ≤ r) (hu : r ≤ 2 / 3) :
    (-1) * glideE1 r e v a + (-(3 / 200)) * glideV1 r e v a ≤ 591 / 10000 := by
  exact glide_1_6_0 h hl hu

theorem glide_1_7_0 {r e v a : K} (h : Gliding e v a) (hl : 1 / 3 ≤ r) (hu : r ≤ 2 / 3) :
    1 / 2 * glideE1 r e v a + (-1) * glideV1 r e v a ≤ 1 / 2 := by
  have hx : 0 ≤ (r - 1 / 3) := by linarith
  have hy : 0 ≤ (2 / 3 - r) := by linarith
  have l0 : 0 ≤ 123725 / 5619 * (2 / 3 - r) ^ 3 + 194950 / 1873 * ((r - 1 / 3) * (2 / 3 - r) ^ 2) + 135500 / 1873 * ((r - 1 / 3) ^ 2 * (2 / 3 - r)) + 67750 / 5619 * (r - 1 / 3) ^ 3 :=
    bern_nonneg hx hy (by norm_num) (by norm_num) (by norm_num) (by norm_num)
  have l1 : 0 ≤ 36005 / 7492 * (2 / 3 - r) ^ 3 + 44565 / 3746 * ((r - 1 / 3) * (2 / 3 - r) ^ 2) + 13650 / 1873 * ((r - 1 / 3) ^ 2 * (2 / 3 - r)) + 2275 / 1873 * (r - 1 / 3) ^ 3 :=
    bern_nonneg hx hy (by norm_num) (by norm_num) (by norm_num) (by norm_num)
  have l2 : 0 ≤ 369185 / 44952 * (2 / 3 - r) ^ 3 + 63395 / 7492 * ((r - 1 / 3) * (2 / 3 - r) ^ 2) + 5860 / 1873 * ((r - 1 / 3) ^ 2 * (2 / 3 - r)) + 2930 / 5619 * (r - 1 / 3) ^ 3 :=
    bern_nonneg hx hy (by norm_num) (by norm_num) (by norm_num) (by norm_num)
  have ls : 0 ≤ 7725281 / 1123800 * (2 / 3 - r) ^ 3 + 5474681 / 187300 * ((r - 1 / 3) * (2 / 3 - r) ^ 2) + 645889 / 18730 * ((r - 1 / 3) ^ 2 * (2 / 3 - r)) + 702227 / 56190 * (r - 1 / 3) ^ 3 :=
    bern_nonneg hx hy (by norm_num) (by norm_num) (by norm_num) (by norm_num)
  have key : 1 / 2 - (1 / 2 * glideE1 r e v a + (-1) * glideV1 r e v a) =
      (123725 / 5619 * (2 / 3 - r) ^ 3 + 194950 / 1873 * ((r - 1 / 3) * (2 / 3 - r) ^ 2) + 135500 / 1873 * ((r - 1 / 3) ^ 2 * (2 / 3 - r)) + 67750 / 5619 * (r - 1 / 3) ^ 3) * (81 / 5000 - (-e + 91 / 200 * v + 19 / 200 * a))
      + (36005 / 7492 * (2 / 3 - r) ^ 3 + 44565 / 3746 * ((r - 1 / 3) * (2 / 3 - r) ^ 2) + 13650 / 1873 * ((r - 1 / 3) ^ 2 * (2 / 3 - r)) + 2275 / 1873 * (r - 1 / 3) ^ 3) * (9 / 20 - (9 / 20 * e - v - 3 / 5 * a))
      + (369185 / 44952 * (2 / 3 - r) ^ 3 + 63395 / 7492 * ((r - 1 / 3) * (2 / 3 - r) ^ 2) + 5860 / 1873 * ((r - 1 / 3) ^ 2 * (2 / 3 - r)) + 2930 / 5619 * (r - 1 / 3) ^ 3) * (1 / 2 - (1 / 2 * e - v))
      + (7725281 / 1123800 * (2 / 3 - r) ^ 3 + 5474681 / 187300 * ((r - 1 / 3) * (2 / 3 - r) ^ 2) + 645889 / 18730 * ((r - 1 / 3) ^ 2 * (2 / 3 - r)) + 702227 / 56190 * (r - 1 / 3) ^ 3) := by
    simp only [glideE1, glideV1]; ring
  rw [← sub_nonneg, key]
  exact add_nonneg (add_nonneg (add_nonneg (mul_nonneg l0 (sub_nonneg.2 h.f1)) (mul_nonneg l1 (sub_nonneg.2 h.f3))) (mul_nonneg l2 (sub_nonneg.2 h.f7))) ls

theorem Gliding.step1_7 {r e v a : K} (h : Gliding e v a) (hl : 1 / 3 ≤ r) (hu : r ≤ 2 / 3) :
    1 / 2 * glideE1 r e v a + (-1) * glideV1 r e v a ≤ 1 / 2 := by
  exact glide_1_7_0 h hl hu

/-- The polytope is kept in piece 1. -/
theorem Gliding.step1 {r e v a : K} (h : Gliding e v a) (hl : 1 / 3 ≤ r) (hu : r ≤ 2 / 3) :
    Gliding (glideE1 r e v a) (glideV1 r e v a) (glideA1 r e v a) := by
  have h0 := h.step1_0 hl hu
  have h1 := h.step1_1 hl hu
  have h2 := h.step1_2 hl hu
  have h3 := h.step1_3 hl hu
  have h4 := h.step1_4 hl hu
  have h5 := h.step1_5 hl hu
  have h6 := h.step1_6 hl hu
  have h7 := h.step1_7 hl hu
  constructor <;> linarith

theorem glide_2_0_0 {r e v a : K} (h : Gliding e v a) (hl : 2 / 3 ≤ r) (hu : r ≤ 1) :
    1 * glideE2 r e v a ≤ 1 := by
  have hx : 0 ≤ (r - 2 / 3) := by linarith
  have hy : 0 ≤ (1 - r) := by linarith
  have l0 : 0 ≤ 227 / 36 * (1 - r) ^ 3 + 0 * ((r - 2 / 3) * (1 - r) ^ 2) + 0 * ((r - 2 / 3) ^ 2 * (1 - r)) + 0 * (r - 2 / 3) ^ 3 :=
    bern_nonneg hx hy (by norm_num) (by norm_num) (by norm_num) (by norm_num)
  have l1 : 0 ≤ 100 / 27 * (1 - r) ^ 3 + 0 * ((r - 2 / 3) * (1 - r) ^ 2) + 0 * ((r - 2 / 3) ^ 2 * (1 - r)) + 0 * (r - 2 / 3) ^ 3 :=
    bern_nonneg hx hy (by norm_num) (by norm_num) (by norm_num) (by norm_num)
  have l2 : 0 ≤ 205 / 54 * (1 - r) ^ 3 + 0 * ((r - 2 / 3) * (1 - r) ^ 2) + 0 * ((r - 2 / 3) ^ 2 * (1 - r)) + 0 * (r - 2 / 3) ^ 3 :=
    bern_nonneg hx hy (by norm_num) (by norm_num) (by norm_num) (by norm_num)
  have ls : 0 ≤ 45437 / 2700 * (1 - r) ^ 3 + 81 * ((r - 2 / 3) * (1 - r) ^ 2) + 81 * ((r - 2 / 3) ^ 2 * (1 - r)) + 27 * (r - 2 / 3) ^ 3 :=
    bern_nonneg hx hy (by norm_num) (by norm_num) (by norm_num) (by norm_num)
  have key : 1 - (1 * glideE2 r e v a) =
      (227 / 36 * (1 - r) ^ 3 + 0 * ((r - 2 / 3) * (1 - r) ^ 2) + 0 * ((r - 2 / 3) ^ 2 * (1 - r)) + 0 * (r - 2 / 3) ^ 3) * (1 - (e))
      + (100 / 27 * (1 - r) ^ 3 + 0 * ((r - 2 / 3) * (1 - r) ^ 2) + 0 * ((r - 2 / 3) ^ 2 * (1 - r)) + 0 * (r - 2 / 3) ^ 3) * (5313 / 10000 - (-e + 31 / 50 * v - 9 / 200 * a))
      + (205 / 54 * (1 - r) ^ 3 + 0 * ((r - 2 / 3) * (1 - r) ^ 2) + 0 * ((r - 2 / 3) ^ 2 * (1 - r)) + 0 * (r - 2 / 3) ^ 3) * (1 / 2 - (1 / 2 * e - v))
      + (45437 / 2700 * (1 - r) ^ 3 + 81 * ((r - 2 / 3) * (1 - r) ^ 2) + 81 * ((r - 2 / 3) ^ 2 * (1 - r)) + 27 * (r - 2 / 3) ^ 3) := by
    simp only [glideE2]; ring
  rw [← sub_nonneg, key]
  exact add_nonneg (add_nonneg (add_nonneg (mul_nonneg l0 (sub_nonneg.2 h.f0)) (mul_nonneg l1 (sub_nonneg.2 h.f2))) (mul_nonneg l2 (sub_nonneg.2 h.f7))) ls

theorem Gliding.step2_0 {r e v a : K} (h : Gliding e v a) (hl : 2 / 3 ≤ r) (hu : r ≤ 1) :
    1 * glideE2 r e v a ≤ 1 := by
  exact glide_2_0_0 h hl hu

theorem glide_2_1_0 {r e v a : K} (h : Gliding e v a) (hl : 2 / 3 ≤ r) (hu : r ≤ 1) :
    (-1) * glideE2 r e v a + 91 / 200 * glideV2 r e v a + 19 / 200 * glideA2 r e v a ≤ 81 / 5000 := by
  have hx : 0 ≤ (r - 2 / 3) := by linarith
  have hy : 0 ≤ (1 - r) := by linarith
  have l0 : 0 ≤ 10291 / 104400 * (1 - r) ^ 3 + 0 * ((r - 2 / 3) * (1 - r) ^ 2) + 0 * ((r - 2 / 3) ^ 2 * (1 - r)) + 0 * (r - 2 / 3) ^ 3 :=
    bern_nonneg hx hy (by norm_num) (by norm_num) (by norm_num) (by norm_num)
  have l1 : 0 ≤ 205 / 522 * (1 - r) ^ 3 + 0 * ((r - 2 / 3) * (1 - r) ^ 2) + 0 * ((r - 2 / 3) ^ 2 * (1 - r)) + 0 * (r - 2 / 3) ^ 3 :=
    bern_nonneg hx hy (by norm_num) (by norm_num) (by norm_num) (by norm_num)
  have l2 : 0 ≤ 164 / 261 * (1 - r) ^ 3 + 0 * ((r - 2 / 3) * (1 - r) ^ 2) + 0 * ((r - 2 / 3) ^ 2 * (1 - r)) + 0 * (r - 2 / 3) ^ 3 :=
    bern_nonneg hx hy (by norm_num) (by norm_num) (by norm_num) (by norm_num)
  have ls : 0 ≤ 42841 / 145000 * (1 - r) ^ 3 + 6561 / 5000 * ((r - 2 / 3) * (1 - r) ^ 2) + 6561 / 5000 * ((r - 2 / 3) ^ 2 * (1 - r)) + 2187 / 5000 * (r - 2 / 3) ^ 3 :=
    bern_nonneg hx hy (by norm_num) (by norm_num) (by norm_num) (by norm_num)
  have key : 81 / 5000 - ((-1) * glideE2 r e v a + 91 / 200 * glideV2 r e v a + 19 / 200 * glideA2 r e v a) =
      (10291 / 104400 * (1 - r) ^ 3 + 0 * ((r - 2 / 3) * (1 - r) ^ 2) + 0 * ((r - 2 / 3) ^ 2 * (1 - r)) + 0 * (r - 2 / 3) ^ 3) * (1 - (e))
      + (205 / 522 * (1 - r) ^ 3 + 0 * ((r - 2 / 3) * (1 - r) ^ 2) + 0 * ((r - 2 / 3) ^ 2 * (1 - r)) + 0 * (r - 2 / 3) ^ 3) * (81 / 5000 - (-e + 91 / 200 * v + 19 / 200 * a))
      + (164 / 261 * (1 - r) ^ 3 + 0 * ((r - 2 / 3) * (1 - r) ^ 2) + 0 * ((r - 2 / 3) ^ 2 * (1 - r)) + 0 * (r - 2 / 3) ^ 3) * (589 / 10000 - (-e + 41 / 200 * v - 1 / 200 * a))
      + (42841 / 145000 * (1 - r) ^ 3 + 6561 / 5000 * ((r - 2 / 3) * (1 - r) ^ 2) + 6561 / 5000 * ((r - 2 / 3) ^ 2 * (1 - r)) + 2187 / 5000 * (r - 2 / 3) ^ 3) := by
    simp only [glideE2, glideV2, glideA2]; ring
  rw [← sub_nonneg, key]
  exact add_nonneg (add_nonneg (add_nonneg (mul_nonneg l0 (sub_nonneg.2 h.f0)) (mul_nonneg l1 (sub_nonneg.2 h.f1))) (mul_nonneg l2 (sub_nonneg.2 h.f4))) ls

theorem Gliding.step2_1 {r e v a : K} (h : Gliding e v a) (hl : 2 / 3 ≤ r) (hu : r ≤ 1) :
    (-1) * glideE2 r e v a + 91 / 200 * glideV2 r e v a + 19 / 200 * glideA2 r e v a ≤ 81 / 5000 := by
  exact glide_2_1_0 h hl hu

theorem glide_2_2_0 {r e v a : K} (h : Gliding e v a) (hl : 2 / 3 ≤ r) (hu : r ≤ 1) :
    (-1) * glideE2 r e v a + 31 / 50 * glideV2 r e v a + (-(9 / 200)) * glideA2 r e v a ≤ 5313 / 10000 := by
  have hx : 0 ≤ (r - 2 / 3) := by linarith
  have hy : 0 ≤ (1 - r) := by linarith
  have l0 : 0 ≤ 25651 / 3600 * (1 - r) ^ 3 + 0 * ((r - 2 / 3) * (1 - r) ^ 2) + 0 * ((r - 2 / 3) ^ 2 * (1 - r)) + 0 * (r - 2 / 3) ^ 3 :=
    bern_nonneg hx hy (by norm_num) (by norm_num) (by norm_num) (by norm_num)
  have l1 : 0 ≤ 113 / 27 * (1 - r) ^ 3 + 0 * ((r - 2 / 3) * (1 - r) ^ 2) + 0 * ((r - 2 / 3) ^ 2 * (1 - r)) + 0 * (r - 2 / 3) ^ 3 :=
    bern_nonneg hx hy (by norm_num) (by norm_num) (by norm_num) (by norm_num)
  have l2 : 0 ≤ 4633 / 1080 * (1 - r) ^ 3 + 0 * ((r - 2 / 3) * (1 - r) ^ 2) + 0 * ((r - 2 / 3) ^ 2 * (1 - r)) + 0 * (r - 2 / 3) ^ 3 :=
    bern_nonneg hx hy (by norm_num) (by norm_num) (by norm_num) (by norm_num)
  have ls : 0 ≤ 384929 / 135000 * (1 - r) ^ 3 + 430353 / 10000 * ((r - 2 / 3) * (1 - r) ^ 2) + 430353 / 10000 * ((r - 2 / 3) ^ 2 * (1 - r)) + 143451 / 10000 * (r - 2 / 3) ^ 3 :=
    bern_nonneg hx hy (by norm_num) (by norm_num) (by norm_num) (by norm_num)
  have key : 5313 / 10000 - ((-1) * glideE2 r e v a + 31 / 50 * glideV2 r e v a + (-(9 / 200)) * glideA2 r e v a) =
      (25651 / 3600 * (1 - r) ^ 3 + 0 * ((r - 2 / 3) * (1 - r) ^ 2) + 0 * ((r - 2 / 3) ^ 2 * (1 - r)) + 0 * (r - 2 / 3) ^ 3) * (1 - (e))
      + (113 / 27 * (1 - r) ^ 3 + 0 * ((r - 2 / 3) * (1 - r) ^ 2) + 0 * ((r - 2 / 3) ^ 2 * (1 - r)) + 0 * (r - 2 / 3) ^ 3) * (5313 / 10000 - (-e + 31 / 50 * v - 9 / 200 * a))
      + (4633 / 1080 * (1 - r) ^ 3 + 0 * ((r - 2 / 3) * (1 - r) ^ 2) + 0 * ((r - 2 / 3) ^ 2 * (1 - r)) + 0 * (r - 2 / 3) ^ 3) * (1 / 2 - (1 / 2 * e - v))
      + (384929 / 135000 * (1 - r) ^ 3 + 430353 / 10000 * ((r - 2 / 3) * (1 - r) ^ 2) + 430353 / 10000 * ((r - 2 / 3) ^ 2 * (1 - r)) + 143451 / 10000 * (r - 2 / 3) ^ 3) := by
    simp only [glideE2, glideV2, glideA2]; ring
  rw [← sub_nonneg, key]
  exact add_nonneg (add_nonneg (add_nonneg (mul_nonneg l0 (sub_nonneg.2 h.f0)) (mul_nonneg l1 (sub_nonneg.2 h.f2))) (mul_nonneg l2 (sub_nonneg.2 h.f7))) ls

theorem Gliding.step2_2 {r e v a : K} (h : Gliding e v a) (hl : 2 / 3 ≤ r) (hu : r ≤ 1) :
    (-1) * glideE2 r e v a + 31 / 50 * glideV2 r e v a + (-(9 / 200)) * glideA2 r e v a ≤ 5313 / 10000 := by
  exact glide_2_2_0 h hl hu

theorem glide_2_3_0 {r e v a : K} (h : Gliding e v a) (hl : 2 / 3 ≤ r) (hu : r ≤ 1) :
    9 / 20 * glideE2 r e v a + (-1) * glideV2 r e v a + (-(3 / 5)) * glideA2 r e v a ≤ 9 / 20 := by
  have hx : 0 ≤ (r - 2 / 3) := by linarith
  have hy : 0 ≤ (1 - r) := by linarith
  have l0 : 0 ≤ 1589 / 240 * (1 - r) ^ 3 + 0 * ((r - 2 / 3) * (1 - r) ^ 2) + 0 * ((r - 2 / 3) ^ 2 * (1 - r)) + 0 * (r - 2 / 3) ^ 3 :=
    bern_nonneg hx hy (by norm_num) (by norm_num) (by norm_num) (by norm_num)
  have l1 : 0 ≤ 35 / 9 * (1 - r) ^ 3 + 0 * ((r - 2 / 3) * (1 - r) ^ 2) + 0 * ((r - 2 / 3) ^ 2 * (1 - r)) + 0 * (r - 2 / 3) ^ 3 :=
    bern_nonneg hx hy (by norm_num) (by norm_num) (by norm_num) (by norm_num)
  have l2 : 0 ≤ 287 / 72 * (1 - r) ^ 3 + 0 * ((r - 2 / 3) * (1 - r) ^ 2) + 0 * ((r - 2 / 3) ^ 2 * (1 - r)) + 0 * (r - 2 / 3) ^ 3 :=
    bern_nonneg hx hy (by norm_num) (by norm_num) (by norm_num) (by norm_num)
  have ls : 0 ≤ 26459 / 18000 * (1 - r) ^ 3 + 729 / 20 * ((r - 2 / 3) * (1 - r) ^ 2) + 729 / 20 * ((r - 2 / 3) ^ 2 * (1 - r)) + 243 / 20 * (r - 2 / 3) ^ 3 :=
    bern_nonneg hx hy (by norm_num) (by norm_num) (by norm_num) (by norm_num)
  have key : 9 / 20 - (9 / 20 * glideE2 r e v a + (-1) * glideV2 r e v a + (-(3 / 5)) * glideA2 r e v a) =
      (1589 / 240 * (1 - r) ^ 3 + 0 * ((r - 2 / 3) * (1 - r) ^ 2) + 0 * ((r - 2 / 3) ^ 2 * (1 - r)) + 0 * (r - 2 / 3) ^ 3) * (1 - (e))
      + (35 / 9 * (1 - r) ^ 3 + 0 * ((r - 2 / 3) * (1 - r) ^ 2) + 0 * ((r - 2 / 3) ^ 2 * (1 - r)) + 0 * (r - 2 / 3) ^ 3) * (5313 / 10000 - (-e + 31 / 50 * v - 9 / 200 * a))
      + (287 / 72 * (1 - r) ^ 3 + 0 * ((r - 2 / 3) * (1 - r) ^ 2) + 0 * ((r - 2 / 3) ^ 2 * (1 - r)) + 0 * (r - 2 / 3) ^ 3) * (1 / 2 - (1 / 2 * e - v))
      + (26459 / 18000 * (1 - r) ^ 3 + 729 / 20 * ((r - 2 / 3) * (1 - r) ^ 2) + 729 / 20 * ((r - 2 / 3) ^ 2 * (1 - r)) + 243 / 20 * (r - 2 / 3) ^ 3) := by
    simp only [glideE2, glideV2, glideA2]; ring
  rw [← sub_nonneg, key]
  exact add_nonneg (add_nonneg (add_nonneg (mul_nonneg l0 (sub_nonneg.2 h.f0)) (mul_nonneg l1 (sub_nonneg.2 h.f2))) (mul_nonneg l2 (sub_nonneg.2 h.f7))) ls

theorem Gliding.step2_3 {r e v a : K} (h : Gliding e v a) (hl : 2 / 3 ≤ r) (hu : r ≤ 1) :
    9 / 20 * glideE2 r e v a + (-1) * glideV2 r e v a + (-(3 / 5)) * glideA2 r e v a ≤ 9 / 20 := by
  exact glide_2_3_0 h hl hu

theorem glide_2_4_0 {r e v a : K} (h : Gliding e v a) (hl : 2 / 3 ≤ r) (hu : r ≤ 1) :
    (-1) * glideE2 r e v a + 41 / 200 * glideV2 r e v a + (-(1 / 200)) * glideA2 r e v a ≤ 589 / 10000 := by
  have hx : 0 ≤ (r - 2 / 3) := by linarith
  have hy : 0 ≤ (1 - r) := by linarith
  have l0 : 0 ≤ 17821 / 104400 * (1 - r) ^ 3 + 0 * ((r - 2 / 3) * (1 - r) ^ 2) + 0 * ((r - 2 / 3) ^ 2 * (1 - r)) + 0 * (r - 2 / 3) ^ 3 :=
    bern_nonneg hx hy (by norm_num) (by norm_num) (by norm_num) (by norm_num)
  have l1 : 0 ≤ 355 / 522 * (1 - r) ^ 3 + 0 * ((r - 2 / 3) * (1 - r) ^ 2) + 0 * ((r - 2 / 3) ^ 2 * (1 - r)) + 0 * (r - 2 / 3) ^ 3 :=
    bern_nonneg hx hy (by norm_num) (by norm_num) (by norm_num) (by norm_num)
  have l2 : 0 ≤ 284 / 261 * (1 - r) ^ 3 + 0 * ((r - 2 / 3) * (1 - r) ^ 2) + 0 * ((r - 2 / 3) ^ 2 * (1 - r)) + 0 * (r - 2 / 3) ^ 3 :=
    bern_nonneg hx hy (by norm_num) (by norm_num) (by norm_num) (by norm_num)
  have ls : 0 ≤ 389903 / 290000 * (1 - r) ^ 3 + 47709 / 10000 * ((r - 2 / 3) * (1 - r) ^ 2) + 47709 / 10000 * ((r - 2 / 3) ^ 2 * (1 - r)) + 15903 / 10000 * (r - 2 / 3) ^ 3 :=
    bern_nonneg hx hy (by norm_num) (by norm_num) (by norm_num) (by norm_num)
  have key : 589 / 10000 - ((-1) * glideE2 r e v a + 41 / 200 * glideV2 r e v a + (-(1 / 200)) * glideA2 r e v a) =
      (17821 / 104400 * (1 - r) ^ 3 + 0 * ((r - 2 / 3) * (1 - r) ^ 2) + 0 * ((r - 2 / 3) ^ 2 * (1 - r)) + 0 * (r - 2 / 3) ^ 3) * (1 - (e))
      + (355 / 522 * (1 - r) ^ 3 + 0 * ((r - 2 / 3) * (1 - r) ^ 2) + 0 * ((r - 2 / 3) ^ 2 * (1 - r)) + 0 * (r - 2 / 3) ^ 3) * (81 / 5000 - (-e + 91 / 200 * v + 19 / 200 * a))
      + (284 / 261 * (1 - r) ^ 3 + 0 * ((r - 2 / 3) * (1 - r) ^ 2) + 0 * ((r - 2 / 3) ^ 2 * (1 - r)) + 0 * (r - 2 / 3) ^ 3) * (589 / 10000 - (-e + 41 / 200 * v - 1 / 200 * a))
      + (389903 / 290000 * (1 - r) ^ 3 + 47709 / 10000 * ((r - 2 / 3) * (1 - r) ^ 2) + 47709 / 10000 * ((r - 2 / 3) ^ 2 * (1 - r)) + 15903 / 10000 * (r - 2 / 3) ^ 3) := by
    simp only [glideE2, glideV2, glideA2]; ring
  rw [← sub_nonneg, key]
  exact add_nonneg (add_nonneg (add_nonneg (mul_nonneg l0 (sub_nonneg.2 h.f0)) (mul_nonneg l1 (sub_nonneg.2 h.f1))) (mul_nonneg l2 (sub_nonneg.2 h.f4))) ls

theorem Gliding.step2_4 {r e v a : K} (h : Gliding e v a) (hl : 2 / 3 ≤ r) (hu : r ≤ 1) :
    (-1) * glideE2 r e v a + 41 / 200 * glideV2 r e v a + (-(1 / 200)) * glideA2 r e v a ≤ 589 / 10000 := by
  exact glide_2_4_0 h hl hu

theorem glide_2_5_0 {r e v a : K} (h : Gliding e v a) (hl : 2 / 3 ≤ r) (hu : r ≤ 1) :
    33 / 100 * glideE2 r e v a + 1 * glideV2 r e v a + 3 / 50 * glideA2 r e v a ≤ 20319 / 10000 := by
  have hx : 0 ≤ (r - 2 / 3) := by linarith
  have hy : 0 ≤ (1 - r) := by linarith
  have l0 : 0 ≤ 7491 / 400 * (1 - r) ^ 3 + 0 * ((r - 2 / 3) * (1 - r) ^ 2) + 0 * ((r - 2 / 3) ^ 2 * (1 - r)) + 0 * (r - 2 / 3) ^ 3 :=
    bern_nonneg hx hy (by norm_num) (by norm_num) (by norm_num) (by norm_num)
  have l1 : 0 ≤ 11 * (1 - r) ^ 3 + 0 * ((r - 2 / 3) * (1 - r) ^ 2) + 0 * ((r - 2 / 3) ^ 2 * (1 - r)) + 0 * (r - 2 / 3) ^ 3 :=
    bern_nonneg hx hy (by norm_num) (by norm_num) (by norm_num) (by norm_num)
  have l2 : 0 ≤ 451 / 40 * (1 - r) ^ 3 + 0 * ((r - 2 / 3) * (1 - r) ^ 2) + 0 * ((r - 2 / 3) ^ 2 * (1 - r)) + 0 * (r - 2 / 3) ^ 3 :=
    bern_nonneg hx hy (by norm_num) (by norm_num) (by norm_num) (by norm_num)
  have ls : 0 ≤ 6163 / 250 * (1 - r) ^ 3 + 1645839 / 10000 * ((r - 2 / 3) * (1 - r) ^ 2) + 1645839 / 10000 * ((r - 2 / 3) ^ 2 * (1 - r)) + 548613 / 10000 * (r - 2 / 3) ^ 3 :=
    bern_nonneg hx hy (by norm_num) (by norm_num) (by norm_num) (by norm_num)
  have key : 20319 / 10000 - (33 / 100 * glideE2 r e v a + 1 * glideV2 r e v a + 3 / 50 * glideA2 r e v a) =
      (7491 / 400 * (1 - r) ^ 3 + 0 * ((r - 2 / 3) * (1 - r) ^ 2) + 0 * ((r - 2 / 3) ^ 2 * (1 - r)) + 0 * (r - 2 / 3) ^ 3) * (1 - (e))
      + (11 * (1 - r) ^ 3 + 0 * ((r - 2 / 3) * (1 - r) ^ 2) + 0 * ((r - 2 / 3) ^ 2 * (1 - r)) + 0 * (r - 2 / 3) ^ 3) * (5313 / 10000 - (-e + 31 / 50 * v - 9 / 200 * a))
      + (451 / 40 * (1 - r) ^ 3 + 0 * ((r - 2 / 3) * (1 - r) ^ 2) + 0 * ((r - 2 / 3) ^ 2 * (1 - r)) + 0 * (r - 2 / 3) ^ 3) * (1 / 2 - (1 / 2 * e - v))
      + (6163 / 250 * (1 - r) ^ 3 + 1645839 / 10000 * ((r - 2 / 3) * (1 - r) ^ 2) + 1645839 / 10000 * ((r - 2 / 3) ^ 2 * (1 - r)) + 548613 / 10000 * (r - 2 / 3) ^ 3) := by
    simp only [glideE2, glideV2, glideA2]; ring
  rw [← sub_nonneg, key]
  exact add_nonneg (add_nonneg (add_nonneg (mul_nonneg l0 (sub_nonneg.2 h.f0)) (mul_nonneg l1 (sub_nonneg.2 h.f2))) (mul_nonneg l2 (sub_nonneg.2 h.f7))) ls

theorem Gliding.step2_5 {r e v a : K} (h : Gliding e v a) (hl : 2 / 3 ≤ r) (hu : r ≤ 1) :
    33 / 100 * glideE2 r e v a + 1 * glideV2 r e v a + 3 / 50 * glideA2 r e v a ≤ 20319 / 10000 := by
  exact glide_2_5_0 h hl hu

theorem glide_2_6_0 {r e v a : K} (h : Gliding e v a) (hl : 2 / 3 ≤ r) (hu : r ≤ 1) :
    (-1) * glideE2 r e v a + (-(3 / 200)) * glideV2 r e v a ≤ 591 / 10000 := by
  have hx : 0 ≤ (r - 2 / 3) := by linarith
  have hy : 0 ≤ (1 - r) := by linarith
  have l0 : 0 ≤ 52459 / 104400 * (1 - r) ^ 3 + 0 * ((r - 2 / 3) * (1 - r) ^ 2) + 0 * ((r - 2 / 3) ^ 2 * (1 - r)) + 0 * (r - 2 / 3) ^ 3 :=
    bern_nonneg hx hy (by norm_num) (by norm_num) (by norm_num) (by norm_num)
  have l1 : 0 ≤ 1045 / 522 * (1 - r) ^ 3 + 0 * ((r - 2 / 3) * (1 - r) ^ 2) + 0 * ((r - 2 / 3) ^ 2 * (1 - r)) + 0 * (r - 2 / 3) ^ 3 :=
    bern_nonneg hx hy (by norm_num) (by norm_num) (by norm_num) (by norm_num)
  have l2 : 0 ≤ 836 / 261 * (1 - r) ^ 3 + 0 * ((r - 2 / 3) * (1 - r) ^ 2) + 0 * ((r - 2 / 3) ^ 2 * (1 - r)) + 0 * (r - 2 / 3) ^ 3 :=
    bern_nonneg hx hy (by norm_num) (by norm_num) (by norm_num) (by norm_num)
  have ls : 0 ≤ 252917 / 290000 * (1 - r) ^ 3 + 47871 / 10000 * ((r - 2 / 3) * (1 - r) ^ 2) + 47871 / 10000 * ((r - 2 / 3) ^ 2 * (1 - r)) + 15957 / 10000 * (r - 2 / 3) ^ 3 :=
    bern_nonneg hx hy (by norm_num) (by norm_num) (by norm_num) (by norm_num)
  have key : 591 / 10000 - ((-1) * glideE2 r e v a + (-(3 / 200)) * glideV2 r e v a) =
      (52459 / 104400 * (1 - r) ^ 3 + 0 * ((r - 2 / 3) * (1 - r) ^ 2) + 0 * ((r - 2 / 3) ^ 2 * (1 - r)) + 0 * (r - 2 / 3) ^ 3) * (1 - (e))
      + (1045 / 522 * (1 - r) ^ 3 + 0 * ((r - 2 / 3) * (1 - r) ^ 2) + 0 * ((r - 2 / 3) ^ 2 * (1 - r)) + 0 * (r - 2 / 3) ^ 3) * (81 / 5000 - (-e + 91 / 200 * v + 19 / 200 * a))
      + (836 / 261 * (1 - r) ^ 3 + 0 * ((r - 2 / 3) * (1 - r) ^ 2) + 0 * ((r - 2 / 3) ^ 2 * (1 - r)) + 0 * (r - 2 / 3) ^ 3) * (589 / 10000 - (-e + 41 / 200 * v - 1 / 200 * a))
      + (252917 / 290000 * (1 - r) ^ 3 + 47871 / 10000 * ((r - 2 / 3) * (1 - r) ^ 2) + 47871 / 10000 * ((r - 2 / 3) ^ 2 * (1 - r)) + 15957 / 10000 * (r - 2 / 3) ^ 3) := by
    simp only [glideE2, glideV2]; ring
  rw [← sub_nonneg, key]
  exact add_nonneg (add_nonneg (add_nonneg (mul_nonneg l0 (sub_nonneg.2 h.f0)) (mul_nonneg l1 (sub_nonneg.2 h.f1))) (mul_nonneg l2 (sub_nonneg.2 h.f4))) ls

theorem Gliding.step2_6 {r e v a : K} (h : Gliding e v a) (hl : 2 / 3 ≤ r) (hu : r ≤ 1) :
    (-1) * glideE2 r e v a + (-(3 / 200)) * glideV2 r e v a ≤ 591 / 10000 := by
  exact glide_2_6_0 h hl hu

theorem glide_2_7_0 {r e v a : K} (h : Gliding e v a) (hl : 2 / 3 ≤ r) (hu : r ≤ 1) :
    1 / 2 * glideE2 r e v a + (-1) * glideV2 r e v a ≤ 1 / 2 := by
  have hx : 0 ≤ (r - 2 / 3) := by linarith
  have hy : 0 ≤ (1 - r) := by linarith
  have l0 : 0 ≤ 1255 / 1044 * (1 - r) ^ 3 + 0 * ((r - 2 / 3) * (1 - r) ^ 2) + 0 * ((r - 2 / 3) ^ 2 * (1 - r)) + 0 * (r - 2 / 3) ^ 3 :=
    bern_nonneg hx hy (by norm_num) (by norm_num) (by norm_num) (by norm_num)
  have l1 : 0 ≤ 1250 / 261 * (1 - r) ^ 3 + 0 * ((r - 2 / 3) * (1 - r) ^ 2) + 0 * ((r - 2 / 3) ^ 2 * (1 - r)) + 0 * (r - 2 / 3) ^ 3 :=
    bern_nonneg hx hy (by norm_num) (by norm_num) (by norm_num) (by norm_num)
  have l2 : 0 ≤ 2000 / 261 * (1 - r) ^ 3 + 0 * ((r - 2 / 3) * (1 - r) ^ 2) + 0 * ((r - 2 / 3) ^ 2 * (1 - r)) + 0 * (r - 2 / 3) ^ 3 :=
    bern_nonneg hx hy (by norm_num) (by norm_num) (by norm_num) (by norm_num)
  have ls : 0 ≤ 3413 / 290 * (1 - r) ^ 3 + 81 / 2 * ((r - 2 / 3) * (1 - r) ^ 2) + 81 / 2 * ((r - 2 / 3) ^ 2 * (1 - r)) + 27 / 2 * (r - 2 / 3) ^ 3 :=
    bern_nonneg hx hy (by norm_num) (by norm_num) (by norm_num) (by norm_num)
  have key : 1 / 2 - (1 / 2 * glideE2 r e v a + (-1) * glideV2 r e v a) =
      (1255 / 1044 * (1 - r) ^ 3 + 0 * ((r - 2 / 3) * (1 - r) ^ 2) + 0 * ((r - 2 / 3) ^ 2 * (1 - r)) + 0 * (r - 2 / 3) ^ 3) * (1 - (e))
      + (1250 / 261 * (1 - r) ^ 3 + 0 * ((r - 2 / 3) * (1 - r) ^ 2) + 0 * ((r - 2 / 3) ^ 2 * (1 - r)) + 0 * (r - 2 / 3) ^ 3) * (81 / 5000 - (-e + 91 / 200 * v + 19 / 200 * a))
      + (2000 / 261 * (1 - r) ^ 3 + 0 * ((r - 2 / 3) * (1 - r) ^ 2) + 0 * ((r - 2 / 3) ^ 2 * (1 - r)) + 0 * (r - 2 / 3) ^ 3) * (589 / 10000 - (-e + 41 / 200 * v - 1 / 200 * a))
      + (3413 / 290 * (1 - r) ^ 3 + 81 / 2 * ((r - 2 / 3) * (1 - r) ^ 2) + 81 / 2 * ((r - 2 / 3) ^ 2 * (1 - r)) + 27 / 2 * (r - 2 / 3) ^ 3) := by
    simp only [glideE2, glideV2]; ring
  rw [← sub_nonneg, key]
  exact add_nonneg (add_nonneg (add_nonneg (mul_nonneg l0 (sub_nonneg.2 h.f0)) (mul_nonneg l1 (sub_nonneg.2 h.f1))) (mul_nonneg l2 (sub_nonneg.2 h.f4))) ls

theorem Gliding.step2_7 {r e v a : K} (h : Gliding e v a) (hl : 2 / 3 ≤ r) (hu : r ≤ 1) :
    1 / 2 * glideE2 r e v a + (-1) * glideV2 r e v a ≤ 1 / 2 := by
  exact glide_2_7_0 h hl hu

/-- The polytope is kept in piece 2. -/
theorem Gliding.step2 {r e v a : K} (h : Gliding e v a) (hl : 2 / 3 ≤ r) (hu : r ≤ 1) :
    Gliding (glideE2 r e v a) (glideV2 r e v a) (glideA2 r e v a) := by
  have h0 := h.step2_0 hl hu
  have h1 := h.step2_1 hl hu
  have h2 := h.step2_2 hl hu
  have h3 := h.step2_3 hl hu
  have h4 := h.step2_4 hl hu
  have h5 := h.step2_5 hl hu
  have h6 := h.step2_6 hl hu
  have h7 := h.step2_7 hl hu
  constructor <;> linarith

end MPC
