import Verif.Model.Interpolator

/-! Explicit form of the interpolated state. -/

set_option linter.unusedSectionVars false

namespace MPC

open Finset

variable {K : Type} [Field K] [LinearOrder K] [IsStrictOrderedRing K]

/-- Row `i` of `aInvNorm * b`. -/
def abcRow (s f : State3 K) (T : K) (i : ℕ) : K :=
  ∑ k ∈ range 9, (aInvNorm (K := K)).get i k * (interpRhs s f T).get k

/-- The factors computed by the code. -/
def factorOf (s f : State3 K) (T : K) (i : ℕ) : K :=
  if i = 0 then abcRow s f T 0
  else if i = 1 then T * T * s.a / 2
  else if i = 2 then T * s.v
  else if i = 3 then s.p
  else abcRow s f T (i - 3)

theorem computeFactors_ok (fac : Vec K) (hf : fac.size = 12) (s f : State3 K) (T : K) :
    ∃ F, computeFactors fac s f T = .ok F ∧ F.size = 12 ∧ ∀ i < 12, F.get i = factorOf s f T i := by
  unfold computeFactors
  rw [Vec.set?_ok (by omega)]
  simp only [ok_bind]
  rw [Vec.set?_ok (by simp only; omega)]
  simp only [ok_bind]
  rw [Vec.set?_ok (by simp only; omega)]
  simp only [ok_bind]
  rw [Mat.mulVec?_ok rfl]
  simp only [ok_bind]
  rw [Vec.at?_ok (by simp [aInvNorm])]
  simp only [ok_bind]
  rw [Vec.set?_ok (by simp only; omega)]
  simp only [ok_bind]
  rw [Vec.segment?_ok (by simp [aInvNorm])]
  simp only [ok_bind]
  rw [Vec.setSegment?_ok (l := 8) (by simp only; omega) rfl]
  refine ⟨_, rfl, hf, ?_⟩
  intro i hi
  simp only [factorOf, abcRow]
  by_cases h4 : 4 ≤ i
  · have h1 : i ≠ 0 := by omega
    have h2 : i ≠ 1 := by omega
    have h3 : i ≠ 2 := by omega
    have h5 : i ≠ 3 := by omega
    have h6 : i < 4 + 8 := by omega
    have h7 : 1 + (i - 4) = i - 3 := by omega
    simp only [h4, h6, h1, h2, h3, h5, h7, if_true, if_false, and_self, aInvNorm]
  · have : ¬ (4 ≤ i ∧ i < 4 + 8) := by omega
    simp only [this, if_false, aInvNorm]
    have h : i = 0 ∨ i = 1 ∨ i = 2 ∨ i = 3 := by omega
    rcases h with rfl | rfl | rfl | rfl <;> simp

theorem abcRow_eq (s f : State3 K) (T : K) (i : ℕ) :
    abcRow s f T i = (aInvNorm (K := K)).get i 0 * (- T * T * s.a / 18 - T * s.v / 3 - s.p)
      + (aInvNorm (K := K)).get i 1 * (- T * T * s.a / 3 - T * s.v)
      + (aInvNorm (K := K)).get i 2 * (- T * T * s.a)
      + (aInvNorm (K := K)).get i 6 * f.p + (aInvNorm (K := K)).get i 7 * (T * f.v)
      + (aInvNorm (K := K)).get i 8 * (T * T * f.a) := by
  simp only [abcRow, sum_range_succ, range_zero, sum_empty, interpRhs]
  ring

/-- Piece used at time `t`: 0, 1 or 2. -/
def pieceOf (T t : K) : ℕ := if t ≤ T / 3 then 0 else if t ≤ 2 * T / 3 then 1 else 2

/-- Position of piece `q` at normalised time `x`. -/
def piecePos (s f : State3 K) (T : K) (q : ℕ) (x : K) : K :=
  factorOf s f T (4 * q) * x ^ 3 + factorOf s f T (4 * q + 1) * x ^ 2
    + factorOf s f T (4 * q + 2) * x + factorOf s f T (4 * q + 3)

/-- Normalised velocity of piece `q`. -/
def pieceVel (s f : State3 K) (T : K) (q : ℕ) (x : K) : K :=
  3 * factorOf s f T (4 * q) * x ^ 2 + 2 * factorOf s f T (4 * q + 1) * x
    + factorOf s f T (4 * q + 2)

/-- Normalised acceleration of piece `q`. -/
def pieceAcc (s f : State3 K) (T : K) (q : ℕ) (x : K) : K :=
  6 * factorOf s f T (4 * q) * x + 2 * factorOf s f T (4 * q + 1)

/-- State along piece `q` at time `t`. -/
def pieceState (s f : State3 K) (T : K) (q : ℕ) (t : K) : State3 K :=
  ⟨piecePos s f T q (t / T), pieceVel s f T q (t / T) / T, pieceAcc s f T q (t / T) / (T * T)⟩

theorem selectFactors_ok (F : Vec K) (hF : F.size = 12) (t T : K) :
    selectFactors F t T = .ok ⟨4, fun i => F.get (4 * pieceOf T t + i)⟩ := by
  unfold selectFactors pieceOf
  split_ifs
  · rw [Vec.segment?_ok (by omega)]
  · rw [Vec.segment?_ok (by omega)]
  · rw [Vec.segment?_ok (by omega)]

theorem pieceOf_lt (T t : K) : pieceOf T t < 3 := by
  unfold pieceOf; split_ifs <;> omega

theorem interpolateTrajectory_ok (foot : FootAxis K) (hf : foot.factor.size = 12) (obj : State3 K)
    (T : K) (hT : T ≠ 0) (t : K) :
    ∃ foot', interpolateTrajectory foot obj T t = .ok foot' ∧ foot'.factor.size = 12 ∧
      foot'.state = pieceState foot.state obj T (pieceOf T t) t := by
  obtain ⟨F, hF, hs, hget⟩ := computeFactors_ok foot.factor hf foot.state obj T
  unfold interpolateTrajectory
  rw [hF]
  simp only [ok_bind]
  rw [selectFactors_ok F hs]
  have hlt := pieceOf_lt T t
  simp only [ok_bind, if_neg hT, polynomValue, dPolynomValue, ddPolynomValue, Vec.at?, requireIndex]
  norm_num
  refine ⟨hs, ?_⟩
  simp only [pieceState, piecePos, pieceVel, pieceAcc]
  rw [hget _ (by omega), hget _ (by omega), hget _ (by omega), hget _ (by omega)]

/-- The twelve factors, explicitly. -/
theorem factorOf_vals (s f : State3 K) (T : K) :
    factorOf s f T 0 = abcRow s f T 0 ∧ factorOf s f T 1 = T * T * s.a / 2 ∧
    factorOf s f T 2 = T * s.v ∧ factorOf s f T 3 = s.p ∧
    factorOf s f T 4 = abcRow s f T 1 ∧ factorOf s f T 5 = abcRow s f T 2 ∧
    factorOf s f T 6 = abcRow s f T 3 ∧ factorOf s f T 7 = abcRow s f T 4 ∧
    factorOf s f T 8 = abcRow s f T 5 ∧ factorOf s f T 9 = abcRow s f T 6 ∧
    factorOf s f T 10 = abcRow s f T 7 ∧ factorOf s f T 11 = abcRow s f T 8 := by
  simp [factorOf]

/-- The first piece starts on the initial state. -/
theorem piece_start (s f : State3 K) (T : K) (hT : T ≠ 0) : pieceState s f T 0 0 = s := by
  obtain ⟨h0, h1, h2, h3, -⟩ := factorOf_vals s f T
  simp only [pieceState, piecePos, pieceVel, pieceAcc]
  norm_num
  rw [h1, h2, h3]
  rcases s with ⟨p, v, a⟩
  simp only [State3.mk.injEq, true_and]
  constructor <;> field_simp

/-- The last piece ends on the target. -/
theorem piece_end (s f : State3 K) (T : K) (hT : T ≠ 0) : pieceState s f T 2 T = f := by
  obtain ⟨-, -, -, -, -, -, -, -, h8, h9, h10, h11⟩ := factorOf_vals s f T
  simp only [pieceState, piecePos, pieceVel, pieceAcc, div_self hT]
  norm_num
  rw [h8, h9, h10, h11]
  rcases f with ⟨p, v, a⟩
  simp only [State3.mk.injEq, abcRow_eq]
  simp only [aInvNorm, interpTable, List.getD_cons_succ, List.getD_cons_zero]
  refine ⟨by ring, ?_, ?_⟩ <;> field_simp <;> ring

/-- The first two pieces agree at `T/3`. -/
theorem piece_knot1 (s f : State3 K) (T : K) (hT : T ≠ 0) :
    pieceState s f T 0 (T / 3) = pieceState s f T 1 (T / 3) := by
  obtain ⟨h0, h1, h2, h3, h4, h5, h6, h7, -⟩ := factorOf_vals s f T
  have e : T / 3 / T = 1 / 3 := by field_simp
  simp only [pieceState, piecePos, pieceVel, pieceAcc, e]
  norm_num
  rw [h0, h1, h2, h3, h4, h5, h6, h7]
  simp only [abcRow_eq]
  simp only [aInvNorm, interpTable, List.getD_cons_succ, List.getD_cons_zero]
  refine ⟨by ring, ?_, ?_⟩ <;> field_simp <;> ring

/-- The last two pieces agree at `2T/3`. -/
theorem piece_knot2 (s f : State3 K) (T : K) (hT : T ≠ 0) :
    pieceState s f T 1 (2 * T / 3) = pieceState s f T 2 (2 * T / 3) := by
  obtain ⟨-, -, -, -, h4, h5, h6, h7, h8, h9, h10, h11⟩ := factorOf_vals s f T
  have e : 2 * T / 3 / T = 2 / 3 := by field_simp
  simp only [pieceState, piecePos, pieceVel, pieceAcc, e]
  norm_num
  rw [h8, h9, h10, h11, h4, h5, h6, h7]
  simp only [abcRow_eq]
  simp only [aInvNorm, interpTable, List.getD_cons_succ, List.getD_cons_zero]
  refine ⟨by ring, ?_, ?_⟩ <;> field_simp <;> ring

end MPC
