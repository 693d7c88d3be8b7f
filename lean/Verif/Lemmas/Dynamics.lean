import Verif.Model.Dynamics
import Verif.Spec.Motion

/-! Helper lemmas about the prediction matrices. -/

set_option linter.unusedSectionVars false

namespace MPC

open Finset

variable {K : Type} [Field K] [LinearOrder K] [IsStrictOrderedRing K]

/-- Entry functions of the matrices, as in the model. -/
def posU (S T : K) (i j : ℕ) : K :=
  if j = 0 then
    S ^ 3 / 6 + 1 / 2 * (i : K) * T * S ^ 2 + 1 / 2 * (i : K) ^ 2 * S * T ^ 2
  else if j ≤ i then
    T ^ 3 * (1 / 6 + 1 / 2 * ((i - j : ℕ) : K) + 1 / 2 * ((i - j : ℕ) : K) ^ 2)
  else 0

def velU (S T : K) (i j : ℕ) : K :=
  if j = 0 then 1 / 2 * S ^ 2 + (i : K) * T * S
  else if j ≤ i then 1 / 2 * T ^ 2 + ((i - j : ℕ) : K) * T ^ 2
  else 0

def accU (S T : K) (i j : ℕ) : K :=
  if j = 0 then S else if j ≤ i then T else 0

theorem accU_succ (S T : K) {i j : ℕ} (h : j ≤ i) : accU S T (i + 1) j = accU S T i j := by
  unfold accU; split_ifs <;> first | rfl | omega

theorem velU_succ (S T : K) {i j : ℕ} (h : j ≤ i) :
    velU S T (i + 1) j = velU S T i j + T * accU S T i j := by
  unfold velU accU
  have e : i + 1 - j = (i - j) + 1 := by omega
  split_ifs with h1 h2 <;> first | omega | skip
  · push_cast; ring
  · rw [e]; push_cast; ring

theorem posU_succ (S T : K) {i j : ℕ} (h : j ≤ i) :
    posU S T (i + 1) j = posU S T i j + T * velU S T i j + T ^ 2 / 2 * accU S T i j := by
  unfold posU velU accU
  have e : i + 1 - j = (i - j) + 1 := by omega
  split_ifs with h1 h2 <;> first | omega | skip
  · push_cast; ring
  · rw [e]; push_cast; ring

theorem accU_diag (S T : K) (i : ℕ) : accU S T (i + 1) (i + 1) = T := by simp [accU]
theorem velU_diag (S T : K) (i : ℕ) : velU S T (i + 1) (i + 1) = T ^ 2 / 2 := by
  simp [velU]; ring
theorem posU_diag (S T : K) (i : ℕ) : posU S T (i + 1) (i + 1) = T ^ 3 / 6 := by
  simp [posU]; ring

theorem traj_a (S T : K) (x : State3 K) (X : ℕ → K) (i : ℕ) :
    (Spec.jerkTrajectory S T x X i).a = x.a + ∑ j ∈ range (i + 1), accU S T i j * X j := by
  induction i with
  | zero => simp [Spec.jerkTrajectory, Spec.cubic, accU]; ring
  | succ i ih =>
    rw [sum_range_succ, accU_diag]
    have : ∑ j ∈ range (i + 1), accU S T (i + 1) j * X j
        = ∑ j ∈ range (i + 1), accU S T i j * X j := by
      refine sum_congr rfl fun j hj => ?_
      rw [accU_succ S T (by have := mem_range.1 hj; omega)]
    rw [this]
    simp only [Spec.jerkTrajectory, Spec.cubic, ih]; ring

theorem traj_v (S T : K) (x : State3 K) (X : ℕ → K) (i : ℕ) :
    (Spec.jerkTrajectory S T x X i).v
      = x.v + ((i : K) * T + S) * x.a + ∑ j ∈ range (i + 1), velU S T i j * X j := by
  induction i with
  | zero => simp [Spec.jerkTrajectory, Spec.cubic, velU]; ring
  | succ i ih =>
    rw [sum_range_succ, velU_diag]
    have : ∑ j ∈ range (i + 1), velU S T (i + 1) j * X j
        = ∑ j ∈ range (i + 1), velU S T i j * X j
          + T * ∑ j ∈ range (i + 1), accU S T i j * X j := by
      rw [mul_sum, ← sum_add_distrib]
      refine sum_congr rfl fun j hj => ?_
      rw [velU_succ S T (by have := mem_range.1 hj; omega)]; ring
    rw [this]
    simp only [Spec.jerkTrajectory, Spec.cubic, ih, traj_a]; push_cast; ring

theorem traj_p (S T : K) (x : State3 K) (X : ℕ → K) (i : ℕ) :
    (Spec.jerkTrajectory S T x X i).p
      = x.p + ((i : K) * T + S) * x.v
        + (1 / 2 * S ^ 2 + (i : K) * T * S + 1 / 2 * (i : K) ^ 2 * T ^ 2) * x.a
        + ∑ j ∈ range (i + 1), posU S T i j * X j := by
  induction i with
  | zero => simp [Spec.jerkTrajectory, Spec.cubic, posU]; ring
  | succ i ih =>
    rw [sum_range_succ, posU_diag]
    have : ∑ j ∈ range (i + 1), posU S T (i + 1) j * X j
        = ∑ j ∈ range (i + 1), posU S T i j * X j
          + T * ∑ j ∈ range (i + 1), velU S T i j * X j
          + T ^ 2 / 2 * ∑ j ∈ range (i + 1), accU S T i j * X j := by
      rw [mul_sum, mul_sum, ← sum_add_distrib, ← sum_add_distrib]
      refine sum_congr rfl fun j hj => ?_
      rw [posU_succ S T (by have := mem_range.1 hj; omega)]; ring
    rw [this]
    simp only [Spec.jerkTrajectory, Spec.cubic, ih, traj_a, traj_v]; push_cast; ring

theorem traj2_w (S T : K) (x : Spec.State2 K) (X : ℕ → K) (i : ℕ) :
    (Spec.accTrajectory S T x X i).w = x.w + ∑ j ∈ range (i + 1), accU S T i j * X j := by
  induction i with
  | zero => simp [Spec.accTrajectory, Spec.quadratic, accU]; ring
  | succ i ih =>
    rw [sum_range_succ, accU_diag]
    have : ∑ j ∈ range (i + 1), accU S T (i + 1) j * X j
        = ∑ j ∈ range (i + 1), accU S T i j * X j := by
      refine sum_congr rfl fun j hj => ?_
      rw [accU_succ S T (by have := mem_range.1 hj; omega)]
    rw [this]
    simp only [Spec.accTrajectory, Spec.quadratic, ih]; ring

theorem traj2_q (S T : K) (x : Spec.State2 K) (X : ℕ → K) (i : ℕ) :
    (Spec.accTrajectory S T x X i).q
      = x.q + ((i : K) * T + S) * x.w + ∑ j ∈ range (i + 1), velU S T i j * X j := by
  induction i with
  | zero => simp [Spec.accTrajectory, Spec.quadratic, velU]; ring
  | succ i ih =>
    rw [sum_range_succ, velU_diag]
    have : ∑ j ∈ range (i + 1), velU S T (i + 1) j * X j
        = ∑ j ∈ range (i + 1), velU S T i j * X j
          + T * ∑ j ∈ range (i + 1), accU S T i j * X j := by
      rw [mul_sum, ← sum_add_distrib]
      refine sum_congr rfl fun j hj => ?_
      rw [velU_succ S T (by have := mem_range.1 hj; omega)]; ring
    rw [this]
    simp only [Spec.accTrajectory, Spec.quadratic, ih, traj2_w]; push_cast; ring

/-- A sum over the whole horizon of a lower triangular row only sees the first `i+1` terms. -/
theorem sum_lower {N i : ℕ} (hi : i < N) (f : ℕ → K) (X : ℕ → K)
    (h : ∀ j, i < j → f j = 0) :
    ∑ j ∈ range N, f j * X j = ∑ j ∈ range (i + 1), f j * X j := by
  symm
  apply sum_subset
  · intro j hj; simp at *; omega
  · intro j _ hj
    rw [h j (by simp at hj; omega), zero_mul]

theorem accU_upper (S T : K) {i j : ℕ} (h : i < j) : accU S T i j = 0 := by
  unfold accU; rw [if_neg (by omega), if_neg (by omega)]
theorem velU_upper (S T : K) {i j : ℕ} (h : i < j) : velU S T i j = 0 := by
  unfold velU; rw [if_neg (by omega), if_neg (by omega)]
theorem posU_upper (S T : K) {i j : ℕ} (h : i < j) : posU S T i j = 0 := by
  unfold posU; rw [if_neg (by omega), if_neg (by omega)]

/-! ### The dynamics returned by the code, as closed terms -/

/-- Entries of the CoP matrix. -/
def copU (S T h gz m : K) (i j : ℕ) : K := m * (posU S T i j - h / gz * accU S T i j)

theorem copU_upper (S T h gz m : K) {i j : ℕ} (hij : i < j) : copU S T h gz m i j = 0 := by
  simp [copU, posU_upper S T hij, accU_upper S T hij]

def posS (S T : K) (i k : ℕ) : K :=
  if k = 0 then 1
  else if k = 1 then (i : K) * T + S
  else 1 / 2 * S ^ 2 + (i : K) * T * S + 1 / 2 * (i : K) ^ 2 * T ^ 2

def velS (S T : K) (i k : ℕ) : K := if k = 1 then 1 else if k = 2 then (i : K) * T + S else 0

def accS (_i k : ℕ) : K := if k = 2 then 1 else 0

def copS (S T h gz m : K) (i k : ℕ) : K :=
  if k = 0 then m
  else if k = 1 then m * ((i : K) * T + S)
  else m * (1 / 2 * S ^ 2 + (i : K) * T * S + 1 / 2 * (i : K) ^ 2 * T ^ 2 - h / gz)

def posDyn (S T : K) (N : ℕ) : LinearDynamic K :=
  { U := ⟨N, N, posU S T⟩, UT := (Mat.mk N N (posU S T)).transpose
    Uinv := inverseLU ⟨N, N, posU S T⟩ EPS
    UTinv := (inverseLU ⟨N, N, posU S T⟩ EPS).map Mat.transpose
    C := ⟨N, fun _ => 0⟩, S := ⟨N, 3, posS S T⟩ }

def velDyn (S T : K) (N : ℕ) : LinearDynamic K :=
  { U := ⟨N, N, velU S T⟩, UT := (Mat.mk N N (velU S T)).transpose
    Uinv := inverseLU ⟨N, N, velU S T⟩ EPS
    UTinv := (inverseLU ⟨N, N, velU S T⟩ EPS).map Mat.transpose
    C := ⟨N, fun _ => 0⟩, S := ⟨N, 3, velS S T⟩ }

def accDyn (S T : K) (N : ℕ) : LinearDynamic K :=
  { U := ⟨N, N, accU S T⟩, UT := (Mat.mk N N (accU S T)).transpose
    Uinv := some (bidiagonalInverse S T N)
    UTinv := some (bidiagonalInverse S T N).transpose
    C := ⟨N, fun _ => 0⟩, S := ⟨N, 3, accS⟩ }

def copDyn (S T : K) (N : ℕ) (h gx gz m : K) : LinearDynamic K :=
  { U := ⟨N, N, copU S T h gz m⟩, UT := (Mat.mk N N (copU S T h gz m)).transpose
    Uinv := inverseLU ⟨N, N, copU S T h gz m⟩ EPS
    UTinv := (inverseLU ⟨N, N, copU S T h gz m⟩ EPS).map Mat.transpose
    C := ⟨N, fun _ => - m * h * gx / gz⟩, S := ⟨N, 3, copS S T h gz m⟩ }

def pos2Dyn (S T : K) (N : ℕ) : LinearDynamic K :=
  { U := ⟨N, N, velU S T⟩, UT := (Mat.mk N N (velU S T)).transpose
    Uinv := inverseLU ⟨N, N, velU S T⟩ EPS
    UTinv := (inverseLU ⟨N, N, velU S T⟩ EPS).map Mat.transpose
    C := ⟨N, fun _ => 0⟩, S := ⟨N, 2, fun i k => if k = 0 then 1 else (i : K) * T + S⟩ }

def vel2Dyn (S T : K) (N : ℕ) : LinearDynamic K :=
  { U := ⟨N, N, accU S T⟩, UT := (Mat.mk N N (accU S T)).transpose
    Uinv := some (bidiagonalInverse S T N)
    UTinv := some (bidiagonalInverse S T N).transpose
    C := ⟨N, fun _ => 0⟩, S := ⟨N, 2, fun _ k => if k = 1 then 1 else 0⟩ }

theorem computePosDynamic_ok {S T : K} {N : ℕ} (hS : 0 < S) (hT : 0 < T) (hN : 0 < N) :
    computePosDynamic S T N = .ok (posDyn S T N) := by
  unfold computePosDynamic
  rw [require_pos hS, require_pos hT, require_pos hN]
  rfl

theorem computeVelDynamic_ok {S T : K} {N : ℕ} (hS : 0 < S) (hT : 0 < T) (hN : 0 < N) :
    computeVelDynamic S T N = .ok (velDyn S T N) := by
  unfold computeVelDynamic
  rw [require_pos hS, require_pos hT, require_pos hN]
  rfl

theorem computeAccDynamic_ok {S T : K} {N : ℕ} (hS : S ≠ 0) (hT : 0 < T) (hN : 0 < N) :
    computeAccDynamic S T N = .ok (accDyn S T N) := by
  unfold computeAccDynamic
  rw [require_pos (abs_pos.2 hS), require_pos hT, require_pos hN]
  rfl

theorem computeOrder2PosDynamic_ok {S T : K} {N : ℕ} (hS : 0 < S) (hT : 0 < T) (hN : 0 < N) :
    computeOrder2PosDynamic S T N = .ok (pos2Dyn S T N) := by
  unfold computeOrder2PosDynamic
  rw [require_pos hS, require_pos hT, require_pos hN]
  rfl

theorem computeOrder2VelDynamic_ok {S T : K} {N : ℕ} (hS : S ≠ 0) (hT : 0 < T) (hN : 0 < N) :
    computeOrder2VelDynamic S T N = .ok (vel2Dyn S T N) := by
  unfold computeOrder2VelDynamic
  rw [require_pos (abs_pos.2 hS), require_pos hT, require_pos hN]
  rfl

theorem computeCopDynamic_ok {S T : K} {N : ℕ} {h gx gz mass total : K}
    (hS : 0 < S) (hT : 0 < T) (hN : 0 < N) (hg : EPS < |gz|) (hm : mass ≤ total)
    (ht : EPS < total) (hm0 : 0 ≤ mass) :
    computeCopDynamic S T N h gx gz mass total = .ok (copDyn S T N h gx gz (mass / total)) := by
  unfold computeCopDynamic
  rw [require_pos hS, require_pos hT, require_pos hN, require_pos hg, require_pos hm,
    require_pos ht, require_pos hm0]
  have e : (fun i j : ℕ => (if j = 0 then
        mass / total * (S ^ 3 / 6 + 1 / 2 * (i : K) * T * S ^ 2 + 1 / 2 * (i : K) ^ 2 * S * T ^ 2
          - S * h / gz)
        else if j ≤ i then
          mass / total * T ^ 3 * (1 / 6 + 1 / 2 * ((i - j : ℕ) : K) + 1 / 2 * ((i - j : ℕ) : K) ^ 2)
            - mass / total * T * h / gz
        else 0)) = copU S T h gz (mass / total) := by
    funext i j
    unfold copU posU accU
    split_ifs <;> ring
  simp only [ok_bind, res_pure]
  rw [e]
  rfl

theorem predict_ok {d : LinearDynamic K} {X x : Vec K} (h1 : d.U.cols = X.size)
    (h2 : d.S.cols = x.size) (h3 : d.S.rows = d.U.rows) (h4 : d.C.size = d.U.rows) :
    d.predict X x = .ok ⟨d.U.rows, fun i => ∑ k ∈ range X.size, d.U.get i k * X.get k
      + ∑ k ∈ range x.size, d.S.get i k * x.get k + d.C.get i⟩ := by
  simp [LinearDynamic.predict, Mat.mulVec?, Vec.add?, requireSize, h1, h2, h3, h4]

/-! ### Rows of the prediction, in terms of the motion -/

theorem row_pos (S T : K) (N : ℕ) (s : State3 K) (X : ℕ → K) {i : ℕ} (hi : i < N) :
    ∑ j ∈ range N, posU S T i j * X j + ∑ l ∈ range 3, posS S T i l * s.toVec.get l
      = (Spec.jerkTrajectory S T s X i).p := by
  rw [traj_p, sum_lower hi (posU S T i) X (fun j hj => posU_upper S T hj)]
  simp [posS, State3.toVec, sum_range_succ (n := 2), sum_range_succ (n := 1)]
  ring

theorem row_vel (S T : K) (N : ℕ) (s : State3 K) (X : ℕ → K) {i : ℕ} (hi : i < N) :
    ∑ j ∈ range N, velU S T i j * X j + ∑ l ∈ range 3, velS S T i l * s.toVec.get l
      = (Spec.jerkTrajectory S T s X i).v := by
  rw [traj_v, sum_lower hi (velU S T i) X (fun j hj => velU_upper S T hj)]
  simp [velS, State3.toVec, sum_range_succ (n := 2), sum_range_succ (n := 1)]
  ring

theorem row_acc (S T : K) (N : ℕ) (s : State3 K) (X : ℕ → K) {i : ℕ} (hi : i < N) :
    ∑ j ∈ range N, accU S T i j * X j + ∑ l ∈ range 3, (accS i l : K) * s.toVec.get l
      = (Spec.jerkTrajectory S T s X i).a := by
  rw [traj_a, sum_lower hi (accU S T i) X (fun j hj => accU_upper S T hj)]
  simp [accS, State3.toVec, sum_range_succ (n := 2), sum_range_succ (n := 1)]
  ring

theorem row_cop (S T h gx gz m : K) (N : ℕ) (s : State3 K) (X : ℕ → K) {i : ℕ}
    (hi : i < N) :
    ∑ j ∈ range N, copU S T h gz m i j * X j + ∑ l ∈ range 3, copS S T h gz m i l * s.toVec.get l
      + - m * h * gx / gz = Spec.copOf m h gx gz (Spec.jerkTrajectory S T s X i) := by
  rw [sum_lower hi (copU S T h gz m i) X (fun j hj => copU_upper S T h gz m hj)]
  have e2 : ∑ j ∈ range (i + 1), copU S T h gz m i j * X j
      = m * (∑ j ∈ range (i + 1), posU S T i j * X j
          - h / gz * ∑ j ∈ range (i + 1), accU S T i j * X j) := by
    rw [mul_sum (a := h / gz), ← sum_sub_distrib, mul_sum]
    exact sum_congr rfl fun j _ => by unfold copU; ring
  rw [e2]
  simp only [Spec.copOf, traj_p, traj_a]
  simp [copS, State3.toVec, sum_range_succ (n := 2), sum_range_succ (n := 1)]
  ring

end MPC
