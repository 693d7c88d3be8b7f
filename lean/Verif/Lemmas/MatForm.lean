import Verif.Eigen
import Mathlib.Tactic.Ring

/-! # Inversion of the checked matrix operations, and bilinear forms -/

set_option linter.unusedSectionVars false

namespace MPC

open Finset

variable {K : Type} [Field K] [LinearOrder K]

theorem Mat.mul?_eq_ok {A B C : Mat K} (h : A.mul? B = .ok C) :
    A.cols = B.rows ∧ C = ⟨A.rows, B.cols, fun i j => ∑ k ∈ range A.cols, A.get i k * B.get k j⟩ := by
  unfold Mat.mul? at h
  obtain ⟨_, h1, h⟩ := bind_eq_ok.1 h
  exact ⟨requireSize_eq_ok.1 h1, (Except.ok.inj h).symm⟩

theorem Mat.mulVec?_eq_ok {A : Mat K} {x y : Vec K} (h : A.mulVec? x = .ok y) :
    A.cols = x.size ∧ y = ⟨A.rows, fun i => ∑ k ∈ range A.cols, A.get i k * x.get k⟩ := by
  unfold Mat.mulVec? at h
  obtain ⟨_, h1, h⟩ := bind_eq_ok.1 h
  exact ⟨requireSize_eq_ok.1 h1, (Except.ok.inj h).symm⟩

theorem Vec.add?_eq_ok {x y z : Vec K} (h : x.add? y = .ok z) :
    x.size = y.size ∧ z = ⟨x.size, fun i => x.get i + y.get i⟩ := by
  unfold Vec.add? at h
  obtain ⟨_, h1, h⟩ := bind_eq_ok.1 h
  exact ⟨requireSize_eq_ok.1 h1, (Except.ok.inj h).symm⟩

theorem Vec.sub?_eq_ok {x y z : Vec K} (h : x.sub? y = .ok z) :
    x.size = y.size ∧ z = ⟨x.size, fun i => x.get i - y.get i⟩ := by
  unfold Vec.sub? at h
  obtain ⟨_, h1, h⟩ := bind_eq_ok.1 h
  exact ⟨requireSize_eq_ok.1 h1, (Except.ok.inj h).symm⟩

theorem Mat.setBlock?_eq_ok {A B C : Mat K} {r c h w : ℕ} (e : A.setBlock? r c h w B = .ok C) :
    r + h ≤ A.rows ∧ c + w ≤ A.cols ∧ B.rows = h ∧ B.cols = w ∧
    C = ⟨A.rows, A.cols, fun i j =>
      if (r ≤ i ∧ i < r + h) ∧ (c ≤ j ∧ j < c + w) then B.get (i - r) (j - c) else A.get i j⟩ := by
  unfold Mat.setBlock? at e
  obtain ⟨_, h1, e⟩ := bind_eq_ok.1 e
  obtain ⟨_, h2, e⟩ := bind_eq_ok.1 e
  have h1 := requireIndex_eq_ok.1 h1
  have h2 := requireSize_eq_ok.1 h2
  exact ⟨h1.1, h1.2, h2.1, h2.2, (Except.ok.inj e).symm⟩

theorem Vec.setSegment?_eq_ok {v w u : Vec K} {s l : ℕ} (e : v.setSegment? s l w = .ok u) :
    s + l ≤ v.size ∧ w.size = l ∧
    u = ⟨v.size, fun i => if s ≤ i ∧ i < s + l then w.get (i - s) else v.get i⟩ := by
  unfold Vec.setSegment? at e
  obtain ⟨_, h1, e⟩ := bind_eq_ok.1 e
  obtain ⟨_, h2, e⟩ := bind_eq_ok.1 e
  exact ⟨requireIndex_eq_ok.1 h1, requireSize_eq_ok.1 h2, (Except.ok.inj e).symm⟩

theorem Vec.segment?_eq_ok {v u : Vec K} {s l : ℕ} (e : v.segment? s l = .ok u) :
    s + l ≤ v.size ∧ u = ⟨l, fun i => v.get (s + i)⟩ := by
  unfold Vec.segment? at e
  obtain ⟨_, h1, e⟩ := bind_eq_ok.1 e
  exact ⟨requireIndex_eq_ok.1 h1, (Except.ok.inj e).symm⟩

/-- `A x`. -/
def mv (A : Mat K) (x : ℕ → K) (i : ℕ) : K := ∑ j ∈ range A.cols, A.get i j * x j

/-- `xᵀ y`. -/
def dot (n : ℕ) (x y : ℕ → K) : K := ∑ i ∈ range n, x i * y i

theorem mv_congr {A : Mat K} {x y : ℕ → K} (h : ∀ j < A.cols, x j = y j) (i : ℕ) : mv A x i = mv A y i :=
  sum_congr rfl fun j hj => by rw [h j (mem_range.1 hj)]

theorem mv_add (A : Mat K) (x y : ℕ → K) (i : ℕ) : mv A (fun j => x j + y j) i = mv A x i + mv A y i := by
  unfold mv
  rw [← sum_add_distrib]
  exact sum_congr rfl fun j _ => by ring

theorem mv_sub (A : Mat K) (x y : ℕ → K) (i : ℕ) : mv A (fun j => x j - y j) i = mv A x i - mv A y i := by
  unfold mv
  rw [← sum_sub_distrib]
  exact sum_congr rfl fun j _ => by ring

theorem mv_smul (A : Mat K) (c : K) (x : ℕ → K) (i : ℕ) : mv A (fun j => c * x j) i = c * mv A x i := by
  unfold mv
  rw [mul_sum]
  exact sum_congr rfl fun j _ => by ring

theorem dot_congr {n : ℕ} {x y x' y' : ℕ → K} (h : ∀ i < n, x i = x' i) (h' : ∀ i < n, y i = y' i) :
    dot n x y = dot n x' y' :=
  sum_congr rfl fun i hi => by rw [h i (mem_range.1 hi), h' i (mem_range.1 hi)]

/-- `(A B) x = A (B x)`. -/
theorem mv_mul {A B C : Mat K} (h : A.mul? B = .ok C) (x : ℕ → K) (i : ℕ) : mv C x i = mv A (mv B x) i := by
  obtain ⟨-, rfl⟩ := Mat.mul?_eq_ok h
  unfold mv
  simp only [sum_mul, mul_sum]
  rw [sum_comm]
  exact sum_congr rfl fun k _ => sum_congr rfl fun j _ => by ring

/-- `(Aᵀ y)ᵀ x = yᵀ (A x)`. -/
theorem dot_transpose (A : Mat K) (x y : ℕ → K) :
    dot A.cols (mv A.transpose y) x = dot A.rows y (mv A x) := by
  unfold dot mv Mat.transpose
  simp only [sum_mul, mul_sum]
  rw [sum_comm]
  exact sum_congr rfl fun k _ => sum_congr rfl fun j _ => by ring

theorem dot_two (N : ℕ) (x y : ℕ → K) :
    dot (2 * N) x y = dot N x y + dot N (fun i => x (N + i)) (fun i => y (N + i)) := by
  unfold dot
  rw [two_mul, sum_range_add]

/-- A diagonal matrix. -/
theorem mv_diag {W : Mat K} {N : ℕ} (hc : W.cols = N) (hd : ∀ i j, i ≠ j → W.get i j = 0) (x : ℕ → K)
    {i : ℕ} (hi : i < N) : mv W x i = W.get i i * x i := by
  unfold mv
  rw [hc, sum_eq_single i]
  · intro j _ hj; rw [hd i j (Ne.symm hj), zero_mul]
  · intro h; exact absurd (mem_range.2 hi) h

/-- The quadratic part of a cost. -/
theorem quad_eq_dot (Q : Mat K) (x : ℕ → K) :
    ∑ i ∈ range Q.rows, ∑ j ∈ range Q.cols, x i * Q.get i j * x j = dot Q.rows (mv Q x) x := by
  unfold dot mv
  refine sum_congr rfl fun i _ => ?_
  rw [sum_mul]
  exact sum_congr rfl fun j _ => by ring

end MPC
