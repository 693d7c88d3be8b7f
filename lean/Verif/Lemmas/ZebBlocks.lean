import Verif.Lemmas.ZebModel
import Verif.Lemmas.LeastSquares

/-! # The block structure shared by the objectives and constraints of `ZebulonWalkgen` -/

set_option linter.unusedSectionVars false
set_option linter.unusedSimpArgs false

namespace MPC

open Finset

variable {K : Type} [Field K] [LinearOrder K] [IsStrictOrderedRing K]

theorem Vec.incSegment?_ok {v w : Vec K} {s l : ℕ} (h : s + l ≤ v.size) (hw : w.size = l) :
    v.incSegment? s l w = .ok ⟨v.size, fun i =>
      if s ≤ i ∧ i < s + l then v.get i + w.get (i - s) else v.get i⟩ := by
  simp [Vec.incSegment?, requireIndex, requireSize, h, hw]

theorem Vec.decSegment?_ok {v w : Vec K} {s l : ℕ} (h : s + l ≤ v.size) (hw : w.size = l) :
    v.decSegment? s l w = .ok ⟨v.size, fun i =>
      if s ≤ i ∧ i < s + l then v.get i - w.get (i - s) else v.get i⟩ := by
  simp [Vec.decSegment?, requireIndex, requireSize, h, hw]

theorem Mat.incBlock?_ok {A B : Mat K} {r c h w : ℕ} (hr : r + h ≤ A.rows) (hc : c + w ≤ A.cols)
    (hB : B.rows = h) (hB' : B.cols = w) :
    A.incBlock? r c h w B = .ok ⟨A.rows, A.cols, fun i j =>
      if (r ≤ i ∧ i < r + h) ∧ (c ≤ j ∧ j < c + w) then A.get i j + B.get (i - r) (j - c)
      else A.get i j⟩ := by
  simp [Mat.incBlock?, requireIndex, requireSize, hr, hc, hB, hB']

/-- The matrix of `2N` residuals, first along X, then along Y, as functions of the `4N` unknowns. -/
def coupledD (N : ℕ) (C0 C1 B0 B1 : ℕ → ℕ → K) (k c : ℕ) : K :=
  if k < N then
    if c < N then C0 k c else if c < 2 * N then 0 else if c < 3 * N then B0 k (c - 2 * N) else 0
  else
    if c < N then 0 else if c < 2 * N then C1 (k - N) (c - N) else if c < 3 * N then 0
    else B1 (k - N) (c - 3 * N)

/-- Stacked residual offsets. -/
def zStack (N : ℕ) (a b : ℕ → K) (k : ℕ) : K := if k < N then a k else b (k - N)

theorem zStack_lo {N k : ℕ} (a b : ℕ → K) (h : k < N) : zStack N a b k = a k := if_pos h
theorem zStack_hi {N : ℕ} (a b : ℕ → K) (k : ℕ) : zStack N a b (N + k) = b k := by
  unfold zStack; rw [if_neg (by omega), Nat.add_sub_cancel_left]

section
variable {N : ℕ} (C0 C1 B0 B1 : ℕ → ℕ → K) {k i : ℕ}

theorem D_x0 (hk : k < N) (hi : i < N) : coupledD N C0 C1 B0 B1 k i = C0 k i := by
  unfold coupledD; rw [if_pos hk, if_pos hi]
theorem D_x1 (hk : k < N) (hi : i < N) : coupledD N C0 C1 B0 B1 k (N + i) = 0 := by
  unfold coupledD; rw [if_pos hk, if_neg (by omega), if_pos (by omega)]
theorem D_x2 (hk : k < N) (hi : i < N) : coupledD N C0 C1 B0 B1 k (2 * N + i) = B0 k i := by
  unfold coupledD
  rw [if_pos hk, if_neg (by omega), if_neg (by omega), if_pos (by omega), Nat.add_sub_cancel_left]
theorem D_x3 (hk : k < N) : coupledD N C0 C1 B0 B1 k (3 * N + i) = 0 := by
  unfold coupledD; rw [if_pos hk, if_neg (by omega), if_neg (by omega), if_neg (by omega)]
theorem D_y0 (hi : i < N) : coupledD N C0 C1 B0 B1 (N + k) i = 0 := by
  unfold coupledD; rw [if_neg (by omega), if_pos hi]
theorem D_y1 (hi : i < N) : coupledD N C0 C1 B0 B1 (N + k) (N + i) = C1 k i := by
  unfold coupledD
  rw [if_neg (by omega), if_neg (by omega), if_pos (by omega), Nat.add_sub_cancel_left,
    Nat.add_sub_cancel_left]
theorem D_y2 (hi : i < N) : coupledD N C0 C1 B0 B1 (N + k) (2 * N + i) = 0 := by
  unfold coupledD; rw [if_neg (by omega), if_neg (by omega), if_neg (by omega), if_pos (by omega)]
theorem D_y3 : coupledD N C0 C1 B0 B1 (N + k) (3 * N + i) = B1 k i := by
  unfold coupledD
  rw [if_neg (by omega), if_neg (by omega), if_neg (by omega), if_neg (by omega),
    Nat.add_sub_cancel_left, Nat.add_sub_cancel_left]
end

theorem sum_range_two (N : ℕ) (f : ℕ → K) :
    ∑ c ∈ range (2 * N), f c = ∑ i ∈ range N, f i + ∑ i ∈ range N, f (N + i) := by
  rw [two_mul, sum_range_add]

theorem sum_range_four (N : ℕ) (f : ℕ → K) :
    ∑ c ∈ range (4 * N), f c = ∑ i ∈ range N, f i + ∑ i ∈ range N, f (N + i)
      + ∑ i ∈ range N, f (2 * N + i) + ∑ i ∈ range N, f (3 * N + i) := by
  rw [show 4 * N = 2 * N + N + N by ring, sum_range_add, sum_range_add, sum_range_two,
    show 2 * N + N = 3 * N by ring]

/-- Block of an index. -/
theorem four_cases {N r : ℕ} (h : r < 4 * N) :
    ∃ i < N, r = i ∨ r = N + i ∨ r = 2 * N + i ∨ r = 3 * N + i := by
  rcases lt_or_ge r N with h1 | h1
  · exact ⟨r, h1, .inl rfl⟩
  rcases lt_or_ge r (2 * N) with h2 | h2
  · exact ⟨r - N, by omega, .inr (.inl (by omega))⟩
  rcases lt_or_ge r (3 * N) with h3 | h3
  · exact ⟨r - 2 * N, by omega, .inr (.inr (.inl (by omega)))⟩
  · exact ⟨r - 3 * N, by omega, .inr (.inr (.inr (by omega)))⟩

theorem two_cases {N r : ℕ} (h : r < 2 * N) : ∃ i < N, r = i ∨ r = N + i := by
  rcases lt_or_ge r N with h1 | h1
  · exact ⟨r, h1, .inl rfl⟩
  · exact ⟨r - N, by omega, .inr (by omega)⟩

/-- Row of residuals along X. -/
theorem D_row_x {N : ℕ} (C0 C1 B0 B1 : ℕ → ℕ → K) (X : ℕ → K) {k : ℕ} (hk : k < N) :
    ∑ c ∈ range (4 * N), coupledD N C0 C1 B0 B1 k c * X c
      = ∑ i ∈ range N, C0 k i * Spec.jerkCX N X i + ∑ i ∈ range N, B0 k i * Spec.jerkBX N X i := by
  rw [sum_range_four]
  have h1 : ∑ i ∈ range N, coupledD N C0 C1 B0 B1 k i * X i
      = ∑ i ∈ range N, C0 k i * Spec.jerkCX N X i :=
    sum_congr rfl fun i hi => by rw [D_x0 _ _ _ _ hk (mem_range.1 hi)]; rfl
  have h2 : ∑ i ∈ range N, coupledD N C0 C1 B0 B1 k (N + i) * X (N + i) = 0 :=
    sum_eq_zero fun i hi => by rw [D_x1 _ _ _ _ hk (mem_range.1 hi), zero_mul]
  have h3 : ∑ i ∈ range N, coupledD N C0 C1 B0 B1 k (2 * N + i) * X (2 * N + i)
      = ∑ i ∈ range N, B0 k i * Spec.jerkBX N X i :=
    sum_congr rfl fun i hi => by rw [D_x2 _ _ _ _ hk (mem_range.1 hi)]; rfl
  have h4 : ∑ i ∈ range N, coupledD N C0 C1 B0 B1 k (3 * N + i) * X (3 * N + i) = 0 :=
    sum_eq_zero fun i _ => by rw [D_x3 _ _ _ _ hk, zero_mul]
  rw [h1, h2, h3, h4]; ring

/-- Row of residuals along Y. -/
theorem D_row_y {N : ℕ} (C0 C1 B0 B1 : ℕ → ℕ → K) (X : ℕ → K) (k : ℕ) :
    ∑ c ∈ range (4 * N), coupledD N C0 C1 B0 B1 (N + k) c * X c
      = ∑ i ∈ range N, C1 k i * Spec.jerkCY N X i + ∑ i ∈ range N, B1 k i * Spec.jerkBY N X i := by
  rw [sum_range_four]
  have h1 : ∑ i ∈ range N, coupledD N C0 C1 B0 B1 (N + k) i * X i = 0 :=
    sum_eq_zero fun i hi => by rw [D_y0 _ _ _ _ (mem_range.1 hi), zero_mul]
  have h2 : ∑ i ∈ range N, coupledD N C0 C1 B0 B1 (N + k) (N + i) * X (N + i)
      = ∑ i ∈ range N, C1 k i * Spec.jerkCY N X i :=
    sum_congr rfl fun i hi => by rw [D_y1 _ _ _ _ (mem_range.1 hi)]; rfl
  have h3 : ∑ i ∈ range N, coupledD N C0 C1 B0 B1 (N + k) (2 * N + i) * X (2 * N + i) = 0 :=
    sum_eq_zero fun i hi => by rw [D_y2 _ _ _ _ (mem_range.1 hi), zero_mul]
  have h4 : ∑ i ∈ range N, coupledD N C0 C1 B0 B1 (N + k) (3 * N + i) * X (3 * N + i)
      = ∑ i ∈ range N, B1 k i * Spec.jerkBY N X i :=
    sum_congr rfl fun i _ => by rw [D_y3]; rfl
  rw [h1, h2, h3, h4]; ring

/-- Column `r` of the residual matrix against the offsets. -/
theorem D_col {N : ℕ} (C0 C1 B0 B1 : ℕ → ℕ → K) (a b : ℕ → K) {i : ℕ} (hi : i < N) :
    (∑ k ∈ range (2 * N), coupledD N C0 C1 B0 B1 k i * zStack N a b k
      = ∑ k ∈ range N, C0 k i * a k) ∧
    (∑ k ∈ range (2 * N), coupledD N C0 C1 B0 B1 k (N + i) * zStack N a b k
      = ∑ k ∈ range N, C1 k i * b k) ∧
    (∑ k ∈ range (2 * N), coupledD N C0 C1 B0 B1 k (2 * N + i) * zStack N a b k
      = ∑ k ∈ range N, B0 k i * a k) ∧
    (∑ k ∈ range (2 * N), coupledD N C0 C1 B0 B1 k (3 * N + i) * zStack N a b k
      = ∑ k ∈ range N, B1 k i * b k) := by
  simp only [sum_range_two]
  refine ⟨?_, ?_, ?_, ?_⟩
  · refine (congrArg₂ (· + ·) (sum_congr rfl fun k hk => ?_) (sum_eq_zero fun k _ => ?_)).trans (add_zero _)
    · rw [D_x0 _ _ _ _ (mem_range.1 hk) hi, zStack_lo _ _ (mem_range.1 hk)]
    · rw [D_y0 _ _ _ _ hi, zero_mul]
  · refine (congrArg₂ (· + ·) (sum_eq_zero fun k hk => ?_) (sum_congr rfl fun k _ => ?_)).trans (zero_add _)
    · rw [D_x1 _ _ _ _ (mem_range.1 hk) hi, zero_mul]
    · rw [D_y1 _ _ _ _ hi, zStack_hi]
  · refine (congrArg₂ (· + ·) (sum_congr rfl fun k hk => ?_) (sum_eq_zero fun k _ => ?_)).trans (add_zero _)
    · rw [D_x2 _ _ _ _ (mem_range.1 hk) hi, zStack_lo _ _ (mem_range.1 hk)]
    · rw [D_y2 _ _ _ _ hi, zero_mul]
  · refine (congrArg₂ (· + ·) (sum_eq_zero fun k hk => ?_) (sum_congr rfl fun k _ => ?_)).trans (zero_add _)
    · rw [D_x3 _ _ _ _ (mem_range.1 hk), zero_mul]
    · rw [D_y3, zStack_hi]

/-- Entries of `AᵀB` for `n` rows. -/
def cross (n : ℕ) (A B : ℕ → ℕ → K) (i j : ℕ) : K := ∑ k ∈ range n, A k i * B k j

/-- Block `(a, b)` of the Gram matrix of the residuals. -/
theorem gram_blocks {N : ℕ} (C0 C1 B0 B1 : ℕ → ℕ → K) {i j : ℕ} (hi : i < N) (hj : j < N) :
    let G := gram (2 * N) (coupledD N C0 C1 B0 B1)
    (G i j = cross N C0 C0 i j ∧ G i (N + j) = 0 ∧ G i (2 * N + j) = cross N C0 B0 i j ∧
      G i (3 * N + j) = 0) ∧
    (G (N + i) j = 0 ∧ G (N + i) (N + j) = cross N C1 C1 i j ∧ G (N + i) (2 * N + j) = 0 ∧
      G (N + i) (3 * N + j) = cross N C1 B1 i j) ∧
    (G (2 * N + i) j = cross N B0 C0 i j ∧ G (2 * N + i) (N + j) = 0 ∧
      G (2 * N + i) (2 * N + j) = cross N B0 B0 i j ∧ G (2 * N + i) (3 * N + j) = 0) ∧
    (G (3 * N + i) j = 0 ∧ G (3 * N + i) (N + j) = cross N B1 C1 i j ∧ G (3 * N + i) (2 * N + j) = 0 ∧
      G (3 * N + i) (3 * N + j) = cross N B1 B1 i j) := by
  intro G
  have e : ∀ r c, G r c = ∑ k ∈ range N, coupledD N C0 C1 B0 B1 k r * coupledD N C0 C1 B0 B1 k c
      + ∑ k ∈ range N, coupledD N C0 C1 B0 B1 (N + k) r * coupledD N C0 C1 B0 B1 (N + k) c :=
    fun r c => sum_range_two N _
  have x : ∀ {r c : ℕ} {a b : ℕ → K} {u v : ℕ → K},
      (∀ k < N, coupledD N C0 C1 B0 B1 k r = a k) → (∀ k < N, coupledD N C0 C1 B0 B1 k c = b k) →
      (∀ k < N, coupledD N C0 C1 B0 B1 (N + k) r = u k) →
      (∀ k < N, coupledD N C0 C1 B0 B1 (N + k) c = v k) →
      G r c = ∑ k ∈ range N, a k * b k + ∑ k ∈ range N, u k * v k := by
    intro r c a b u v h1 h2 h3 h4
    rw [e]
    congr 1
    · exact sum_congr rfl fun k hk => by rw [h1 k (mem_range.1 hk), h2 k (mem_range.1 hk)]
    · exact sum_congr rfl fun k hk => by rw [h3 k (mem_range.1 hk), h4 k (mem_range.1 hk)]
  have c0 : ∀ {i}, i < N → (∀ k < N, coupledD N C0 C1 B0 B1 k i = C0 k i) ∧
      (∀ k < N, coupledD N C0 C1 B0 B1 (N + k) i = 0) :=
    fun hi => ⟨fun k hk => D_x0 _ _ _ _ hk hi, fun k _ => D_y0 _ _ _ _ hi⟩
  have c1 : ∀ {i}, i < N → (∀ k < N, coupledD N C0 C1 B0 B1 k (N + i) = 0) ∧
      (∀ k < N, coupledD N C0 C1 B0 B1 (N + k) (N + i) = C1 k i) :=
    fun hi => ⟨fun k hk => D_x1 _ _ _ _ hk hi, fun k _ => D_y1 _ _ _ _ hi⟩
  have c2 : ∀ {i}, i < N → (∀ k < N, coupledD N C0 C1 B0 B1 k (2 * N + i) = B0 k i) ∧
      (∀ k < N, coupledD N C0 C1 B0 B1 (N + k) (2 * N + i) = 0) :=
    fun hi => ⟨fun k hk => D_x2 _ _ _ _ hk hi, fun k _ => D_y2 _ _ _ _ hi⟩
  have c3 : ∀ {i}, i < N → (∀ k < N, coupledD N C0 C1 B0 B1 k (3 * N + i) = 0) ∧
      (∀ k < N, coupledD N C0 C1 B0 B1 (N + k) (3 * N + i) = B1 k i) :=
    fun hi => ⟨fun k hk => D_x3 _ _ _ _ hk, fun k _ => D_y3 _ _ _ _⟩
  refine ⟨⟨?_, ?_, ?_, ?_⟩, ⟨?_, ?_, ?_, ?_⟩, ⟨?_, ?_, ?_, ?_⟩, ⟨?_, ?_, ?_, ?_⟩⟩
  · rw [x (c0 hi).1 (c0 hj).1 (c0 hi).2 (c0 hj).2]; simp [cross]
  · rw [x (c0 hi).1 (c1 hj).1 (c0 hi).2 (c1 hj).2]; simp
  · rw [x (c0 hi).1 (c2 hj).1 (c0 hi).2 (c2 hj).2]; simp [cross]
  · rw [x (c0 hi).1 (c3 hj).1 (c0 hi).2 (c3 hj).2]; simp
  · rw [x (c1 hi).1 (c0 hj).1 (c1 hi).2 (c0 hj).2]; simp
  · rw [x (c1 hi).1 (c1 hj).1 (c1 hi).2 (c1 hj).2]; simp [cross]
  · rw [x (c1 hi).1 (c2 hj).1 (c1 hi).2 (c2 hj).2]; simp
  · rw [x (c1 hi).1 (c3 hj).1 (c1 hi).2 (c3 hj).2]; simp [cross]
  · rw [x (c2 hi).1 (c0 hj).1 (c2 hi).2 (c0 hj).2]; simp [cross]
  · rw [x (c2 hi).1 (c1 hj).1 (c2 hi).2 (c1 hj).2]; simp
  · rw [x (c2 hi).1 (c2 hj).1 (c2 hi).2 (c2 hj).2]; simp [cross]
  · rw [x (c2 hi).1 (c3 hj).1 (c2 hi).2 (c3 hj).2]; simp
  · rw [x (c3 hi).1 (c0 hj).1 (c3 hi).2 (c0 hj).2]; simp
  · rw [x (c3 hi).1 (c1 hj).1 (c3 hi).2 (c1 hj).2]; simp [cross]
  · rw [x (c3 hi).1 (c2 hj).1 (c3 hi).2 (c2 hj).2]; simp
  · rw [x (c3 hi).1 (c3 hj).1 (c3 hi).2 (c3 hj).2]; simp [cross]

/-- An `N × N` matrix with given entries. -/
def Mat.Is (A : Mat K) (N M : ℕ) (f : ℕ → ℕ → K) : Prop :=
  A.rows = N ∧ A.cols = M ∧ ∀ i < N, ∀ j < M, A.get i j = f i j

/-- A vector of size `N` with given entries. -/
def Vec.Is (v : Vec K) (N : ℕ) (f : ℕ → K) : Prop := v.size = N ∧ ∀ i < N, v.get i = f i

/-- Which block an index belongs to. -/
theorem in_block {N i : ℕ} (h : i < N) :
    ((0 ≤ i ∧ i < 0 + N) = True) ∧
    ((0 ≤ N + i ∧ N + i < 0 + N) = False) ∧
    ((0 ≤ 2 * N + i ∧ 2 * N + i < 0 + N) = False) ∧
    ((0 ≤ 3 * N + i ∧ 3 * N + i < 0 + N) = False) ∧
    ((N ≤ i ∧ i < N + N) = False) ∧
    ((N ≤ N + i ∧ N + i < N + N) = True) ∧
    ((N ≤ 2 * N + i ∧ 2 * N + i < N + N) = False) ∧
    ((N ≤ 3 * N + i ∧ 3 * N + i < N + N) = False) ∧
    ((2 * N ≤ i ∧ i < 2 * N + N) = False) ∧
    ((2 * N ≤ N + i ∧ N + i < 2 * N + N) = False) ∧
    ((2 * N ≤ 2 * N + i ∧ 2 * N + i < 2 * N + N) = True) ∧
    ((2 * N ≤ 3 * N + i ∧ 3 * N + i < 2 * N + N) = False) ∧
    ((3 * N ≤ i ∧ i < 3 * N + N) = False) ∧
    ((3 * N ≤ N + i ∧ N + i < 3 * N + N) = False) ∧
    ((3 * N ≤ 2 * N + i ∧ 2 * N + i < 3 * N + N) = False) ∧
    ((3 * N ≤ 3 * N + i ∧ 3 * N + i < 3 * N + N) = True) := by
  refine ⟨?_, ?_, ?_, ?_, ?_, ?_, ?_, ?_, ?_, ?_, ?_, ?_, ?_, ?_, ?_, ?_⟩ <;> simp only [eq_iff_iff, iff_true, iff_false] <;> omega

/-- The eight blocks form the Gram matrix of the residuals. -/
theorem hessian8_ok {N : ℕ} {C0 C1 B0 B1 : ℕ → ℕ → K} {m00 m11 m22 m33 m20 m31 m02 m13 : Mat K}
    (h00 : m00.Is N N (cross N C0 C0)) (h11 : m11.Is N N (cross N C1 C1))
    (h22 : m22.Is N N (cross N B0 B0)) (h33 : m33.Is N N (cross N B1 B1))
    (h20 : m20.Is N N (cross N B0 C0)) (h31 : m31.Is N N (cross N B1 C1))
    (h02 : m02.Is N N (cross N C0 B0)) (h13 : m13.Is N N (cross N C1 B1)) :
    ∃ H, hessian8 N (.ok m00) (.ok m11) (.ok m22) (.ok m33) (.ok m20) (.ok m31) (.ok m02) (.ok m13)
        = .ok H ∧ H.Is (4 * N) (4 * N) (gram (2 * N) (coupledD N C0 C1 B0 B1)) := by
  unfold hessian8
  simp only [ok_bind]
  rw [Mat.setBlock?_ok (by simp [Mat.zero]; omega) (by simp [Mat.zero]; omega) h00.1 h00.2.1, ok_bind,
    Mat.setBlock?_ok (by simp [Mat.zero]; omega) (by simp [Mat.zero]; omega) h11.1 h11.2.1, ok_bind,
    Mat.setBlock?_ok (by simp [Mat.zero]; omega) (by simp [Mat.zero]; omega) h22.1 h22.2.1, ok_bind,
    Mat.setBlock?_ok (by simp [Mat.zero]; omega) (by simp [Mat.zero]; omega) h33.1 h33.2.1, ok_bind,
    Mat.setBlock?_ok (by simp [Mat.zero]; omega) (by simp [Mat.zero]; omega) h20.1 h20.2.1, ok_bind,
    Mat.setBlock?_ok (by simp [Mat.zero]; omega) (by simp [Mat.zero]; omega) h31.1 h31.2.1, ok_bind,
    Mat.setBlock?_ok (by simp [Mat.zero]; omega) (by simp [Mat.zero]; omega) h02.1 h02.2.1, ok_bind,
    Mat.setBlock?_ok (by simp [Mat.zero]; omega) (by simp [Mat.zero]; omega) h13.1 h13.2.1]
  refine ⟨_, rfl, rfl, rfl, ?_⟩
  intro r hr c hc
  obtain ⟨i, hi, hr⟩ := four_cases hr
  obtain ⟨j, hj, hc⟩ := four_cases hc
  obtain ⟨⟨a0, a1, a2, a3⟩, ⟨b0, b1, b2, b3⟩, ⟨d0, d1, d2, d3⟩, ⟨e0, e1, e2, e3⟩⟩ :=
    gram_blocks C0 C1 B0 B1 hi hj
  have k0 := h00.2.2 i hi j hj
  have k1 := h11.2.2 i hi j hj
  have k2 := h22.2.2 i hi j hj
  have k3 := h33.2.2 i hi j hj
  have k4 := h20.2.2 i hi j hj
  have k5 := h31.2.2 i hi j hj
  have k6 := h02.2.2 i hi j hj
  have k7 := h13.2.2 i hi j hj
  have z : ∀ n : ℕ, n - 0 = n := fun n => rfl
  have y1 : N + i - N = i := by omega
  have y2 : 2 * N + i - 2 * N = i := by omega
  have y3 : 3 * N + i - 3 * N = i := by omega
  have y1' : N + j - N = j := by omega
  have y2' : 2 * N + j - 2 * N = j := by omega
  have y3' : 3 * N + j - 3 * N = j := by omega
  obtain ⟨p00, p01, p02, p03, p10, p11, p12, p13, p20, p21, p22, p23, p30, p31, p32, p33⟩ := in_block hi
  obtain ⟨q00, q01, q02, q03, q10, q11, q12, q13, q20, q21, q22, q23, q30, q31, q32, q33⟩ := in_block hj
  rcases hr with rfl | rfl | rfl | rfl <;> rcases hc with rfl | rfl | rfl | rfl <;>
    simp only [a0, a1, a2, a3, b0, b1, b2, b3, d0, d1, d2, d3, e0, e1, e2, e3, Mat.zero, p00, p01, p02, p03, p10, p11, p12, p13, p20, p21, p22, p23, p30, p31, p32, p33, q00, q01, q02, q03, q10, q11, q12, q13, q20, q21, q22, q23, q30, q31, q32, q33,
      and_true, and_false, if_true, if_false, z, y1, y2, y3, y1', y2', y3', k0, k1, k2, k3, k4, k5, k6, k7]

/-- The four segments add the columns against the offsets. -/
theorem gradient4_ok {N : ℕ} (C0 C1 B0 B1 : ℕ → ℕ → K) {a b : ℕ → K} {g v0 v1 v2 v3 : Vec K}
    (hg : g.size = 4 * N)
    (h0 : v0.Is N fun i => ∑ k ∈ range N, C0 k i * a k)
    (h1 : v1.Is N fun i => ∑ k ∈ range N, C1 k i * b k)
    (h2 : v2.Is N fun i => ∑ k ∈ range N, B0 k i * a k)
    (h3 : v3.Is N fun i => ∑ k ∈ range N, B1 k i * b k) :
    ∃ G, gradient4 N g (.ok v0) (.ok v1) (.ok v2) (.ok v3) = .ok G ∧
      G.Is (4 * N) fun r => g.get r + ∑ k ∈ range (2 * N), coupledD N C0 C1 B0 B1 k r * zStack N a b k := by
  unfold gradient4
  simp only [ok_bind]
  rw [Vec.incSegment?_ok (by rw [hg]; omega) h0.1, ok_bind,
    Vec.incSegment?_ok (by simp only; rw [hg]; omega) h1.1, ok_bind,
    Vec.incSegment?_ok (by simp only; rw [hg]; omega) h2.1, ok_bind,
    Vec.incSegment?_ok (by simp only; rw [hg]; omega) h3.1]
  refine ⟨_, rfl, hg, ?_⟩
  intro r hr
  obtain ⟨i, hi, hr⟩ := four_cases hr
  obtain ⟨d0, d1, d2, d3⟩ := D_col C0 C1 B0 B1 a b hi
  have k0 := h0.2 i hi
  have k1 := h1.2 i hi
  have k2 := h2.2 i hi
  have k3 := h3.2 i hi
  have z : ∀ n : ℕ, n - 0 = n := fun n => rfl
  have y1 : N + i - N = i := by omega
  have y2 : 2 * N + i - 2 * N = i := by omega
  have y3 : 3 * N + i - 3 * N = i := by omega
  obtain ⟨p00, p01, p02, p03, p10, p11, p12, p13, p20, p21, p22, p23, p30, p31, p32, p33⟩ := in_block hi
  rcases hr with rfl | rfl | rfl | rfl <;> simp only [d0, d1, d2, d3, p00, p01, p02, p03, p10, p11, p12, p13, p20, p21, p22, p23, p30, p31, p32, p33, if_true, if_false, z, y1,
    y2, y3, k0, k1, k2, k3]

theorem relative4_ok {N : ℕ} {C0 C1 B0 B1 : ℕ → ℕ → K} {cx cy bx by_ : Mat K}
    (h0 : cx.Is N N C0) (h1 : cy.Is N N C1) (h2 : bx.Is N N B0) (h3 : by_.Is N N B1) :
    ∃ D, relative4 N cx cy bx by_ = .ok D ∧ D.Is (2 * N) (4 * N) (coupledD N C0 C1 B0 B1) := by
  unfold relative4
  dsimp only
  rw [Mat.setBlock?_ok (by simp [Mat.zero]; omega) (by simp [Mat.zero]; omega) h0.1 h0.2.1, ok_bind,
    Mat.setBlock?_ok (by simp [Mat.zero]; omega) (by simp [Mat.zero]; omega) h1.1 h1.2.1, ok_bind,
    Mat.setBlock?_ok (by simp [Mat.zero]; omega) (by simp [Mat.zero]; omega) h2.1 h2.2.1, ok_bind,
    Mat.setBlock?_ok (by simp [Mat.zero]; omega) (by simp [Mat.zero]; omega) h3.1 h3.2.1]
  refine ⟨_, rfl, rfl, rfl, ?_⟩
  intro r hr c hc
  obtain ⟨k, hk, hr⟩ := two_cases hr
  obtain ⟨j, hj, hc⟩ := four_cases hc
  have k0 := h0.2.2 k hk j hj
  have k1 := h1.2.2 k hk j hj
  have k2 := h2.2.2 k hk j hj
  have k3 := h3.2.2 k hk j hj
  have z : ∀ n : ℕ, n - 0 = n := fun n => rfl
  have y1 : N + k - N = k := by omega
  have y1' : N + j - N = j := by omega
  have y2' : 2 * N + j - 2 * N = j := by omega
  have y3' : 3 * N + j - 3 * N = j := by omega
  have w0 := fun C0 C1 B0 B1 : ℕ → ℕ → K => D_x0 C0 C1 B0 B1 hk hj
  have w1 := fun C0 C1 B0 B1 : ℕ → ℕ → K => D_x1 C0 C1 B0 B1 hk hj
  have w2 := fun C0 C1 B0 B1 : ℕ → ℕ → K => D_x2 C0 C1 B0 B1 hk hj
  have w3 := fun C0 C1 B0 B1 : ℕ → ℕ → K => D_x3 (i := j) C0 C1 B0 B1 hk
  have w4 := fun C0 C1 B0 B1 : ℕ → ℕ → K => D_y0 (k := k) C0 C1 B0 B1 hj
  have w5 := fun C0 C1 B0 B1 : ℕ → ℕ → K => D_y1 (k := k) C0 C1 B0 B1 hj
  have w6 := fun C0 C1 B0 B1 : ℕ → ℕ → K => D_y2 (k := k) C0 C1 B0 B1 hj
  have w7 := fun C0 C1 B0 B1 : ℕ → ℕ → K => D_y3 (N := N) (k := k) (i := j) C0 C1 B0 B1
  obtain ⟨p00, p01, p02, p03, p10, p11, p12, p13, p20, p21, p22, p23, p30, p31, p32, p33⟩ := in_block hk
  obtain ⟨q00, q01, q02, q03, q10, q11, q12, q13, q20, q21, q22, q23, q30, q31, q32, q33⟩ := in_block hj
  rcases hr with rfl | rfl <;> rcases hc with rfl | rfl | rfl | rfl <;>
    simp only [w0, w1, w2, w3, w4, w5, w6, w7, Mat.zero, p00, p01, p02, p03, p10, p11, p12, p13, p20, p21, p22, p23, p30, p31, p32, p33, q00, q01, q02, q03, q10, q11, q12, q13, q20, q21, q22, q23, q30, q31, q32, q33,
      and_true, and_false, if_true, if_false, z, y1, y1', y2', y3', k0, k1, k2, k3]

end MPC
