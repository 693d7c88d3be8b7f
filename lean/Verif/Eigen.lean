import Mathlib.Algebra.Order.Field.Basic
import Mathlib.Algebra.Order.BigOperators.Group.Finset
import Mathlib.Algebra.BigOperators.Intervals
import Mathlib.Tactic.Ring
import Mathlib.Tactic.Linarith
import Mathlib.Tactic.FieldSimp
import Mathlib.Tactic.NormNum
import Mathlib.Tactic.LinearCombination
import Mathlib.Algebra.BigOperators.Field
import Mathlib.LinearAlgebra.Matrix.Adjugate
import Mathlib.Data.Matrix.Block

/-!
# Runtime-sized vectors and matrices, faults

The C++ code stores everything in `Eigen::Matrix<Scalar, Dynamic, ...>`
(`/repo/mpc-walkgen/type.h`). We model such an object by its runtime size(s) and its entries.
Operations that Eigen guards by an assertion (debug build) or that are undefined behaviour
(release build) when sizes disagree are *checked* operations in `Except Fault`.
-/

namespace MPC

/-- Ways an execution can go wrong. Each is a distinct outcome, never a silent default. -/
inductive Fault
  /-- a C++ `assert` fails -/
  | assertFail
  /-- Eigen operation on operands of incompatible sizes -/
  | sizeMismatch
  /-- element access outside of a container -/
  | outOfRange
  /-- use of a value that was never written (uninitialised or inverse of a singular matrix) -/
  | unspecified
  /-- `std::abort()` -/
  | aborted
  /-- a `while` loop that does not end -/
  | nonTermination
  deriving DecidableEq, Repr

/-- Result of a modelled C++ function. -/
abbrev Res := Except Fault

/-- C++ `assert(c)`. -/
def require (c : Prop) [Decidable c] : Res Unit :=
  if c then .ok () else .error .assertFail

/-- Precondition of an Eigen operation on sizes. -/
def requireSize (c : Prop) [Decidable c] : Res Unit :=
  if c then .ok () else .error .sizeMismatch

/-- Precondition of an element access. -/
def requireIndex (c : Prop) [Decidable c] : Res Unit :=
  if c then .ok () else .error .outOfRange

@[simp] theorem ok_bind {α β : Type} (a : α) (f : α → Res β) :
    ((Except.ok a : Res α) >>= f) = f a := rfl

@[simp] theorem error_bind {α β : Type} (e : Fault) (f : α → Res β) :
    ((Except.error e : Res α) >>= f) = .error e := rfl

@[simp] theorem res_pure {α : Type} (a : α) : (pure a : Res α) = .ok a := rfl

theorem require_pos {c : Prop} [Decidable c] (h : c) : require c = .ok () := if_pos h
theorem require_neg {c : Prop} [Decidable c] (h : ¬ c) : require c = .error .assertFail := if_neg h
theorem requireSize_pos {c : Prop} [Decidable c] (h : c) : requireSize c = .ok () := if_pos h
theorem requireSize_neg {c : Prop} [Decidable c] (h : ¬ c) :
    requireSize c = .error .sizeMismatch := if_neg h
theorem requireIndex_pos {c : Prop} [Decidable c] (h : c) : requireIndex c = .ok () := if_pos h
theorem requireIndex_neg {c : Prop} [Decidable c] (h : ¬ c) :
    requireIndex c = .error .outOfRange := if_neg h

@[simp] theorem require_eq_ok {c : Prop} [Decidable c] {u : Unit} : require c = .ok u ↔ c := by
  unfold require; split <;> simp_all
@[simp] theorem requireSize_eq_ok {c : Prop} [Decidable c] {u : Unit} :
    requireSize c = .ok u ↔ c := by
  unfold requireSize; split <;> simp_all
@[simp] theorem requireIndex_eq_ok {c : Prop} [Decidable c] {u : Unit} :
    requireIndex c = .ok u ↔ c := by
  unfold requireIndex; split <;> simp_all

/-- `a >>= f = ok b` iff both stages succeed. -/
theorem bind_eq_ok {α β : Type} {a : Res α} {f : α → Res β} {b : β} :
    (a >>= f) = .ok b ↔ ∃ x, a = .ok x ∧ f x = .ok b := by
  cases a <;> simp

/-- `Eigen::VectorX`: runtime size and entries (entries at indices `≥ size` are meaningless and
never read by the checked operations). -/
structure Vec (K : Type) where
  size : ℕ
  get : ℕ → K

/-- `Eigen::MatrixX`. -/
structure Mat (K : Type) where
  rows : ℕ
  cols : ℕ
  get : ℕ → ℕ → K

variable {K : Type}

namespace Vec

/-- Equality of the meaningful entries. -/
def Same (v w : Vec K) : Prop := v.size = w.size ∧ ∀ i < v.size, v.get i = w.get i

/-- `VectorX::Constant(n, c)` / `setConstant(n, c)`. -/
def const (n : ℕ) (c : K) : Vec K := ⟨n, fun _ => c⟩

/-- `v(i)`. -/
def at? (v : Vec K) (i : ℕ) : Res K := do
  requireIndex (i < v.size)
  pure (v.get i)

/-- `v.segment(start, len)` as an rvalue. -/
def segment? (v : Vec K) (start len : ℕ) : Res (Vec K) := do
  requireIndex (start + len ≤ v.size)
  pure ⟨len, fun i => v.get (start + i)⟩

/-- `v.segment(start, w.size()) = w`. -/
def setSegment? (v : Vec K) (start len : ℕ) (w : Vec K) : Res (Vec K) := do
  requireIndex (start + len ≤ v.size)
  requireSize (w.size = len)
  pure ⟨v.size, fun i => if start ≤ i ∧ i < start + len then w.get (i - start) else v.get i⟩

/-- `v(i) = x`. -/
def set? (v : Vec K) (i : ℕ) (x : K) : Res (Vec K) := do
  requireIndex (i < v.size)
  pure ⟨v.size, fun k => if k = i then x else v.get k⟩

/-- `v.fill(c)`: keeps the size. -/
def fill (v : Vec K) (c : K) : Vec K := ⟨v.size, fun _ => c⟩

section
variable [Field K]

/-- `v + w`, `v += w`. -/
def add? (v w : Vec K) : Res (Vec K) := do
  requireSize (v.size = w.size)
  pure ⟨v.size, fun i => v.get i + w.get i⟩

/-- `v - w`, `v -= w`. -/
def sub? (v w : Vec K) : Res (Vec K) := do
  requireSize (v.size = w.size)
  pure ⟨v.size, fun i => v.get i - w.get i⟩

/-- `c * v`. -/
def smul (c : K) (v : Vec K) : Vec K := ⟨v.size, fun i => c * v.get i⟩

/-- `-v`. -/
def neg (v : Vec K) : Vec K := ⟨v.size, fun i => - v.get i⟩

end

section
variable [LinearOrder K]

/-- `v.cwiseMin(w)`. -/
def cwiseMin? (v w : Vec K) : Res (Vec K) := do
  requireSize (v.size = w.size)
  pure ⟨v.size, fun i => min (v.get i) (w.get i)⟩

/-- `v.cwiseMax(w)`. -/
def cwiseMax? (v w : Vec K) : Res (Vec K) := do
  requireSize (v.size = w.size)
  pure ⟨v.size, fun i => max (v.get i) (w.get i)⟩

end

end Vec

namespace Mat

/-- Equality of the meaningful entries. -/
def Same (A B : Mat K) : Prop :=
  A.rows = B.rows ∧ A.cols = B.cols ∧ ∀ i < A.rows, ∀ j < A.cols, A.get i j = B.get i j

/-- `A.transpose()`. -/
def transpose (A : Mat K) : Mat K := ⟨A.cols, A.rows, fun i j => A.get j i⟩

/-- `A.block(r, c, h, w) = B`. -/
def setBlock? (A : Mat K) (r c h w : ℕ) (B : Mat K) : Res (Mat K) := do
  requireIndex (r + h ≤ A.rows ∧ c + w ≤ A.cols)
  requireSize (B.rows = h ∧ B.cols = w)
  pure ⟨A.rows, A.cols, fun i j =>
    if (r ≤ i ∧ i < r + h) ∧ (c ≤ j ∧ j < c + w) then B.get (i - r) (j - c) else A.get i j⟩

/-- `A.block(r, c, h, w)` as an rvalue. -/
def block? (A : Mat K) (r c h w : ℕ) : Res (Mat K) := do
  requireIndex (r + h ≤ A.rows ∧ c + w ≤ A.cols)
  pure ⟨h, w, fun i j => A.get (r + i) (c + j)⟩

/-- `A(i, j)`. -/
def at? (A : Mat K) (i j : ℕ) : Res K := do
  requireIndex (i < A.rows ∧ j < A.cols)
  pure (A.get i j)

section
variable [Field K]

/-- `MatrixX::Zero(r, c)` / `setZero(r, c)`. -/
def zero (r c : ℕ) : Mat K := ⟨r, c, fun _ _ => 0⟩

/-- `MatrixX::Identity(n, n)`. -/
def one (n : ℕ) : Mat K := ⟨n, n, fun i j => if i = j then 1 else 0⟩

/-- `A * x`. -/
def mulVec? (A : Mat K) (x : Vec K) : Res (Vec K) := do
  requireSize (A.cols = x.size)
  pure ⟨A.rows, fun i => ∑ k ∈ Finset.range A.cols, A.get i k * x.get k⟩

/-- `A * B`. -/
def mul? (A B : Mat K) : Res (Mat K) := do
  requireSize (A.cols = B.rows)
  pure ⟨A.rows, B.cols, fun i j => ∑ k ∈ Finset.range A.cols, A.get i k * B.get k j⟩

/-- `A + B`, `A += B`. -/
def add? (A B : Mat K) : Res (Mat K) := do
  requireSize (A.rows = B.rows ∧ A.cols = B.cols)
  pure ⟨A.rows, A.cols, fun i j => A.get i j + B.get i j⟩

/-- `A - B`, `A -= B`. -/
def sub? (A B : Mat K) : Res (Mat K) := do
  requireSize (A.rows = B.rows ∧ A.cols = B.cols)
  pure ⟨A.rows, A.cols, fun i j => A.get i j - B.get i j⟩

/-- `c * A`. -/
def smul (c : K) (A : Mat K) : Mat K := ⟨A.rows, A.cols, fun i j => c * A.get i j⟩

/-- `-A`. -/
def neg (A : Mat K) : Mat K := ⟨A.rows, A.cols, fun i j => - A.get i j⟩

end

end Mat

/-! ### The checked operations succeed exactly when the sizes agree -/

theorem Vec.at?_ok {v : Vec K} {i : ℕ} (h : i < v.size) : v.at? i = .ok (v.get i) := by
  simp [Vec.at?, requireIndex, h]

theorem Vec.segment?_ok {v : Vec K} {s l : ℕ} (h : s + l ≤ v.size) :
    v.segment? s l = .ok ⟨l, fun i => v.get (s + i)⟩ := by
  simp [Vec.segment?, requireIndex, h]

theorem Vec.setSegment?_ok {v w : Vec K} {s l : ℕ} (h : s + l ≤ v.size) (hw : w.size = l) :
    v.setSegment? s l w = .ok ⟨v.size, fun i =>
      if s ≤ i ∧ i < s + l then w.get (i - s) else v.get i⟩ := by
  simp [Vec.setSegment?, requireIndex, requireSize, h, hw]

theorem Vec.set?_ok {v : Vec K} {i : ℕ} {x : K} (h : i < v.size) :
    v.set? i x = .ok ⟨v.size, fun k => if k = i then x else v.get k⟩ := by
  simp [Vec.set?, requireIndex, h]

theorem Mat.setBlock?_ok {A B : Mat K} {r c h w : ℕ} (hr : r + h ≤ A.rows) (hc : c + w ≤ A.cols)
    (hB : B.rows = h) (hB' : B.cols = w) :
    A.setBlock? r c h w B = .ok ⟨A.rows, A.cols, fun i j =>
      if (r ≤ i ∧ i < r + h) ∧ (c ≤ j ∧ j < c + w) then B.get (i - r) (j - c) else A.get i j⟩ := by
  simp [Mat.setBlock?, requireIndex, requireSize, hr, hc, hB, hB']

theorem Mat.block?_ok {A : Mat K} {r c h w : ℕ} (hr : r + h ≤ A.rows) (hc : c + w ≤ A.cols) :
    A.block? r c h w = .ok ⟨h, w, fun i j => A.get (r + i) (c + j)⟩ := by
  simp [Mat.block?, requireIndex, hr, hc]

section
variable [Field K]

theorem Vec.add?_ok {v w : Vec K} (h : v.size = w.size) :
    v.add? w = .ok ⟨v.size, fun i => v.get i + w.get i⟩ := by
  simp [Vec.add?, requireSize, h]

theorem Vec.sub?_ok {v w : Vec K} (h : v.size = w.size) :
    v.sub? w = .ok ⟨v.size, fun i => v.get i - w.get i⟩ := by
  simp [Vec.sub?, requireSize, h]

theorem Mat.mulVec?_ok {A : Mat K} {x : Vec K} (h : A.cols = x.size) :
    A.mulVec? x = .ok ⟨A.rows, fun i => ∑ k ∈ Finset.range A.cols, A.get i k * x.get k⟩ := by
  simp [Mat.mulVec?, requireSize, h]

theorem Mat.mul?_ok {A B : Mat K} (h : A.cols = B.rows) :
    A.mul? B = .ok ⟨A.rows, B.cols, fun i j =>
      ∑ k ∈ Finset.range A.cols, A.get i k * B.get k j⟩ := by
  simp [Mat.mul?, requireSize, h]

theorem Mat.add?_ok {A B : Mat K} (h : A.rows = B.rows) (h' : A.cols = B.cols) :
    A.add? B = .ok ⟨A.rows, A.cols, fun i j => A.get i j + B.get i j⟩ := by
  simp [Mat.add?, requireSize, h, h']

theorem Mat.sub?_ok {A B : Mat K} (h : A.rows = B.rows) (h' : A.cols = B.cols) :
    A.sub? B = .ok ⟨A.rows, A.cols, fun i j => A.get i j - B.get i j⟩ := by
  simp [Mat.sub?, requireSize, h, h']

end

/-- A bare vector of positions, velocity and acceleration: `VectorX` of size 3 used as a state
(`state(0)`, `state(1)`, `state(2)`); every setter of the code asserts `size()==3`. -/
structure State3 (K : Type) where
  p : K
  v : K
  a : K
  deriving DecidableEq, Repr

/-- The state as an Eigen vector. -/
def State3.toVec (s : State3 K) : Vec K := ⟨3, fun i => if i = 0 then s.p else if i = 1 then s.v else s.a⟩

section Const
variable [Field K]

/-- `Constant<Scalar>::EPSILON`, `/repo/mpc-walkgen/constant.h:27-28`. -/
def EPS : K := 1 / 10000

/-- `Constant<Scalar>::GRAVITY_NORM`, `/repo/mpc-walkgen/constant.h:30-31`. -/
def GRAVITY_NORM : K := 981 / 100

/-- `Constant<Scalar>::MAXIMUM_BOUND_VALUE` = `10e10`, `/repo/mpc-walkgen/constant.h:37-38`. -/
def MAXBOUND : K := 100000000000

end Const

section ConstLemmas
variable [Field K] [LinearOrder K] [IsStrictOrderedRing K]

theorem EPS_pos : (0 : K) < EPS := by unfold EPS; positivity
theorem EPS_lt_one : (EPS : K) < 1 := by unfold EPS; norm_num
theorem MAXBOUND_pos : (0 : K) < MAXBOUND := by unfold MAXBOUND; positivity

end ConstLemmas

end MPC
