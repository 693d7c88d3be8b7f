import Verif.Model.Polygon
import Mathlib.Analysis.SpecialFunctions.Trigonometric.Inverse

/-!
# `ConvexPolygon`: extraction of the vertices (`/repo/src/convexpolygon.cpp:47-224`)

Over `ℝ` because of the norms and of `acos`. The precision of `isZero()` is Eigen's
`dummy_precision` of the scalar type, here a parameter `δ`.
-/

namespace MPC

namespace Pt

variable {K : Type} [Field K]

/-- `a - b`. -/
def sub (a b : Pt K) : Pt K := ⟨a.x - b.x, a.y - b.y⟩
/-- `-a`. -/
def neg (a : Pt K) : Pt K := ⟨-a.x, -a.y⟩
/-- `a.dot(b)`. -/
def dot (a b : Pt K) : K := a.x * b.x + a.y * b.y
/-- `a(0)*b(1) - a(1)*b(0)`. -/
def cross (a b : Pt K) : K := a.x * b.y - a.y * b.x
/-- `a.squaredNorm()`. -/
def normSq (a : Pt K) : K := a.x * a.x + a.y * a.y

end Pt

/-- `a.norm()`. -/
noncomputable def Pt.norm (a : Pt ℝ) : ℝ := Real.sqrt a.normSq

/-- Eigen's `a.isZero()`: all coefficients at most the default precision `δ`. -/
def Pt.isZero (δ : ℝ) (a : Pt ℝ) : Prop := |a.x| ≤ δ ∧ |a.y| ≤ δ

/-- Eigen's `a.isApprox(b, EPSILON)`: the comparison is relative to the norms of `a` and `b`. -/
def Pt.isApprox (a b : Pt ℝ) : Prop :=
  (a.sub b).normSq ≤ EPS * EPS * min a.normSq b.normSq

open Classical in
/-- `angleBetweenVecs`, `/repo/src/convexpolygon.cpp:87-113`. The division is by a product of norms
of vectors that are not zero (first branch). -/
noncomputable def angleBetweenVecs (δ : ℝ) (v1 v2 : Pt ℝ) : ℝ :=
  if v1.isZero δ ∨ v2.isZero δ ∨ v1.isApprox v2 then 0
  else if v1.isApprox v2.neg then Real.pi
  else
    let angle := v1.dot v2 / (v1.norm * v2.norm)
    if 0 ≤ v1.cross v2 then Real.arccos angle else -Real.arccos angle

/-- `tab[0]` of a `std::vector<int>`. -/
def first? : List ℕ → Res ℕ
  | [] => .error .outOfRange
  | a :: _ => .ok a

/-- First loop of `getIndexOfLowestAndLeftmostVertice` after `i = 1, …, k`,
`/repo/src/convexpolygon.cpp:119-136`. -/
noncomputable def lowestLoop (p : Vec (Pt ℝ)) : ℕ → Res (List ℕ)
  | 0 => pure [0]
  | k + 1 => do
    let tab ← lowestLoop p k
    let h ← first? tab
    let pi ← p.at? (k + 1)
    let ph ← p.at? h
    if pi.y < ph.y then pure [k + 1]
    else if |pi.y - ph.y| < EPS then pure (tab ++ [k + 1])
    else pure tab

/-- Second loop, `/repo/src/convexpolygon.cpp:143-149`, over the rest of the table. -/
noncomputable def leftmostLoop (p : Vec (Pt ℝ)) (index : ℕ) : List ℕ → Res ℕ
  | [] => pure index
  | j :: l => do
    let a ← p.at? j
    let b ← p.at? index
    leftmostLoop p (if a.x < b.x then j else index) l

/-- `getIndexOfLowestAndLeftmostVertice`, `/repo/src/convexpolygon.cpp:115-158`; for a table with
one element the loop does nothing, so the two branches of line 140 are the same. -/
noncomputable def lowestLeftmost (p : Vec (Pt ℝ)) : Res ℕ := do
  let tab ← lowestLoop p (p.size - 1)
  let h ← first? tab
  let index ← leftmostLoop p h tab.tail
  require (index < p.size)
  pure index

open Classical in
/-- Loop of `getIndexOfSmallestAngleVertice` after `i = 1, …, k`,
`/repo/src/convexpolygon.cpp:170-203`. -/
noncomputable def angleLoop (δ : ℝ) (p : Vec (Pt ℝ)) (cur : ℕ) (last : Pt ℝ) : ℕ → Res (List ℕ)
  | 0 => pure [if cur ≠ 0 then 0 else 1]
  | k + 1 => do
    let tab ← angleLoop δ p cur last k
    let pi ← p.at? (k + 1)
    let pc ← p.at? cur
    if ¬ pi.isApprox pc then
      let h ← first? tab
      let ph ← p.at? h
      let ai := angleBetweenVecs δ (pc.sub last) (pi.sub pc)
      let ah := angleBetweenVecs δ (pc.sub last) (ph.sub pc)
      if ai < ah then pure [k + 1]
      else if |ai - ah| < EPS then pure (tab ++ [k + 1])
      else pure tab
    else pure tab

/-- Choice of the furthest point, `/repo/src/convexpolygon.cpp:209-216`. -/
noncomputable def furthestLoop (p : Vec (Pt ℝ)) (cur : ℕ) (index : ℕ) : List ℕ → Res ℕ
  | [] => pure index
  | j :: l => do
    let a ← p.at? j
    let b ← p.at? index
    let c ← p.at? cur
    furthestLoop p cur (if (b.sub c).norm < (a.sub c).norm then j else index) l

/-- `getIndexOfSmallestAngleVertice`, `/repo/src/convexpolygon.cpp:161-224`. -/
noncomputable def smallestAngle (δ : ℝ) (p : Vec (Pt ℝ)) (cur : ℕ) (last : Pt ℝ) : Res ℕ := do
  let tab ← angleLoop δ p cur last (p.size - 1)
  let h ← first? tab
  furthestLoop p cur h tab.tail

/-- The `while` loop of `extractVertices`, `/repo/src/convexpolygon.cpp:74-81`. `out` are the
vertices pushed so far, `fuel` bounds the number of iterations. -/
noncomputable def marchLoop (δ : ℝ) (p : Vec (Pt ℝ)) : ℕ → List (Pt ℝ) → ℕ → Res (List (Pt ℝ))
  | 0, _, _ => .error .nonTermination
  | fuel + 1, out, index => do
    let s ← lowestLeftmost p
    if index = s then pure out
    else do
      require (out.length ≤ p.size)
      let pi ← p.at? index
      -- `*(p.end()-2)` after the push is the last element before the push
      let last ← (match out.getLast? with | none => .error .outOfRange | some a => .ok a : Res (Pt ℝ))
      let index ← smallestAngle δ p index last
      marchLoop δ p fuel (out ++ [pi]) index

/-- `extractVertices`, `/repo/src/convexpolygon.cpp:47-84`. The assertion of line 76 fails after
`size + 1` iterations, so `size + 2` is enough fuel. -/
noncomputable def extractVertices (δ : ℝ) (p : Vec (Pt ℝ)) : Res (List (Pt ℝ)) :=
  if p.size = 0 then pure []
  else do
    let index ← lowestLeftmost p
    let ps ← p.at? index
    let index ← smallestAngle δ p index ⟨ps.x - 1, ps.y⟩
    marchLoop δ p (p.size + 2) [ps] index

/-- `vectorOfVector2` from the list of pushed points. -/
def listVec (l : List (Pt ℝ)) : Vec (Pt ℝ) := ⟨l.length, fun i => l.getD i ⟨0, 0⟩⟩

/-- Constructor `ConvexPolygon(p)`, `/repo/src/convexpolygon.cpp:30-42`. -/
noncomputable def Polygon.ofPoints (δ : ℝ) (p : Vec (Pt ℝ)) : Res (Polygon ℝ) := do
  let l ← extractVertices δ p
  Polygon.ofVertices (listVec l)

end MPC
