import Verif.Model.Hull
import Verif.Spec.Polygon
import Mathlib.Analysis.Convex.Hull

/-! # Convex hull of a list of points -/

namespace MPC.Spec

/-- The inputs on which the tolerances of the code do no harm. Only exact repetitions are allowed,
not of the first point; relative to the tolerances all other coincidences are exact. -/
structure Separated (δ : ℝ) (p : Vec (Pt ℝ)) : Prop where
  δ_nonneg : 0 ≤ δ
  δ_lt_one : δ < 1
  /-- at least two points -/
  two : 2 ≤ p.size
  /-- the first point is not repeated -/
  first : ∀ j < p.size, p.get j = p.get 0 → j = 0
  /-- different points are not `isApprox` -/
  approx : ∀ i < p.size, ∀ j < p.size, p.get i ≠ p.get j → ¬ (p.get i).isApprox (p.get j)
  /-- different points have a difference that is not `isZero()` -/
  zero : ∀ i < p.size, ∀ j < p.size, p.get i ≠ p.get j → ¬ ((p.get i).sub (p.get j)).isZero δ
  /-- no point is a little above a lowest point -/
  low : ∀ i < p.size, (∀ j < p.size, (p.get i).y ≤ (p.get j).y) →
    ∀ j < p.size, (p.get j).y = (p.get i).y ∨ EPS < (p.get j).y - (p.get i).y
  /-- three points are aligned or make angles whose sine is above `EPS` -/
  angle : ∀ i < p.size, ∀ j < p.size, ∀ k < p.size,
    ((p.get j).sub (p.get i)).cross ((p.get k).sub (p.get i)) = 0 ∨
      EPS * (((p.get j).sub (p.get i)).norm * ((p.get k).sub (p.get i)).norm) <
        |((p.get j).sub (p.get i)).cross ((p.get k).sub (p.get i))|

/-- A point as an element of `ℝ × ℝ`. -/
def toProd (a : Pt ℝ) : ℝ × ℝ := (a.x, a.y)

/-- The convex hull of the points of a list. -/
def Hull (p : Vec (Pt ℝ)) : Set (ℝ × ℝ) :=
  convexHull ℝ {a | ∃ i < p.size, a = toProd (p.get i)}

end MPC.Spec
