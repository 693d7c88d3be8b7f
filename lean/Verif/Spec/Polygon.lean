import Verif.Model.Polygon

/-! # Meaning of a polygon, `/repo/mpc-walkgen/convexpolygon.h:99-116` -/

namespace MPC.Spec

variable {K : Type} [Field K] [LinearOrder K]

/-- `X` is on the inner (left) side of the edge from `a` to `b`, formula of line 105. -/
def InnerSide (a b X : Pt K) : Prop :=
  (b.y - a.y) * (X.x - a.x) - (b.x - a.x) * (X.y - a.y) ≤ 0

/-- `X` is inside the polygon with vertices `p 0, …, p (n-1)` in counterclockwise order. -/
def InPolygon (p : Vec (Pt K)) (X : Pt K) : Prop :=
  ∀ i < p.size, InnerSide (p.get i) (p.get ((i + 1) % p.size)) X

/-- The vertices are those of a convex polygon listed counterclockwise: each lies inside. -/
def Convex (p : Vec (Pt K)) : Prop := ∀ j < p.size, InPolygon p (p.get j)

/-- Solution of the bounds and of `A X + b ≤ 0`, lines 100-115. -/
def SatisfiesConstraints (g : Polygon K) (X : Pt K) : Prop :=
  g.xInf ≤ X.x ∧ X.x ≤ g.xSup ∧ g.yInf ≤ X.y ∧ X.y ≤ g.ySup ∧
    ∀ r < g.nbGeneral, g.coefX.get r * X.x + g.coefY.get r * X.y + g.const.get r ≤ 0

/-- The edge from `a` to `b` is not degenerate: exactly vertical, exactly horizontal and longer than
`EPS`, or at least `EPS` away from both. -/
def CleanEdge (a b : Pt K) : Prop :=
  (b.x = a.x ∧ b.y ≠ a.y) ∨ (EPS ≤ |b.x - a.x| ∧ b.y = a.y) ∨
    (EPS ≤ |b.x - a.x| ∧ EPS ≤ |b.y - a.y|)

/-- All edges are clean. -/
def CleanEdges (p : Vec (Pt K)) : Prop :=
  ∀ i < p.size, CleanEdge (p.get i) (p.get ((i + 1) % p.size))

end MPC.Spec
