import Verif.Eigen

/-!
# `ConvexPolygon`: constraints of a polygon (`/repo/src/convexpolygon.cpp:226-278`)

The extraction of the vertices from a list of points is in `Verif.Model.Hull`.
-/

namespace MPC

/-- `Vector2`. -/
structure Pt (K : Type) where
  x : K
  y : K
  deriving DecidableEq, Repr

variable {K : Type} [Field K] [LinearOrder K]

/-- `ConvexPolygon`, `/repo/mpc-walkgen/convexpolygon.h:95-125`. `vectorOfVector2` is a `Vec (Pt K)`. -/
structure Polygon (K : Type) where
  vertices : Vec (Pt K)
  xSup : K
  xInf : K
  ySup : K
  yInf : K
  coefX : Vec K
  coefY : Vec K
  const : Vec K

/-- State of the members before `computeBoundsAndGeneralConstraintValues`,
`/repo/src/convexpolygon.cpp:17-25` and `31-39`. -/
def Polygon.start (p : Vec (Pt K)) : Polygon K :=
  ⟨p, MAXBOUND, -MAXBOUND, MAXBOUND, -MAXBOUND, ⟨0, fun _ => 0⟩, ⟨0, fun _ => 0⟩, ⟨0, fun _ => 0⟩⟩

/-- `v.conservativeResize(n)`; the new entries are unspecified, they are assigned right after. -/
def Vec.conservativeResize (v : Vec K) (n : ℕ) : Vec K := ⟨n, v.get⟩

/-- Body of the loop for the edge from `a` to `b`, `/repo/src/convexpolygon.cpp:238-276`. -/
def Polygon.edge (g : Polygon K) (a b : Pt K) : Res (Polygon K) :=
  let ex := b.x - a.x
  let ey := b.y - a.y
  if |ex| < EPS then
    if ey < 0 then pure { g with xInf := a.x } else pure { g with xSup := a.x }
  else if |ey| < EPS then
    if ex < 0 then pure { g with ySup := a.y } else pure { g with yInf := a.y }
  else do
    let n := g.coefX.size
    let cx ← (g.coefX.conservativeResize (n + 1)).set? n (b.y - a.y)
    let cy ← (g.coefY.conservativeResize (n + 1)).set? n (a.x - b.x)
    let cc ← (g.const.conservativeResize (n + 1)).set? n
      ((b.x - a.x) * a.y - (b.y - a.y) * a.x)
    pure { g with coefX := cx, coefY := cy, const := cc }

/-- The loop after its first `k` iterations. -/
def Polygon.edges (g : Polygon K) : ℕ → Res (Polygon K)
  | 0 => pure g
  | k + 1 => do
    let g ← Polygon.edges g k
    let a ← g.vertices.at? k
    let b ← g.vertices.at? ((k + 1) % g.vertices.size)
    g.edge a b

/-- `computeBoundsAndGeneralConstraintValues`, `/repo/src/convexpolygon.cpp:226-278`, on the given
vertices. -/
def Polygon.ofVertices (p : Vec (Pt K)) : Res (Polygon K) :=
  Polygon.edges (Polygon.start p) p.size

/-- `getNbGeneralConstraints`, `/repo/mpc-walkgen/convexpolygon.h:62-63`. -/
def Polygon.nbGeneral (g : Polygon K) : ℕ := g.const.size

end MPC
