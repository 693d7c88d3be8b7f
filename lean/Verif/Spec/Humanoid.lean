import Verif.Model.Humanoid
import Verif.Spec.Polygon
import Verif.Spec.QP
import Verif.Spec.Motion

/-! # Vocabulary for the humanoid generator -/

namespace MPC

open Finset

variable {K : Type} [Field K] [LinearOrder K]

/-- The QP `qp` is the one that `solve` hands over to a solver that accepts its dimensions
(`/repo/src/humanoid_walkgen.cpp:433`), the generator being in the state `w'` at that time: timeline
updated, plan `w'.X` not yet changed by the solver. -/
def HumGives [FloorRing K] (hull : Vec (Pt K) → Res (Polygon K)) (w : HWalkgen K) (fb : K)
    (w' : HWalkgen K) (qp : QPMatrices K) : Prop :=
  ∃ idx nbVar nbCtr, w.prepare hull fb = .ok (w', idx, qp) ∧ qp.DimensionsAreConsistent nbVar nbCtr

/-- The generator `w` is obtained from a new one by the calls `cs`, with the QP solver `o`. -/
def HumReaches [FloorRing K] (hull : Vec (Pt K) → Res (Polygon K)) (o : Oracle K) (cs : List (HCall K))
    (w : HWalkgen K) : Prop :=
  ∃ w₀, HWalkgen.make = .ok w₀ ∧ w₀.run hull o cs = .ok w

/-- The generator `w` is obtained from a new one by public calls, whatever the answers of the QP solver; the table of the
solver objects may be replaced at any time. All the generators of `HumReaches` are among them. The others are those of a
library that fills this table in another way: with the table of the library no `solve` succeeds once the number of
samples was set to two or more (`C42_violated_samples`). -/
inductive HumHistory [FloorRing K] (hull : Vec (Pt K) → Res (Polygon K)) : HWalkgen K → Prop
  | make {w : HWalkgen K} : HWalkgen.make = .ok w → HumHistory hull w
  | call {w w' : HWalkgen K} {o : Oracle K} {c : HCall K} {b : Bool} : HumHistory hull w →
      w.step hull o c = .ok (b, w') → HumHistory hull w'
  | solvers {w : HWalkgen K} (S : List (SolverState K)) : HumHistory hull w → HumHistory hull { w with solvers := S }

namespace Spec

/-- Positions `l`, `r` of the left and right foot, and origin `t` of the support frame, in the
previewed double supports (`/repo/src/humanoid_feet_supervisor.cpp:779-813`): standing still, the
feet are where they are and the origin is midway; at the end of a walk, the flying foot is on the first
planned footstep, which is the origin; otherwise the left foot is the origin. -/
def DoubleSupport (s : Sup K) (l r t : Pt K) : Prop :=
  ∃ f, s.timeline[0]? = some f ∧
    (s.move = true → l = ⟨s.left.x.state.p, s.left.y.state.p⟩ ∧
      r = ⟨s.right.x.state.p, s.right.y.state.p⟩ ∧ t = l) ∧
    (s.move = false → f.type = .DS → l = ⟨s.left.x.state.p, s.left.y.state.p⟩ ∧
      r = ⟨s.right.x.state.p, s.right.y.state.p⟩ ∧ t = ⟨(l.x + r.x) / 2, (l.y + r.y) / 2⟩) ∧
    (s.move = false → f.type = .leftSS → l = ⟨s.left.x.state.p, s.left.y.state.p⟩ ∧
      r = ⟨s.stepVec.get 0, s.stepVec.get s.M⟩ ∧ t = r) ∧
    (s.move = false → f.type = .rightSS → r = ⟨s.right.x.state.p, s.right.y.state.p⟩ ∧
      l = ⟨s.stepVec.get 0, s.stepVec.get s.M⟩ ∧ t = l)

/-- The vertices of the CoP polygons of both feet, the feet being at `l` and `r`, in the frame with
origin `t`. -/
def IsUnion (s : Sup K) (l r t : Pt K) (p : Vec (Pt K)) : Prop :=
  p.size = s.left.cop.vertices.size + s.right.cop.vertices.size ∧
  (∀ i < s.left.cop.vertices.size,
    p.get i = ⟨(s.left.cop.vertices.get i).x + l.x - t.x, (s.left.cop.vertices.get i).y + l.y - t.y⟩) ∧
  ∀ i < s.right.cop.vertices.size, p.get (s.left.cop.vertices.size + i)
    = ⟨(s.right.cop.vertices.get i).x + r.x - t.x, (s.right.cop.vertices.get i).y + r.y - t.y⟩

/-- `g` is the support polygon of the phase of the sample `i`, in the frame of the support foot: the
polygon of the supporting foot, or in double support the polygon built from both feet. -/
def SupportPolygon (hull : Vec (Pt K) → Res (Polygon K)) (s : Sup K) (i : ℕ) (g : Polygon K) : Prop :=
  ∃ ph, s.timeline[s.phaseIdx.get i]? = some ph ∧
    (ph.type = .leftSS → g = s.left.cop) ∧ (ph.type = .rightSS → g = s.right.cop) ∧
    (ph.type = .DS → ∃ l r t p, DoubleSupport s l r t ∧ IsUnion s l r t p ∧ hull p = .ok g)

/-- `g` is the kinematic polygon of the footstep `i`: that of the foot which supports the robot before
the footstep. A walk starts on the left foot, after the double support. -/
def StepPolygon (s : Sup K) (i : ℕ) (g : Polygon K) : Prop :=
  ∃ f ph, s.timeline[0]? = some f ∧
    s.timeline[if f.type = .DS ∧ s.move = true then i + 1 else i]? = some ph ∧
    (ph.type = .leftSS ∧ g = s.left.kin ∨ ph.type = .rightSS ∧ g = s.right.kin)

/-- `p` is the position of the support foot: at the start of a walk or in a left support it is the left
foot, in a right support it is the right foot; standing still it is midway. -/
def SupportAt (s : Sup K) (p : Pt K) : Prop :=
  ∃ f, s.timeline[0]? = some f ∧
    (f.type = .rightSS → p = ⟨s.right.x.state.p, s.right.y.state.p⟩) ∧
    (f.type = .leftSS → p = ⟨s.left.x.state.p, s.left.y.state.p⟩) ∧
    (f.type = .DS → s.move = true → p = ⟨s.left.x.state.p, s.left.y.state.p⟩) ∧
    (f.type = .DS → s.move = false → p = ⟨(s.right.x.state.p + s.left.x.state.p) / 2,
      (s.right.y.state.p + s.left.y.state.p) / 2⟩)

/-- Local CoP of the sample `i` in the decision vector `X` (`N` samples). -/
def localCop (N : ℕ) (X : ℕ → K) (i : ℕ) : Pt K := ⟨X i, X (N + i)⟩

/-- Footstep `i` in the decision vector `X` (`N` samples, `M` footsteps). -/
def footstep (N M : ℕ) (X : ℕ → K) (i : ℕ) : Pt K := ⟨X (2 * N + i), X (2 * N + M + i)⟩

/-- The position from which the footstep `i` is made: the support foot `p`, or the previous
footstep. -/
def previous (N M : ℕ) (p : Pt K) (X : ℕ → K) : ℕ → Pt K
  | 0 => p
  | i + 1 => footstep N M X i

/-- `a` seen from `b`. -/
def seenFrom (a b : Pt K) : Pt K := ⟨a.x - b.x, a.y - b.y⟩

/-- The rows of the polygon `g` do not take at `X` values larger than the number used as infinity. -/
def RowsFinite (g : Polygon K) (X : Pt K) : Prop :=
  ∀ r < g.nbGeneral, |g.coefX.get r * X.x + g.coefY.get r * X.y| ≤ MAXBOUND

/-- Cost of the decision vector `X` whose jerks are `J` (along `x` then along `y`, `N` each), the CoM
being in the states `x` and `y`, the first sample after `S` and the next ones every `T`. `wt` are the
weights of the samples, `ref` the reference velocities (along `x` then along `y`). Weightings that are
not positive do not count. -/
def humCost (wg : HWeighting K) (N : ℕ) (S T : K) (x y : State3 K) (ref wt X J : ℕ → K) : K :=
  max wg.velocityTracking 0 / 2 * ∑ i ∈ range N, wt i *
    (((jerkTrajectory S T x J i).v - ref i) ^ 2
      + ((jerkTrajectory S T y (fun k => J (N + k)) i).v - ref (N + i)) ^ 2)
  + max wg.jerkMinimization 0 / 2 * ∑ i ∈ range N, wt i * (J i ^ 2 + J (N + i) ^ 2)
  + max wg.copCentering 0 / 2 * ∑ i ∈ range (2 * N), X i ^ 2

end Spec

end MPC
