import Verif.Spec.HumSafe
import Verif.Spec.Recede

/-! # A humanoid generator placed elsewhere -/

namespace MPC

open Finset

variable {K : Type} [Field K] [LinearOrder K]

/-- The same entries. -/
structure QPMatrices.Same (q q' : QPMatrices K) : Prop where
  Q : q.Q.Same q'.Q
  p : q.p.Same q'.p
  xl : q.xl.Same q'.xl
  xu : q.xu.Same q'.xu
  A : q.A.Same q'.A
  bu : q.bu.Same q'.bu
  bl : q.bl.Same q'.bl

/-- The solver reads nothing but the entries of the QP. -/
def Oracle.Reads (o : Oracle K) : Prop := ∀ k q q' n, QPMatrices.Same q q' → o k q n = o k q' n

namespace Spec

variable (a b : K)

/-- The foot `f'` is the foot `f` moved by `(a, b)`: same height, same polygons (they are relative to the foot). The
scratch vectors of the interpolation have their 12 entries. -/
structure FootMoved (f f' : Foot K) : Prop where
  x : f'.x.state = State3.shift f.x.state a
  y : f'.y.state = State3.shift f.y.state b
  z : f'.z = f.z
  fx : f.x.factor.size = 12 ∧ f'.x.factor.size = 12
  fy : f.y.factor.size = 12 ∧ f'.y.factor.size = 12
  maxHeight : f'.maxHeight = f.maxHeight
  kin : f'.kin = f.kin
  cop : f'.cop = f.cop

/-- The supervisor `s'` is `s` with the feet moved: same phases, periods, matrices. The member `stepVec` (written by
`updateTimeline` before it is read) may differ. -/
structure SupMoved (s s' : Sup K) : Prop where
  rest : s' = { s with left := s'.left, right := s'.right, stepVec := s'.stepVec }
  left : FootMoved a b s.left s'.left
  right : FootMoved a b s.right s'.right

/-- By how much entry `i` of a decision vector of size `n` moves, `N` being the number of samples: the local CoP do
not, the `x` and `y` coordinates of the footsteps do. -/
def planShift (N n i : ℕ) : K := if i < 2 * N then 0 else if i < N + n / 2 then a else b

/-- The decision vector `X'` is `X` with the footsteps moved. -/
structure PlanMoved (N : ℕ) (X X' : Vec K) : Prop where
  size : X'.size = X.size
  get : ∀ i < X.size, X'.get i = X.get i + planShift a b N X.size i

/-- The generator `w'` is `w` moved by `(a, b)`: CoM, feet and planned footsteps. The sizes of the stored matrices
are the same (their values are overwritten by `solve` before they are read). -/
structure HumMoved (w w' : HWalkgen K) : Prop where
  sup : SupMoved a b w.sup w'.sup
  lip : w'.lip = { w.lip with x := State3.shift w.lip.x a, y := State3.shift w.lip.y b }
  plan : PlanMoved a b w.sup.N w.X w'.X
  even : ∃ m, w.X.size = 2 * w.sup.N + 2 * m
  velRef : w'.velRef = w.velRef
  boundSize : w'.boundSize = w.boundSize
  weighting : w'.weighting = w.weighting
  withCop : w'.withCop = w.withCop
  withFeet : w'.withFeet = w.withFeet
  maxCtr : w'.maxCtr = w.maxCtr
  first : w'.first = w.first
  calls : w'.calls = w.calls
  dX : w'.dX = w.dX
  solvers : w'.solvers.map (fun s => (s.nbVar, s.nbCtr)) = w.solvers.map fun s => (s.nbVar, s.nbCtr)
  qps : w'.qps.map QPMatrices.reset = w.qps.map QPMatrices.reset

/-- If the phase that runs next is a single support, the decision vector `X` contains the footstep that ends it. -/
def StepPlanned (s : Sup K) (X : Vec K) : Prop :=
  ∀ f R, Running s f R → f.type ≠ .DS → 2 * s.N + 2 ≤ X.size ∧ (EndsStep s → 2 * s.N + 4 ≤ X.size)

/-- Every sample is supported by exactly one foot or footstep: the rows of the selection matrices sum to one. -/
def Covered (s : Sup K) : Prop := ∀ i < s.N, s.V0.get i 0 + ∑ c ∈ range s.M, s.V.get i c = 1

/-- The first entry of a vector, the position of a state, is moved by `d`. -/
def moveFirst (v : Vec K) (d : K) : Vec K := ⟨v.size, fun i => if i = 0 then v.get 0 + d else v.get i⟩

end Spec

/-- The same call for a generator that is moved by `(a, b)`: only the positions given by the user change. -/
def HCall.moved (a b : K) : HCall K → HCall K
  | .setFootState left .x v => .setFootState left .x (Spec.moveFirst v a)
  | .setFootState left .y v => .setFootState left .y (Spec.moveFirst v b)
  | .setComState .x v => .setComState .x (Spec.moveFirst v a)
  | .setComState .y v => .setComState .y (Spec.moveFirst v b)
  | c => c

/-- A sequence of calls with the values that they return. -/
noncomputable def HWalkgen.answers [FloorRing K] (hull : Vec (Pt K) → Res (Polygon K)) (o : Oracle K) :
    HWalkgen K → List (HCall K) → Res (List Bool × HWalkgen K)
  | w, [] => .ok ([], w)
  | w, c :: cs => do
    let (f, w') ← w.step hull o c
    let (fs, w'') ← HWalkgen.answers hull o w' cs
    pure (f :: fs, w'')

/-- Each call of `cs`, made one after the other from `w`, is a call of a configured generator (`HCall.Running`), with
the feedback period `fb`. -/
def RunningCalls [FloorRing K] (hull : Vec (Pt K) → Res (Polygon K)) (o : Oracle K) (fb : K) :
    HWalkgen K → List (HCall K) → Prop
  | _, [] => True
  | w, c :: cs => c.Running (· = fb) CanStop w.sup ∧ ∀ f w', w.step hull o c = .ok (f, w') → RunningCalls hull o fb w' cs

end MPC
