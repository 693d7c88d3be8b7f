import Verif.Model.Humanoid
/-!
# The reference returned by `getSupportFootStateX`

While the robot stands, `getSupportFootStateX` and `getSupportFootStateY` write the middle of the feet to the same member
`middleState_` and return a reference to it, `/repo/src/humanoid_feet_supervisor.cpp:417-446`. In
`a*getSupportFootStateX()(0) + b*getSupportFootStateY()(0)`, `/repo/src/function/humanoid_foot_constraint.cpp:156-160`, C++ does
not say whether the first reference is read before or after the second call.
-/
namespace MPC
variable {K : Type} [Field K] [LinearOrder K]

/-- What is read through the reference returned by `getSupportFootStateX` after a call of `getSupportFootStateY`. -/
def Sup.supportXLate (s : Sup K) : Res (State3 K) := do
  let f ← listAt s.timeline 0
  if f.type = .rightSS then pure s.right.x.state
  else do
    let ds ← s.isInDS
    if ds ∧ s.move = false then s.supportY else pure s.left.x.state

/-- `footConstraint` when the compiler reads the first reference before (`late = false`) or after the second call. The bounds
are computed by statements with one call each, `/repo/src/function/humanoid_foot_constraint.cpp:197-203`. -/
def footConstraintOrder (late : Bool) (l : Lip K) (s : Sup K) (x0 : Vec K) : Res (ConstraintAt K) := do
  require (s.N = l.N)
  require (x0.size = 2 * l.N + 2 * s.M)
  let ps ← s.kinPolygons
  let sx := (← s.supportX).p
  let sy := (← s.supportY).p
  let rx := (← if late then s.supportXLate else s.supportX).p
  let r ← generalRows (footStep s.N s.M rx sy) ps x0.size
  let f ← (← r.A.mulVec? x0).add? r.b
  let (inf, sup) ← footBounds s.M ps sx sy (← x0.segment? (2 * l.N) (2 * s.M))
  pure ⟨r.A, f, inf, sup⟩

end MPC
