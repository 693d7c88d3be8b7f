import Verif.Spec.Fall

/-! # A standing robot that returns above its feet after every small push -/

namespace MPC.Spec

variable {K : Type} [Field K] [LinearOrder K]

/-- Position, velocity and acceleration are at most `e`. -/
def ComWithin (e : K) (x : State3 K) : Prop := |x.p| ≤ e ∧ |x.v| ≤ e ∧ |x.a| ≤ e

variable [FloorRing K]

/-- The CoM is put into the state `x`, `y`, seen from the point midway between the feet. -/
def pushCalls (w : HWalkgen K) (x y : State3 K) : List (HCall K) :=
  [.setComState .x ⟨3, fun i => if i = 0 then (midFeet w.sup).x + x.p else if i = 1 then x.v else x.a⟩,
    .setComState .y ⟨3, fun i => if i = 0 then (midFeet w.sup).y + y.p else if i = 1 then y.v else y.a⟩]

/-- The CoM returns above the middle of the feet: after every push that is small enough it remains close to that point,
and comes to rest there. `solve` is called once per sampling period. -/
def Returns (hull : Vec (Pt K) → Res (Polygon K)) (o : Oracle K) (w : HWalkgen K) : Prop :=
  ∀ e > 0, ∃ d > 0, ∀ x y, ComWithin d x → ComWithin d y →
    (∀ n, ∃ w2, w.run hull o (pushCalls w x y ++ standCalls w n) = .ok w2 ∧ ComWithin e (comX w2) ∧ ComWithin e (comY w2)) ∧
    ∀ r > 0, ∃ n₀, ∀ n w2, n₀ ≤ n → w.run hull o (pushCalls w x y ++ standCalls w n) = .ok w2 →
      ComWithin r (comX w2) ∧ ComWithin r (comY w2)

/-- The weights are balanced for a horizon of one sample: the sampling period `T` is long enough for the height of the CoM (`l` is
the height divided by the gravity), and the velocity and the jerk have enough weight compared with the centring of the CoP.
`U` is what a unit of jerk adds to the CoP. -/
def StandBalanced (T l : K) (wg : HWeighting K) : Prop :=
  let U := copStep T l
  let A := wg.velocityTracking / 20 * (T ^ 4 / 4)
  let C := wg.jerkMinimization / 20
  0 < U ∧ wg.copCentering * U * (T ^ 3 - 4 * U) < 8 * C ∧
    wg.copCentering * U * C * T ^ 3 < 2 * A * (wg.copCentering * U ^ 2 + A)

/-- If the CoP is constrained, it has room around the middle of the feet: the points up to `r` away along each axis satisfy the
constraint. The coefficients of its rows, and the previous solution, are not huge. -/
structure CopRoom (hull : Vec (Pt K) → Res (Polygon K)) (w : HWalkgen K) (r c : K) : Prop where
  radius : 0 < r
  size : 1 ≤ c
  inside : w.withCop = true → ∀ q g, IsUnion w.sup ⟨w.sup.left.x.state.p, w.sup.left.y.state.p⟩
      ⟨w.sup.right.x.state.p, w.sup.right.y.state.p⟩ (midFeet w.sup) q → hull q = .ok g →
      ∀ p : Pt K, |p.x| ≤ r → |p.y| ≤ r → SatisfiesConstraints g p
  rows : w.withCop = true → ∀ q g, IsUnion w.sup ⟨w.sup.left.x.state.p, w.sup.left.y.state.p⟩
      ⟨w.sup.right.x.state.p, w.sup.right.y.state.p⟩ (midFeet w.sup) q → hull q = .ok g →
      ∀ k < g.nbGeneral, |g.coefX.get k| + |g.coefY.get k| ≤ c
  previous : c * |w.X.get 0| ≤ MAXBOUND / 2 ∧ c * |w.X.get 1| ≤ MAXBOUND / 2

/-- A robot that stands with a horizon of one sample. If the CoP is constrained, it has room around the middle of the feet. The centring of the CoP and the jerk have
weights, no velocity is asked for, and qpOASES finds a solution whenever there is one. The sampling period is not tiny or huge,
such that nothing is lost by erasing small numbers. -/
structure StandsOne (hull : Vec (Pt K) → Res (Polygon K)) (o : Oracle K) (w : HWalkgen K) : Prop where
  stands : Stands hull w
  samples : w.lip.N = 1
  period : 20 * EPS ≤ w.lip.T ∧ w.lip.T ≤ 10
  height : |w.lip.comHeight| ≤ 1000
  centring : 0 < w.weighting.copCentering
  velocity : 0 ≤ w.weighting.velocityTracking
  jerk : 0 < w.weighting.jerkMinimization
  reference : ∀ i < 2, w.velRef.get i = 0
  solver : ∀ n qp it, w.calls ≤ n → (∃ d, IsSolution qp d) → IsSolution qp (o n qp it).2
  room : ∃ r c, CopRoom hull w r c

end MPC.Spec
