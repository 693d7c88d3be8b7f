import Verif.Spec.Humanoid
import Verif.Spec.Supervisor
import Verif.Spec.Matrix

/-! # The CoP of the robot and its support -/

namespace MPC

variable {K : Type} [Field K] [LinearOrder K]

/-- Position of a foot on the ground. -/
def Foot.pos (f : Foot K) : Pt K := ⟨f.x.state.p, f.y.state.p⟩

/-- CoP of the robot (linear inverted pendulum at the height of the CoM, gravity downwards). -/
def HWalkgen.robotCop (w : HWalkgen K) : Pt K :=
  ⟨Spec.copOf 1 w.lip.comHeight 0 GRAVITY_NORM w.lip.x, Spec.copOf 1 w.lip.comHeight 0 GRAVITY_NORM w.lip.y⟩

/-- The point `z` is supported by the feet of `s` during a phase of type `t`: it is in the polygon of the support foot,
placed where this foot is, or in the hull of the polygons of both feet, placed where the feet are. -/
def Spec.Supported (hull : Vec (Pt K) → Res (Polygon K)) (s : Sup K) (t : PhaseType) (z : Pt K) : Prop :=
  match t with
  | .leftSS => Spec.SatisfiesConstraints s.left.cop (Spec.seenFrom z s.left.pos)
  | .rightSS => Spec.SatisfiesConstraints s.right.cop (Spec.seenFrom z s.right.pos)
  | .DS => ∃ t p g, Spec.IsUnion s s.left.pos s.right.pos t p ∧ hull p = .ok g ∧
      Spec.SatisfiesConstraints g (Spec.seenFrom z t)

/-- No coefficient of the inverse of the CoP dynamics that `solve` uses was erased for being smaller than `EPSILON`, the
next sample being `n` feedback periods ahead. -/
def HWalkgen.ExactInverse (w : HWalkgen K) (n : ℤ) : Prop :=
  ∀ d B, computeCopDynamic ((n : K) * w.lip.fb) w.lip.T w.lip.N w.lip.comHeight 0 GRAVITY_NORM 1 1 = .ok d →
    d.Uinv = some B → Spec.IsInverse w.lip.N d.U B

/-- A convex set of points. -/
def Spec.ConvexSet (C : Pt K → Prop) : Prop :=
  ∀ (u v : Pt K) (a b : K), C u → C v → 0 ≤ a → 0 ≤ b → a + b = 1 → C ⟨a * u.x + b * v.x, a * u.y + b * v.y⟩

/-- The point `z` is at most `d` away from the set `C`, along each axis. -/
def Spec.Near (C : Pt K → Prop) (d : K) (z : Pt K) : Prop := ∃ c, C c ∧ |z.x - c.x| ≤ d ∧ |z.y - c.y| ≤ d

/-- A call of `solve` with the period `fb`, from `w` to `w2`, the next sample being `n` periods ahead: the QP solver gives
a feasible plan and no coefficient of the inverse of the CoP dynamics was erased. The support polygon of the next sample,
placed where the plan has its support, is part of the set `C`, and the acceleration of the CoM does not exceed `A`, now
and in the plan at the next sample. -/
def CopCycle [FloorRing K] (hull : Vec (Pt K) → Res (Polygon K)) (o : Oracle K) (C : Pt K → Prop) (A fb : K) (n : ℕ)
    (w w2 : HWalkgen K) : Prop :=
  ∃ w' qp b q, HumHistory hull w ∧ HumGives hull w fb w' qp ∧ w'.withCop = true ∧
    w.solve hull o fb = .ok (b, w2) ∧ Spec.Feasible qp (o w'.calls qp 10000).2 ∧
    w'.sup.nbCalls = .ok (n : ℤ) ∧ w'.lip.fb = fb ∧ w'.ExactInverse (n : ℤ) ∧ RowIsUnit w'.sup 0 q ∧
    (∀ p g z, Spec.SupportAt w'.sup p → Spec.SupportPolygon hull w'.sup 0 g → Spec.SatisfiesConstraints g z →
      C ⟨z.x + (Spec.previous w'.lip.N w'.sup.M p w2.X.get q).x,
        z.y + (Spec.previous w'.lip.N w'.sup.M p w2.X.get q).y⟩) ∧
    |w.lip.x.a| ≤ A ∧ |w.lip.y.a| ≤ A ∧
    |(Spec.cubic w.lip.x (w2.transformedX.get 0) (n * fb)).a| ≤ A ∧
    |(Spec.cubic w.lip.y (w2.transformedX.get w.lip.N) (n * fb)).a| ≤ A

/-- `k` such calls in a row from `w₀` to `w`, the next sample being `n` periods ahead of `w₀`. -/
inductive CopLoop [FloorRing K] (hull : Vec (Pt K) → Res (Polygon K)) (o : Oracle K) (C : Pt K → Prop) (A fb : K) (n : ℕ)
    (w₀ : HWalkgen K) : ℕ → HWalkgen K → Prop
  | start : CopLoop hull o C A fb n w₀ 0 w₀
  | cycle {k w w2} : CopLoop hull o C A fb n w₀ k w → k < n → CopCycle hull o C A fb (n - k) w w2 →
      CopLoop hull o C A fb n w₀ (k + 1) w2

end MPC
