import Mathlib.Data.Rat.Floor
import Verif.Lemmas.Eval
import Verif.Model.Humanoid
import Verif.Model.Zebulon
import Verif.Model.Hull
import Verif.Spec.QP
import Mathlib.Analysis.SpecialFunctions.Trigonometric.Basic
import Mathlib.Algebra.BigOperators.Fin
import Mathlib.Tactic.Linarith

/-! # The unit tests of the repository, replayed in the model

Each example runs the model on the input of a test of `/repo/test` and checks the values that the test expects, up to
the tolerance of the test. They check the model against numbers obtained from the code; they are tests, not proofs of
properties. -/

namespace MPC.Tests

/-- A vector given by its entries. -/
def vec (l : List ℚ) : Vec ℚ := ⟨l.length, fun i => l.getD i 0⟩

/-- `ASSERT_NEAR(a, b, Constant<Scalar>::EPSILON)`. -/
def near (a b : ℚ) : Bool := decide (|a - b| ≤ EPS)

/-- `checkLinearDynamicSize`, `/repo/test/mpc_walkgen_gtest.h:17-29`. -/
def sizeOk (d : LinearDynamic ℚ) (n : ℕ) : Bool :=
  d.U.rows == n && d.U.cols == n && d.UT.rows == n && d.UT.cols == n && d.S.rows == n && d.S.cols == 3

/-- `(dyn.S * init + dyn.K + dyn.U * jerk)(0)`. -/
def predict (d : LinearDynamic ℚ) (init jerk : Vec ℚ) : Res ℚ := do
  (← (← (← d.S.mulVec? init).add? d.C).add? (← d.U.mulVec? jerk)).at? 0

/-! ### `/repo/test/test-lip-model.cpp` -/

/-- `sizeOfMatrices`, lines 13-42. -/
example : okAnd (fun l => l.nbFb == 4 && sizeOk l.jerk 10 && (List.range 4).all fun i =>
      okAnd (sizeOk · 10) (l.dyn l.pos i) && okAnd (sizeOk · 10) (l.dyn l.vel i) &&
      okAnd (sizeOk · 10) (l.dyn l.acc i) && okAnd (sizeOk · 10) (l.dyn l.copX i) &&
      okAnd (sizeOk · 10) (l.dyn l.copY i))
    (do (← Lip.make 10 (1 : ℚ) true).setFeedbackPeriod (1 / 4)) = true := by
  decide +kernel

/-- The model of `valuesOfMatrices`, lines 44-62. -/
def lipModel : Res (Lip ℚ) := do
  let m ← Lip.make 1 (2 : ℚ) true
  let m ← m.setSamplingPeriod 2
  let m ← m.setComHeight (45 / 100)
  let m ← m.setGravity 1 (-1) 9
  m.setFeedbackPeriod (1 / 4)

/-- Value predicted by one of its dynamics. -/
def lipValue (f : Lip ℚ → Vec (LinearDynamic ℚ)) : Res ℚ := do
  let m ← lipModel
  predict (← m.last (f m)) (vec [2, 3 / 2, -3]) (vec [1])

/-- `valuesOfMatrices`, lines 44-93. -/
example : okAnd (near · 0.333333333) (lipValue (·.pos)) = true ∧ okAnd (near · (-2.5)) (lipValue (·.vel)) = true ∧
    okAnd (near · (-1)) (lipValue (·.acc)) = true ∧
    okAnd (near · 1) (do predict (← lipModel).jerk (vec [2, 3 / 2, -3]) (vec [1])) = true ∧
    okAnd (near · 0.333333333) (lipValue (·.copX)) = true ∧
    okAnd (near · 0.433333333) (lipValue (·.copY)) = true := by
  decide +kernel

/-! ### `/repo/test/test-zebulon-base-model.cpp` -/

/-- `sizeOfMatrices`, lines 15-28. -/
example : okAnd (fun b => sizeOk b.pos 10 && sizeOk b.vel 10 && sizeOk b.acc 10 && sizeOk b.jerk 10)
    (Base.make 10 (1 : ℚ) true) = true := by
  decide +kernel

/-- `(dyn.S * init + dyn.U * jerk)(0)`. -/
def baseValue (f : Base ℚ → LinearDynamic ℚ) : Res ℚ := do
  let d := f (← Base.make 1 (2 : ℚ) true)
  (← (← d.S.mulVec? (vec [2, 3 / 2, -3])).add? (← d.U.mulVec? (vec [1]))).at? 0

/-- `valuesOfMatrices`, lines 30-63. -/
example : okAnd (near · 0.333333333) (baseValue (·.pos)) = true ∧ okAnd (near · (-2.5)) (baseValue (·.vel)) = true ∧
    okAnd (near · (-1)) (baseValue (·.acc)) = true ∧ okAnd (near · 1) (baseValue (·.jerk)) = true := by
  decide +kernel

/-! ### `/repo/test/test-interpolation-function.cpp` -/

/-- The factors of the fixture, lines 24-48. -/
def factors : Res (Vec ℚ) := computeFactors (Vec.const 12 0) ⟨1, 2, 3⟩ ⟨4, 5, 6⟩ 10

/-- Value, derivative and second derivative (with respect to `t/T`) at `t` of the polynomial selected at `s`. -/
def interp (s t : ℚ) : Res (ℚ × ℚ × ℚ) := do
  let f ← selectFactors (← factors) s 10
  pure (← polynomValue f (t / 10), ← dPolynomValue f (t / 10), ← ddPolynomValue f (t / 10))

def near3 (a : ℚ × ℚ × ℚ) (x y z : ℚ) : Bool := near a.1 x && near a.2.1 y && near a.2.2 z

/-- `initialConstraints`, `finalConstraints`, lines 51-77. -/
example : okAnd (fun a => near a.1 1 && near (a.2.1 / 10) 2 && near (a.2.2 / 100) 3) (interp (10 / 6) 0) = true ∧
    okAnd (fun a => near a.1 4 && near (a.2.1 / 10) 5 && near (a.2.2 / 100) 6) (interp (50 / 6) 10) = true := by
  decide +kernel

/-- `firstJunction`, `secondJunction`, lines 80-109. -/
example : okAnd (fun a => near3 a.1 a.2.1 a.2.2.1 a.2.2.2)
      (do pure (← interp (10 / 6) (10 / 3), ← interp 5 (10 / 3))) = true ∧
    okAnd (fun a => near3 a.1 a.2.1 a.2.2.1 a.2.2.2)
      (do pure (← interp 5 (20 / 3), ← interp (50 / 6) (20 / 3))) = true := by
  decide +kernel

/-- `firstPolynomValue`, `secondPolynomValue`, `thirdPolynomValue`, lines 112-145. -/
example : okAnd (near3 · 7.12731 45.2917 3.5) (interp (10 / 6) (10 / 6)) = true ∧
    okAnd (near3 · 13.3333 (-18.25) (-180)) (interp 5 5) = true ∧
    okAnd (near3 · 2.45602 (-22.2083) 266.5) (interp (50 / 6) (50 / 6)) = true := by
  decide +kernel

/-! ### `/repo/test/test-zebulon-cop-constraint.cpp`, `/repo/test/test-zebulon-com-constraint.cpp` -/

/-- The octagon of the tests, lines 20-33, in the order of the constructor of polygons (counter-clockwise from the
lowest vertex). -/
def octagon : Vec (Pt ℚ) := ⟨8, fun i => ([⟨0, -0.15⟩, ⟨0.1, -0.1⟩, ⟨0.15, 0⟩, ⟨0.1, 0.1⟩, ⟨0, 0.15⟩,
  ⟨-0.1, 0.1⟩, ⟨-0.15, 0⟩, ⟨-0.1, -0.1⟩] : List (Pt ℚ)).getD i ⟨0, 0⟩⟩

def copValue (j : List ℚ) : Res (Vec ℚ) := do
  let l ← Lip.make 1 (1 : ℚ) true
  let b ← Base.makeDefault (K := ℚ) (none, none)
  let b := { b with copPoly := octagon }
  CopConstraint.getFunction (← CopConstraint.compute l b) l b (vec j)

def comValue (j : List ℚ) : Res (Vec ℚ) := do
  let l ← Lip.make 1 (1 : ℚ) true
  let b ← Base.makeDefault (K := ℚ) (none, none)
  let b := { b with comPoly := octagon }
  ComConstraint.getFunction (← ComConstraint.compute l b) l b (vec j)

/-- The entries of `z` are near zero, the others negative. -/
def zeroAt (z : List ℕ) (v : Vec ℚ) : Bool :=
  v.size == 8 && (List.range 8).all fun i => if i ∈ z then near (v.get i) 0 else decide (v.get i < 0)

/-- `functionValue`, lines 15-106 of `test-zebulon-cop-constraint.cpp`. -/
example : okAnd (zeroAt []) (copValue [0, 0, 0, 0]) = true ∧ okAnd (zeroAt [1, 2]) (copValue [0, 0, 0.9, 0]) = true ∧
    okAnd (zeroAt [5, 6]) (copValue [0, 0, -0.9, 0]) = true ∧ okAnd (zeroAt [3, 4]) (copValue [0, 0, 0, 0.9]) = true ∧
    okAnd (zeroAt [7, 0]) (copValue [0, 0, 0, -0.9]) = true := by
  decide +kernel

/-- `functionValue`, lines 15-106 of `test-zebulon-com-constraint.cpp`. -/
example : okAnd (zeroAt []) (comValue [0, 0, 0, 0]) = true ∧ okAnd (zeroAt [1, 2]) (comValue [0, 0, 0.9, 0]) = true ∧
    okAnd (zeroAt [5, 6]) (comValue [0, 0, -0.9, 0]) = true ∧ okAnd (zeroAt [3, 4]) (comValue [0, 0, 0, 0.9]) = true ∧
    okAnd (zeroAt [7, 0]) (comValue [0, 0, 0, -0.9]) = true := by
  decide +kernel

/-! ### `/repo/test/test-zebulon-base-motion-constraint.cpp` -/

def motionSup (j : List ℚ) : Res (Vec ℚ) := do
  let b ← Base.makeDefault (K := ℚ) (none, none)
  BaseMotion.getFunctionSup (← BaseMotion.compute b) b (vec j)

def motionInf (j : List ℚ) : Res (Vec ℚ) := do
  let b ← Base.makeDefault (K := ℚ) (none, none)
  BaseMotion.getFunctionInf (← BaseMotion.compute b) b (vec j)

def pos (a : ℚ) : Bool := decide (0 < a)
def neg (a : ℚ) : Bool := decide (a < 0)
def zero (a : ℚ) : Bool := near a 0
def two (p q : ℚ → Bool) (v : Vec ℚ) : Bool := p (v.get 0) && q (v.get 1)

/-- `functionValue`, lines 20-78. -/
example : okAnd (two pos pos) (motionSup [0, 0]) = true ∧ okAnd (two neg neg) (motionInf [0, 0]) = true ∧
    okAnd (two pos zero) (motionSup [0, 2]) = true ∧ okAnd (two pos neg) (motionSup [0, 2.1]) = true ∧
    okAnd (two neg zero) (motionInf [0, -2]) = true ∧ okAnd (two neg pos) (motionInf [0, -2.1]) = true ∧
    okAnd (two zero pos) (motionSup [2, 0]) = true ∧ okAnd (two neg pos) (motionSup [2.1, 0]) = true ∧
    okAnd (two zero neg) (motionInf [-2, 0]) = true ∧ okAnd (two pos neg) (motionInf [-2.1, 0]) = true := by
  decide +kernel

/-- `sizeOfvalues`, lines 81-104. -/
example : okAnd (fun r : MotionConstraint ℚ × Vec ℚ × Vec ℚ => r.1.gradient.rows == 12 && r.1.gradient.cols == 6 &&
      r.2.1.size == 12 && r.2.2.size == 12)
    (do
      let b ← Base.make 3 (1 : ℚ) true
      let c ← BaseMotion.compute b
      pure (c, ← BaseMotion.getFunctionInf c b (Vec.const 6 0), ← BaseMotion.getFunctionSup c b (Vec.const 6 0))) =
    true := by
  decide +kernel

/-! ### `/repo/test/test-zebulon-cop-centering-objective.cpp` -/

/-- `functionValue`, lines 15-76. The objective is built before the states are set, which its Hessian does not read. -/
def copCentering : Res (Mat ℚ × Vec ℚ) := do
  let l ← Lip.make 1 (1 : ℚ) true
  let b ← Base.makeDefault (K := ℚ) (none, none)
  let c ← CopCentering.compute ⟨Vec.const 2 0, 0, Mat.zero 0 0⟩ l b
  let c ← c.setRef l b (vec [2, 2])
  let b := { b with x := ← stateArg (vec [-1.5, 0, 0]), y := ← stateArg (vec [0.25, 0, 0]) }
  let l ← l.setStateX (vec [-1, 0, 0])
  let l ← l.setStateY (vec [0.5, 0, 0])
  pure (c.hessian, ← c.getGradient l b (vec [1, 1, 1, 1]))

def matNear (m : Mat ℚ) (r : List (List ℚ)) : Bool :=
  m.rows == r.length && (List.range m.rows).all fun i => (List.range m.cols).all fun j =>
    near (m.get i j) ((r.getD i []).getD j 0)

def vecNear (v : Vec ℚ) (r : List ℚ) : Bool :=
  v.size == r.length && (List.range v.size).all fun i => near (v.get i) (r.getD i 0)

example : okAnd (fun r => vecNear r.2 [-0.1036931, -0.1198756, 0.2669894, 0.3086561] &&
      matNear r.1 [[0.00418996, 0, -0.01078831, 0], [0, 0.00418996, 0, -0.01078831],
        [-0.01078831, 0, 0.02777778, 0], [0, -0.01078831, 0, 0.02777778]]) copCentering = true := by
  decide +kernel

/-- `coprefInWorldFrame`, lines 100-185: the reference in the world frame computed from a motion gives the same gradient
as the predicted CoP in the local frame. -/
def copRefWorld : Res (Vec ℚ × Vec ℚ) := do
  let l ← Lip.make 5 (1 : ℚ) true
  let b ← Base.make 5 (1 : ℚ) true
  let c ← CopCentering.compute ⟨Vec.const 10 0, 0, Mat.zero 0 0⟩ l b
  let j1 : Vec ℚ := Vec.const 5 1
  let j2 : Vec ℚ := Vec.const 5 2
  let pr (d : LinearDynamic ℚ) (j : Vec ℚ) (s : State3 ℚ) : Res (Vec ℚ) := do
    (← d.U.mulVec? j).add? (← d.S.mulVec? s.toVec)
  let twice (a b : Vec ℚ) : Res (Vec ℚ) := do
    (← (Vec.const 10 (0 : ℚ)).setSegment? 0 5 a).setSegment? 5 5 b
  let cp ← l.last l.pos
  let ca ← l.last l.acc
  let comPos ← twice (← pr cp j1 l.x) (← pr cp j1 l.y)
  let comAcc ← twice (← pr ca j1 l.x) (← pr ca j1 l.y)
  let basePosX ← pr b.pos j2 b.x
  let basePosY ← pr b.pos j2 b.y
  let baseAcc ← twice (← pr b.acc j2 b.x) (← pr b.acc j2 b.y)
  let c1 ← c.setRefWorld l b comPos comAcc (← twice basePosX basePosY) baseAcc
  let copX ← (← pr (← l.last l.copX) j1 l.x).add? (← pr b.copX j2 b.x)
  let copY ← (← pr (← l.last l.copY) j1 l.y).add? (← pr b.copY j2 b.y)
  let c2 ← c.setRef l b (← twice (← copX.sub? basePosX) (← copY.sub? basePosY))
  pure (← c1.getGradient l b (Vec.const 20 0), ← c2.getGradient l b (Vec.const 20 0))

example : okAnd (fun r => r.1.size == 20 && r.2.size == 20 && (List.range 20).all fun i =>
    near (r.1.get i) (r.2.get i)) copRefWorld = true := by
  decide +kernel

/-! ### The other Zebulon objectives -/

/-- `/repo/test/test-zebulon-jerk-minimization-objective.cpp:15-29`. -/
example : okAnd (fun r => vecNear r.2 [1, 1, 1, 1] &&
      matNear r.1 [[1, 0, 0, 0], [0, 1, 0, 0], [0, 0, 1, 0], [0, 0, 0, 1]])
    (do
      let l ← Lip.make 1 (1 : ℚ) true
      let b ← Base.makeDefault (K := ℚ) (none, none)
      pure (← zJerkCompute l b, ← zJerkGradient l b (vec [1, 1, 1, 1]))) = true := by
  decide +kernel

def track (f : Base ℚ → LinearDynamic ℚ) : Res (Mat ℚ × Vec ℚ) := do
  let b ← Base.makeDefault (K := ℚ) (none, none)
  let t : ZTrack ℚ := ⟨vec [2, 2], ← ZTrack.compute b (f b)⟩
  let b := { b with x := ← stateArg (vec [0, -1.5, 0]), y := ← stateArg (vec [0, 0.5, 0]) }
  pure (t.hessian, ← t.getGradient b (f b) (vec [1, 1]))

/-- `/repo/test/test-zebulon-base-position-tracking-objective.cpp:14-48`. -/
example : okAnd (fun r => vecNear r.2 [-0.555555, -0.222222] && matNear r.1 [[0.0277777, 0], [0, 0.0277777]])
    (track (·.pos)) = true := by
  decide +kernel

/-- `/repo/test/test-zebulon-base-velocity-tracking-objective.cpp:20-52`. -/
example : okAnd (fun r => vecNear r.2 [-1.5, -0.5] && matNear r.1 [[0.25, 0], [0, 0.25]])
    (track (·.vel)) = true := by
  decide +kernel

/-! ### `/repo/test/test-humanoid-cop-constraint.cpp` -/

/-- The triangle of the test, lines 39-42, as built by the constructor of polygons. -/
def triangle : Res (Polygon ℚ) :=
  Polygon.ofVertices ⟨3, fun i => ([⟨1, -1⟩, ⟨1, 1⟩, ⟨-1, 1⟩] : List (Pt ℚ)).getD i ⟨0, 0⟩⟩

noncomputable def humanoidCop : Res (ConstraintAt ℚ) := do
  let s ← Sup.init 3 (1 : ℚ)
  let t ← triangle
  let s := { s with left := { s.left with cop := t }, right := { s.right with cop := t } }
  let (s, _) ← s.updateTimeline (Vec.const 6 0) (1 / 2)
  let l ← (← Lip.make 3 (1 : ℚ) true).setFeedbackPeriod (1 / 2)
  copConstraint (fun _ => triangle) l s 6 (Vec.const 6 0)

/-- `functionValue`, `sizeOfValues`, lines 69-98. -/
example : okAnd (fun c => vecNear c.f [0, 0, 0] && c.A.rows == 3 && c.A.cols == 6 &&
      (List.range 3).all (fun i => near (c.A.get i i) (-2) && near (c.A.get i (i + 3)) (-2)) &&
      vecNear c.sup [1, 1, 1, 1, 1, 1] && vecNear c.inf (List.replicate 6 (-MAXBOUND))) humanoidCop = true := by
  decide +kernel

/-! ### The other humanoid tests -/

def restSup : Res (Sup ℚ × Lip ℚ) := do
  let s ← Sup.init 3 (1 : ℚ)
  let l ← Lip.make 3 (1 : ℚ) true
  pure (s, l)

/-- `/repo/test/test-humanoid-foot-constraint.cpp:56-80`. -/
example : okAnd (fun c => c.f.size == 0 && c.A.rows == 0 && c.A.cols == 6 && c.sup.size == 0 && c.inf.size == 0)
    (do let (s, l) ← restSup; footConstraint l s (Vec.const 6 0)) = true := by
  decide +kernel

/-- `/repo/test/test-humanoid-cop-centering-objective.cpp:14-72`. -/
example : okAnd (fun r => r.1.rows == 6 && r.1.cols == 6 && (List.range 6).all (fun i => (List.range 6).all fun j =>
      decide (r.1.get i j = if i = j then 1 else 0)) && vecNear r.2 [1, 1, 1, 1, 1, 1])
    (do let (s, l) ← restSup; pure (← centeringHessian l s, ← centeringGradient l s (Vec.const 6 1))) = true := by
  decide +kernel

noncomputable def runSup : Res (Sup ℚ × Lip ℚ) := do
  let s ← Sup.init 3 (1 : ℚ)
  let (s, _) ← s.updateTimeline (Vec.const 6 0) (1 / 2)
  let l ← (← Lip.make 3 (1 : ℚ) true).setFeedbackPeriod (1 / 2)
  pure (s, l)

/-- `/repo/test/test-humanoid-lip-com-velocity-tracking-objective.cpp:37-66`. -/
example : okAnd (fun r => r.1.rows == 6 && r.1.cols == 6 && r.2.size == 6)
    (do let (s, l) ← runSup; pure (← velHessian l s, ← velGradient l s (Vec.const 6 0) (Vec.const 6 0))) = true := by
  decide +kernel

/-- `/repo/test/test-humanoid-lip-com-jerk-minimization-objective.cpp:19-47`. -/
example : okAnd (fun r => r.1.rows == 6 && r.1.cols == 6 && r.2.size == 6)
    (do let (s, l) ← runSup; pure (← jerkHessian l s, ← jerkGradient l s (Vec.const 6 0))) = true := by
  decide +kernel

/-- `/repo/test/test-humanoid-feet-supervisor.cpp:15-18`. -/
example : okAnd (fun s => s.N == 10) (Sup.init 10 (1 : ℚ)) = true := by
  decide +kernel

/-! ### `/repo/test/test-qpoases-solver.cpp`: the expected results are the solutions of `Spec/QP.lean` -/

/-- The QP of the tests, lines 41-66 and 82-111; `m` rows. -/
def testQP (m : ℕ) : QPMatrices ℚ where
  Q := ⟨2, 2, fun i j => if i = j then 5 else 4⟩
  p := ⟨2, fun i => if i = 0 then 1 else -1⟩
  xl := Vec.const 2 (-100)
  xu := Vec.const 2 100
  A := ⟨m, 2, fun _ j => if j = 0 then 1 else 0⟩
  bu := Vec.const m (-2)
  bl := Vec.const m (-100)

theorem testQP_cost (m : ℕ) (x : ℕ → ℚ) : Spec.cost (testQP m) x =
    1 / 2 * (5 * x 0 ^ 2 + 8 * (x 0 * x 1) + 5 * x 1 ^ 2) + x 0 - x 1 := by
  simp [Spec.cost, testQP, Finset.sum_range_succ]
  ring

/-- `testSolver`, lines 34-72. -/
example : Spec.IsSolution (testQP 0) (fun i => if i = 0 then -1 else 1) := by
  refine ⟨⟨?_, ?_, ?_, ?_⟩, fun y _ => ?_⟩
  · intro i _; dsimp only [testQP, Vec.const]; split_ifs <;> norm_num
  · intro i _; dsimp only [testQP, Vec.const]; split_ifs <;> norm_num
  · intro i h; exact absurd h (Nat.not_lt_zero i)
  · intro i h; exact absurd h (Nat.not_lt_zero i)
  · rw [testQP_cost, testQP_cost]
    norm_num
    nlinarith [sq_nonneg (y 0 + 1 + (y 1 - 1)), sq_nonneg (y 0 + 1), sq_nonneg (y 1 - 1)]

/-- `testSolverWithConstraint`, lines 75-117. -/
example : Spec.IsSolution (testQP 1) (fun i => if i = 0 then -2 else 18 / 10) := by
  refine ⟨⟨?_, ?_, ?_, ?_⟩, fun y hy => ?_⟩
  · intro i _; dsimp only [testQP, Vec.const]; split_ifs <;> norm_num
  · intro i _; dsimp only [testQP, Vec.const]; split_ifs <;> norm_num
  · intro i _; norm_num [testQP, Vec.const, Finset.sum_range_succ]
  · intro i _; norm_num [testQP, Vec.const, Finset.sum_range_succ]
  · have h : y 0 ≤ -2 := by simpa [testQP, Vec.const, Finset.sum_range_succ] using hy.2.2.2 0
    rw [testQP_cost, testQP_cost]
    norm_num
    nlinarith [sq_nonneg (y 0 + 2 + (y 1 - 18 / 10)), sq_nonneg (y 0 + 2), sq_nonneg (y 1 - 18 / 10)]

/-! ### `/repo/test/test-convex-polygon-function.cpp` -/

/-- `createStandardConvexSet`, lines 17-29. -/
noncomputable def convexSet : Vec (Pt ℝ) :=
  ⟨5, fun i => ([⟨1, 0⟩, ⟨-1, -1⟩, ⟨1, -1⟩, ⟨1, 1⟩, ⟨-1, 1⟩] : List (Pt ℝ)).getD i ⟨0, 0⟩⟩

theorem arccos_quarter : Real.arccos (1 / Real.sqrt 2) = Real.pi / 4 := by
  have h : (1 : ℝ) / Real.sqrt 2 = Real.cos (Real.pi / 4) := by
    rw [Real.cos_pi_div_four, div_eq_div_iff (by positivity) (by norm_num)]
    rw [Real.mul_self_sqrt (by norm_num)]; norm_num
  rw [h]
  exact Real.arccos_cos (by positivity) (by linarith [Real.pi_pos])

theorem arccos_three_quarters : Real.arccos (-1 / Real.sqrt 2) = 3 * Real.pi / 4 := by
  rw [neg_div, Real.arccos_neg, arccos_quarter]; ring

/-- `angleBetweenVecs`, lines 31-55: the rounded constants of the test are `∓ 3 π / 4` and `∓ π / 4`. -/
example : angleBetweenVecs (1 / 10 ^ 12) (convexSet.get 0) (convexSet.get 1) = -(3 * Real.pi / 4) ∧
    angleBetweenVecs (1 / 10 ^ 12) (convexSet.get 0) (convexSet.get 2) = -(Real.pi / 4) ∧
    angleBetweenVecs (1 / 10 ^ 12) (convexSet.get 0) (convexSet.get 3) = Real.pi / 4 ∧
    angleBetweenVecs (1 / 10 ^ 12) (convexSet.get 0) (convexSet.get 4) = 3 * Real.pi / 4 ∧
    angleBetweenVecs (1 / 10 ^ 12) (convexSet.get 2) ⟨0, 0⟩ = 0 ∧
    angleBetweenVecs (1 / 10 ^ 12) (convexSet.get 0) (convexSet.get 0) = 0 := by
  have h1 : Real.arccos (Real.sqrt 2)⁻¹ = Real.pi / 4 := by rw [← one_div, arccos_quarter]
  have h3 := arccos_three_quarters
  refine ⟨?_, ?_, ?_, ?_, ?_, ?_⟩ <;>
    norm_num [angleBetweenVecs, convexSet, Pt.isZero, Pt.isApprox, Pt.sub, Pt.neg, Pt.normSq, Pt.norm,
      Pt.dot, Pt.cross, EPS, h1, h3]

/-- `geLowestAndLeftmostPointsIndex`, lines 57-70. -/
example : lowestLeftmost convexSet = .ok 1 ∧
    lowestLeftmost ⟨5, fun i => if i = 2 then convexSet.get 1 else convexSet.get i⟩ = .ok 1 := by
  constructor <;>
    norm_num [lowestLeftmost, lowestLoop, leftmostLoop, first?, convexSet, Vec.at?, Bind.bind, Except.bind, EPS,
      require, requireIndex, pure, Except.pure]

/-! ### The programs -/

def trianglePolygon : Polygon ℚ := match triangle with
  | .ok g => g
  | .error _ => Polygon.none

/-- `/repo/test/humanoid-walkgen-bin.cpp:15-22`: one cycle of 20 ms of a new generator. -/
example : okAnd (fun r => r.1)
    (HWalkgen.make (K := ℚ) >>= fun w => w.solve (fun _ => .ok trianglePolygon)
      (fun _ _ _ => (true, fun _ => 0)) (2 / 100)) = true := by
  decide +kernel

/-- `/repo/test/trajectory-walkgen-bin.cpp:47-88`: configuration and two cycles. -/
def trajectoryProgram : List (TrajCall ℚ) :=
  [.setNbSamples 20, .setSamplingPeriod (1 / 10), .setWeightings ⟨1, 0, 1 / 1000000⟩, .setConfig true,
    .setVelRef (Vec.const 20 (2 / 10)), .setPosRef (Vec.const 20 0), .setState (vec [0, 0, 0]), .setVelLimit 1,
    .setAccLimit 1, .setJerkLimit 10, .solve (2 / 100), .solve (2 / 100)]

example : okAnd (fun w => decide (w.model.nbSamples = 20))
    (TrajWalkgen.make (K := ℚ) >>= fun w => w.run (fun _ _ _ => (true, fun _ => 1)) trajectoryProgram) = true := by
  decide +kernel

end MPC.Tests
