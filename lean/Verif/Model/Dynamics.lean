import Verif.Eigen

/-!
# Linear dynamics: `/repo/src/tools.cpp`, `/repo/mpc-walkgen/tools.h`, `/repo/src/lineardynamic.cpp`
-/

namespace MPC

variable {K : Type} [Field K] [LinearOrder K]

/-- The exact inverse of a square matrix, `none` when it is singular (the C++ result is then
unspecified: infinities / NaN). Stands for `Eigen::FullPivLU<MatrixX>(A).inverse()`,
`/repo/mpc-walkgen/tools.h:70-71`. Simplification: exact arithmetic. -/
def Mat.inverse (A : Mat K) : Option (Mat K) :=
  let M : Matrix (Fin A.rows) (Fin A.rows) K := Matrix.of fun i j => A.get i j
  if M.det = 0 then none
  else some ⟨A.rows, A.rows, fun i j =>
    if h : i < A.rows ∧ j < A.rows then M.det⁻¹ * M.adjugate ⟨i, h.1⟩ ⟨j, h.2⟩ else 0⟩

/-- `Tools::inverseLU`, `/repo/mpc-walkgen/tools.h:67-79`: inverse, then every entry smaller
than `eps` in absolute value is set to zero. -/
def inverseLU (A : Mat K) (eps : K) : Option (Mat K) :=
  (Mat.inverse A).map fun B => ⟨B.rows, B.cols, fun i j =>
    if |B.get i j| < eps then 0 else B.get i j⟩

/-- `LinearDynamic`, `/repo/mpc-walkgen/lineardynamic.h`. `Uinv`/`UTinv` are `none` when the
code leaves them unspecified (singular `U`, or NaN-filled for a non square `U`,
`/repo/src/lineardynamic.cpp:26-34`). The member called `K` in C++ is `C` here. -/
structure LinearDynamic (K : Type) where
  U : Mat K
  UT : Mat K
  Uinv : Option (Mat K)
  UTinv : Option (Mat K)
  C : Vec K
  S : Mat K

/-- `computeCopDynamic`, `/repo/src/tools.cpp:18-66`. The two nested filling loops are written
as entry functions (entries not written by the loops keep the zero of `dyn.reset`). -/
def computeCopDynamic (S T : K) (N : ℕ) (comHeight gravityX gravityZ mass totalMass : K) :
    Res (LinearDynamic K) := do
  require (0 < S)
  require (0 < T)
  require (0 < N)
  require (EPS < |gravityZ|)
  require (mass ≤ totalMass)
  require (EPS < totalMass)
  require (0 ≤ mass)
  let SS := S ^ 2
  let SSS := S ^ 3
  let TT := T ^ 2
  let TTT := T ^ 3
  let m := mass / totalMass
  let U : Mat K := ⟨N, N, fun i j =>
    if j = 0 then
      m * (SSS / 6 + 1 / 2 * (i : K) * T * SS + 1 / 2 * (i : K) ^ 2 * S * TT
        - S * comHeight / gravityZ)
    else if j ≤ i then
      m * TTT * (1 / 6 + 1 / 2 * ((i - j : ℕ) : K) + 1 / 2 * ((i - j : ℕ) : K) ^ 2)
        - m * T * comHeight / gravityZ
    else 0⟩
  let Smat : Mat K := ⟨N, 3, fun i k =>
    if k = 0 then m
    else if k = 1 then m * ((i : K) * T + S)
    else m * (1 / 2 * SS + (i : K) * T * S + 1 / 2 * (i : K) ^ 2 * TT - comHeight / gravityZ)⟩
  let Uinv := inverseLU U EPS
  pure {
    U := U
    UT := U.transpose
    Uinv := Uinv
    UTinv := Uinv.map Mat.transpose
    C := ⟨N, fun _ => - m * comHeight * gravityX / gravityZ⟩
    S := Smat }

/-- `computePosDynamic`, `/repo/src/tools.cpp:69-105`. -/
def computePosDynamic (S T : K) (N : ℕ) : Res (LinearDynamic K) := do
  require (0 < S)
  require (0 < T)
  require (0 < N)
  let SS := S ^ 2
  let SSS := S ^ 3
  let TT := T ^ 2
  let TTT := T ^ 3
  let U : Mat K := ⟨N, N, fun i j =>
    if j = 0 then
      SSS / 6 + 1 / 2 * (i : K) * T * SS + 1 / 2 * (i : K) ^ 2 * S * TT
    else if j ≤ i then
      TTT * (1 / 6 + 1 / 2 * ((i - j : ℕ) : K) + 1 / 2 * ((i - j : ℕ) : K) ^ 2)
    else 0⟩
  let Smat : Mat K := ⟨N, 3, fun i k =>
    if k = 0 then 1
    else if k = 1 then (i : K) * T + S
    else 1 / 2 * SS + (i : K) * T * S + 1 / 2 * (i : K) ^ 2 * TT⟩
  let Uinv := inverseLU U EPS
  pure {
    U := U
    UT := U.transpose
    Uinv := Uinv
    UTinv := Uinv.map Mat.transpose
    C := ⟨N, fun _ => 0⟩
    S := Smat }

/-- `computeVelDynamic`, `/repo/src/tools.cpp:108-134`. -/
def computeVelDynamic (S T : K) (N : ℕ) : Res (LinearDynamic K) := do
  require (0 < S)
  require (0 < T)
  require (0 < N)
  let SS := S ^ 2
  let TT := T ^ 2
  let U : Mat K := ⟨N, N, fun i j =>
    if j = 0 then 1 / 2 * SS + (i : K) * T * S
    else if j ≤ i then 1 / 2 * TT + ((i - j : ℕ) : K) * TT
    else 0⟩
  let Smat : Mat K := ⟨N, 3, fun i k =>
    if k = 1 then 1
    else if k = 2 then (i : K) * T + S
    else 0⟩
  let Uinv := inverseLU U EPS
  pure {
    U := U
    UT := U.transpose
    Uinv := Uinv
    UTinv := Uinv.map Mat.transpose
    C := ⟨N, fun _ => 0⟩
    S := Smat }

/-- `computeOrder2PosDynamic`, `/repo/src/tools.cpp:137-163`. -/
def computeOrder2PosDynamic (S T : K) (N : ℕ) : Res (LinearDynamic K) := do
  require (0 < S)
  require (0 < T)
  require (0 < N)
  let SS := S ^ 2
  let TT := T ^ 2
  let U : Mat K := ⟨N, N, fun i j =>
    if j = 0 then 1 / 2 * SS + (i : K) * T * S
    else if j ≤ i then 1 / 2 * TT + ((i - j : ℕ) : K) * TT
    else 0⟩
  let Smat : Mat K := ⟨N, 2, fun i k =>
    if k = 0 then 1
    else (i : K) * T + S⟩
  let Uinv := inverseLU U EPS
  pure {
    U := U
    UT := U.transpose
    Uinv := Uinv
    UTinv := Uinv.map Mat.transpose
    C := ⟨N, fun _ => 0⟩
    S := Smat }

/-- The bidiagonal matrix stored in `Uinv` by `/repo/src/tools.cpp:175-198` (and 214-237):
`(0,0) ↦ 1/S`, `(1,0) ↦ -1/S`, and in the loop `(i,i) ↦ 1/T`, `(j+1,j) ↦ -1/T` for `1 ≤ j`. -/
def bidiagonalInverse (S T : K) (N : ℕ) : Mat K := ⟨N, N, fun i j =>
  if j = 0 then
    if i = 0 then 1 / S else if i = 1 then -1 / S else 0
  else if i = j then 1 / T
  else if i = j + 1 then -1 / T
  else 0⟩

/-- `computeAccDynamic`, `/repo/src/tools.cpp:166-202`. -/
def computeAccDynamic (S T : K) (N : ℕ) : Res (LinearDynamic K) := do
  require (0 < |S|)
  require (0 < T)
  require (0 < N)
  let U : Mat K := ⟨N, N, fun i j =>
    if j = 0 then S else if j ≤ i then T else 0⟩
  let Smat : Mat K := ⟨N, 3, fun _ k => if k = 2 then 1 else 0⟩
  let Uinv := bidiagonalInverse S T N
  pure {
    U := U
    UT := U.transpose
    Uinv := some Uinv
    UTinv := some Uinv.transpose
    C := ⟨N, fun _ => 0⟩
    S := Smat }

/-- `computeOrder2VelDynamic`, `/repo/src/tools.cpp:205-241`. -/
def computeOrder2VelDynamic (S T : K) (N : ℕ) : Res (LinearDynamic K) := do
  require (0 < T)
  require (0 < |S|)
  require (0 < N)
  let U : Mat K := ⟨N, N, fun i j =>
    if j = 0 then S else if j ≤ i then T else 0⟩
  let Smat : Mat K := ⟨N, 2, fun _ k => if k = 1 then 1 else 0⟩
  let Uinv := bidiagonalInverse S T N
  pure {
    U := U
    UT := U.transpose
    Uinv := some Uinv
    UTinv := some Uinv.transpose
    C := ⟨N, fun _ => 0⟩
    S := Smat }

/-- `computeJerkDynamic`, `/repo/src/tools.cpp:244-252`. -/
def computeJerkDynamic (N : ℕ) : LinearDynamic K :=
  { U := Mat.one N
    UT := Mat.one N
    Uinv := some (Mat.one N)
    UTinv := some (Mat.one N)
    C := ⟨N, fun _ => 0⟩
    S := Mat.zero N 3 }

/-- The three assignments of `updateState`, `/repo/src/tools.cpp:260-267`. They are executed in
order and each right-hand side only reads components that are not assigned yet. -/
def stateStep (jerk T : K) (s : State3 K) : State3 K where
  p := s.p + (s.v * T + 1 / 2 * s.a * T ^ 2 + jerk * T ^ 3 / 6)
  v := s.v + (s.a * T + 1 / 2 * jerk * T ^ 2)
  a := s.a + jerk * T

/-- `updateState`, `/repo/src/tools.cpp:255-268`. -/
def updateState (jerk T : K) (s : State3 K) : Res (State3 K) := do
  require (0 < T)
  pure (stateStep jerk T s)

/-- How every user of a `LinearDynamic` evaluates it: `dyn.U*X + dyn.S*x + dyn.K`. -/
def LinearDynamic.predict (d : LinearDynamic K) (X x : Vec K) : Res (Vec K) := do
  let a ← d.U.mulVec? X
  let b ← d.S.mulVec? x
  let c ← a.add? b
  c.add? d.C

end MPC
