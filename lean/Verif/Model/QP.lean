import Verif.Eigen

/-!
# Quadratic programs: `/repo/qpsolver/mpc-walkgen/qpsolver.h`,
`/repo/qpsolver/src/qpsolver_qpoases.hxx`
-/

namespace MPC

variable {K : Type} [Field K] [LinearOrder K]

/-- `QPMatrices`, `/repo/qpsolver/mpc-walkgen/qpsolver.h:32-57`. -/
structure QPMatrices (K : Type) where
  Q : Mat K
  p : Vec K
  xl : Vec K
  xu : Vec K
  A : Mat K
  bu : Vec K
  bl : Vec K

/-- `QPMatrices::dimensionsAreConsistent`, `/repo/qpsolver/mpc-walkgen/qpsolver.h:83-89`. -/
def QPMatrices.DimensionsAreConsistent (m : QPMatrices K) (nbVar nbCtr : ℕ) : Prop :=
  m.Q.rows = nbVar ∧ m.Q.cols = nbVar ∧ m.p.size = nbVar ∧ m.xl.size = nbVar ∧
  m.xu.size = nbVar ∧ m.A.cols = nbVar ∧ m.A.rows = nbCtr ∧ m.bl.size = nbCtr ∧
  m.bu.size = nbCtr

instance (m : QPMatrices K) (a b : ℕ) : Decidable (m.DimensionsAreConsistent a b) := by
  unfold QPMatrices.DimensionsAreConsistent; infer_instance

/-- Body of the inner loop of `getNormalizationFactor`,
`/repo/qpsolver/mpc-walkgen/qpsolver.h:114-118`. -/
def normalizationStep (eps f x : K) : K :=
  if eps < |x| ∧ |x| < f then |x| else f

/-- The value of the local `normalizationFactor` after the two loops,
`/repo/qpsolver/mpc-walkgen/qpsolver.h:109-120`. -/
def smallestSignificant (A : Mat K) (eps : K) : K :=
  (List.range A.rows).foldl (fun f i =>
    (List.range A.cols).foldl (fun f j => normalizationStep eps f (A.get i j)) f) 1

/-- `QPMatrices::getNormalizationFactor`, `/repo/qpsolver/mpc-walkgen/qpsolver.h:105-123`. The
final division by zero (possible only for a negative `eps`) is unspecified. -/
def getNormalizationFactor (A : Mat K) (eps : K) : Res K :=
  if smallestSignificant A eps = 0 then .error .unspecified
  else .ok (1 / smallestSignificant A eps)

/-- `QPMatrices::normalizeMatrices`, `/repo/qpsolver/mpc-walkgen/qpsolver.h:91-103`. -/
def normalizeMatrices (m : QPMatrices K) (eps : K) : Res (QPMatrices K) := do
  let objFactor ← getNormalizationFactor m.Q eps
  let ctrFactor ← getNormalizationFactor m.A eps
  pure { m with
    Q := Mat.smul objFactor m.Q
    p := Vec.smul objFactor m.p
    A := Mat.smul ctrFactor m.A
    bu := Vec.smul ctrFactor m.bu
    bl := Vec.smul ctrFactor m.bl }

/-- qpOASES itself is not modelled: it is an arbitrary function of the call number, the QP and the
iteration limit, returning whether it reports `SUCCESSFUL_RETURN` and a primal vector. Every
theorem quantifies over all oracles. -/
abbrev Oracle (K : Type) := ℕ → QPMatrices K → ℕ → Bool × (ℕ → K)

/-- `QPOasesSolver`, `/repo/qpsolver/src/qpsolver_qpoases.hxx:29-36`. `Q` and `A` are the matrices
the `qpOASES::QProblem` was last initialised with; `calls` numbers the calls to qpOASES. -/
structure SolverState (K : Type) where
  nbVar : ℕ
  nbCtr : ℕ
  initialized : Bool
  Q : Mat K
  A : Mat K
  calls : ℕ

/-- `QPOasesSolver::QPOasesSolver`, `/repo/qpsolver/src/qpsolver_qpoases.hxx:38-48`. -/
def SolverState.make (nbVar nbCtr : ℕ) : SolverState K :=
  ⟨nbVar, nbCtr, false, Mat.zero 0 0, Mat.zero 0 0, 0⟩

/-- The QP that qpOASES works on, `/repo/qpsolver/src/qpsolver_qpoases.hxx:62-74`: `hotstart` (65)
takes new vectors but keeps the `Q` and `A` of the last `init`. -/
def usedQP (s : SolverState K) (m : QPMatrices K) (useWarmStart : Bool) : QPMatrices K :=
  if s.initialized && useWarmStart then { m with Q := s.Q, A := s.A } else m

/-- `QPOasesSolver::solve`, `/repo/qpsolver/src/qpsolver_qpoases.hxx:50-88`. `os` tells whether an
output stream was given (`os != nullptr`).
`getPrimalSolution(sol.data())` (78) writes `nbVar` entries into `sol`, without resizing it. -/
def solverSolve (o : Oracle K) (s : SolverState K) (m : QPMatrices K) (maxIter : ℕ) (sol : Vec K)
    (useWarmStart : Bool) (os : Bool) : Res (Bool × Vec K × SolverState K) := do
  require (m.DimensionsAreConsistent s.nbVar s.nbCtr)
  let used := usedQP s m useWarmStart
  let ret := o s.calls used maxIter
  let s' := { s with initialized := true, Q := used.Q, A := used.A, calls := s.calls + 1 }
  requireIndex (s.nbVar ≤ sol.size)
  let sol' : Vec K := ⟨sol.size, fun i => if i < s.nbVar then ret.2 i else sol.get i⟩
  if ret.1 = false ∧ os = true then pure (false, sol', s')
  else pure (true, sol', s')

end MPC
