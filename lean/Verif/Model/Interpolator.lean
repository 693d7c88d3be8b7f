import Verif.Eigen

/-!
# Foot interpolation: `/repo/src/interpolator.cpp`, `/repo/mpc-walkgen/tools.h:98-118`,
`/repo/src/model/humanoid_foot_model.cpp:142-161`
-/

namespace MPC

variable {K : Type} [Field K] [LinearOrder K]

/-- The table of `Interpolator::Interpolator`, `/repo/src/interpolator.cpp:15-23`, row by row. -/
def interpTable : List (List K) :=
  [[  9/2 ,  3/2 ,  1/6  ,   9/2 ,  0   , -1/12,   9/2 , -3/2 ,  1/6  ],
   [ -9   , -3/2 ,  5/12 ,  -9   ,  3/2 ,  5/12,  -9   ,  9/2 , -7/12 ],
   [ 27/2 ,  3   , -3/4  ,  27/2 , -3/2 , -1/2 ,  27/2 , -6   ,  3/4  ],
   [ -9/2 , -2   ,  5/12 ,  -9/2 ,  1/2 ,  1/6 ,  -9/2 ,  2   , -1/4  ],
   [ -1/2 ,  4/9 , -7/108,   1/2 , -1/18, -1/54,   1/2 , -2/9 ,  1/36 ],
   [  9/2 ,  0   , -1/12 ,   9/2 , -3/2 ,  1/6 ,   9/2 , -3   ,  11/12],
   [-27/2 ,  0   ,  1/4  , -27/2 ,  9/2 , -1/2 , -27/2 ,  9   , -9/4  ],
   [ 27/2 ,  0   , -1/4  ,  27/2 , -9/2 ,  1/2 ,  27/2 , -8   ,  7/4  ],
   [ -9/2 ,  0   ,  1/12 ,  -9/2 ,  3/2 , -1/6 ,  -7/2 ,  2   , -5/12 ]]

/-- `aInvNorm_`, `/repo/src/interpolator.cpp:9,24`: a 9×9 matrix (the table has exactly 9 rows of
9 entries, so the default `0` is never used inside of the matrix). -/
def aInvNorm : Mat K := ⟨9, 9, fun i j => ((interpTable (K := K)).getD i []).getD j 0⟩

/-- `b_` as filled by `/repo/src/interpolator.cpp:41-49`. -/
def interpRhs (s f : State3 K) (T : K) : Vec K := ⟨9, fun i =>
  match i with
  | 0 => - T * T * s.a / 18 - T * s.v / 3 - s.p
  | 1 => - T * T * s.a / 3 - T * s.v
  | 2 => - T * T * s.a
  | 6 => f.p
  | 7 => T * f.v
  | 8 => T * T * f.a
  | _ => 0⟩

/-- `Interpolator::computePolynomialNormalisedFactors`, `/repo/src/interpolator.cpp:30-55`. The
output `factor` (size 12) is first partially written (3, 2, 1), then 0 and the segment 4..11. -/
def computeFactors (factor : Vec K) (s f : State3 K) (T : K) : Res (Vec K) := do
  let factor ← factor.set? 3 s.p
  let factor ← factor.set? 2 (T * s.v)
  let factor ← factor.set? 1 (T * T * s.a / 2)
  let abc ← aInvNorm.mulVec? (interpRhs s f T)
  let factor ← factor.set? 0 (← abc.at? 0)
  factor.setSegment? 4 8 (← abc.segment? 1 8)

/-- `Interpolator::selectFactors`, `/repo/src/interpolator.cpp:57-75`. -/
def selectFactors (factor : Vec K) (t T : K) : Res (Vec K) :=
  if t ≤ T / 3 then factor.segment? 0 4
  else if t ≤ 2 * T / 3 then factor.segment? 4 4
  else factor.segment? 8 4

/-- `Tools::polynomValue`, `/repo/mpc-walkgen/tools.h:98-103`. -/
def polynomValue (f : Vec K) (x : K) : Res K := do
  pure ((← f.at? 0) * x ^ 3 + (← f.at? 1) * x ^ 2 + (← f.at? 2) * x + (← f.at? 3))

/-- `Tools::dPolynomValue`, `/repo/mpc-walkgen/tools.h:105-109`. -/
def dPolynomValue (f : Vec K) (x : K) : Res K := do
  pure (3 * (← f.at? 0) * x ^ 2 + 2 * (← f.at? 1) * x + (← f.at? 2))

/-- `Tools::ddPolynomValue`, `/repo/mpc-walkgen/tools.h:111-115`. -/
def ddPolynomValue (f : Vec K) (x : K) : Res K := do
  pure (6 * (← f.at? 0) * x + 2 * (← f.at? 1))

/-- The part of `HumanoidFootModel` used by the interpolation: the state along one axis and the
scratch vector `factor_` (`/repo/mpc-walkgen/model/humanoid_foot_model.h:189-205`). -/
structure FootAxis (K : Type) where
  state : State3 K
  factor : Vec K

/-- Initial foot axis, `/repo/src/model/humanoid_foot_model.cpp:127-140`. -/
def FootAxis.init : FootAxis K := ⟨⟨0, 0, 0⟩, Vec.const 12 0⟩

/-- `HumanoidFootModel::interpolateTrajectory`, `/repo/src/model/humanoid_foot_model.cpp:142-161`,
called by `updateStateX/Y/Z` (lines 71-93). The division by `T = 0` is not guarded by the code: the
result is then unspecified (NaN or infinity). The state is a vector of size 3 (`State3`). -/
def interpolateTrajectory (foot : FootAxis K) (obj : State3 K) (T t : K) : Res (FootAxis K) := do
  let factor ← computeFactors foot.factor foot.state obj T
  let sub ← selectFactors factor t T
  if T = 0 then .error .unspecified else
  let p ← polynomValue sub (t / T)
  let v ← dPolynomValue sub (t / T)
  let a ← ddPolynomValue sub (t / T)
  pure ⟨⟨p, v / T, a / (T * T)⟩, factor⟩

end MPC
