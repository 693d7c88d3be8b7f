import Verif.Model.Dynamics
import Verif.Model.Trajectory
import Verif.Model.Supervisor

/-!
# `LIPModel`: `/repo/src/model/lip_model.cpp`, `/repo/mpc-walkgen/model/lip_model.h`

The yaw state and `useLipModel2_` are stored by the code but used by no function of the library: they
are left out. `std::vector` of dynamics is a `Vec` (entries beyond the size are never read by
`Vec.at?`).
-/

namespace MPC

/-- A `std::vector` of size `n` filled by a loop; stops at the first fault. -/
def buildVec {α : Type} (d : α) (f : ℕ → Res α) : ℕ → Res (Vec α)
  | 0 => pure ⟨0, fun _ => d⟩
  | n + 1 => do
    let v ← buildVec d f n
    let a ← f n
    pure ⟨n + 1, fun i => if i = n then a else v.get i⟩

variable {K : Type} [Field K] [LinearOrder K]

/-- `LIPModel`, `/repo/mpc-walkgen/model/lip_model.h:214-247`. -/
structure Lip (K : Type) where
  auto : Bool
  N : ℕ
  T : K
  fb : K
  nbFb : ℕ
  x : State3 K
  y : State3 K
  z : State3 K
  comHeight : K
  gx : K
  gy : K
  gz : K
  mass : K
  totalMass : K
  copX : Vec (LinearDynamic K)
  copY : Vec (LinearDynamic K)
  pos : Vec (LinearDynamic K)
  vel : Vec (LinearDynamic K)
  acc : Vec (LinearDynamic K)
  jerk : LinearDynamic K

/-- `computeCopXDynamicVec`, `/repo/src/model/lip_model.cpp:86-99`. -/
def Lip.computeCopX (l : Lip K) : Res (Lip K) := do
  let v ← buildVec .empty (fun i => computeCopDynamic (((i + 1 : ℕ) : K) * l.fb) l.T l.N l.comHeight
    l.gx l.gz l.mass l.totalMass) l.nbFb
  pure { l with copX := v }

/-- `computeCopYDynamicVec`, `/repo/src/model/lip_model.cpp:101-114`. -/
def Lip.computeCopY (l : Lip K) : Res (Lip K) := do
  let v ← buildVec .empty (fun i => computeCopDynamic (((i + 1 : ℕ) : K) * l.fb) l.T l.N l.comHeight
    l.gy l.gz l.mass l.totalMass) l.nbFb
  pure { l with copY := v }

/-- `computeComPosDynamicVec`, `computeComVelDynamicVec`, `computeComAccDynamicVec`,
`computeComJerkDynamic`, `/repo/src/model/lip_model.cpp:116-161`. -/
def Lip.computeCom (l : Lip K) : Res (Lip K) := do
  let pos ← buildVec .empty (fun i => computePosDynamic (((i + 1 : ℕ) : K) * l.fb) l.T l.N) l.nbFb
  let vel ← buildVec .empty (fun i => computeVelDynamic (((i + 1 : ℕ) : K) * l.fb) l.T l.N) l.nbFb
  let acc ← buildVec .empty (fun i => computeAccDynamic (((i + 1 : ℕ) : K) * l.fb) l.T l.N) l.nbFb
  require (0 < l.N)
  pure { l with pos := pos, vel := vel, acc := acc, jerk := computeJerkDynamic l.N }

/-- `computeDynamics`, `/repo/src/model/lip_model.cpp:72-84`. A division by zero is unspecified; the
`resize` of the vectors to a negative size aborts (`std::length_error`). -/
def Lip.computeDynamics [FloorRing K] (l : Lip K) : Res (Lip K) := do
  if l.fb = 0 then .error .unspecified
  else if truncInt ((l.T + EPS) / l.fb) < 0 then .error .aborted
  else do
    let l := { l with nbFb := (truncInt ((l.T + EPS) / l.fb)).toNat }
    let l ← l.computeCopX
    let l ← l.computeCopY
    l.computeCom

/-- `if (autoCompute_) computeDynamics()`. -/
def Lip.refresh [FloorRing K] (l : Lip K) : Res (Lip K) :=
  if l.auto then l.computeDynamics else pure l

/-- `if (autoCompute_) { computeCopXDynamicVec(); computeCopYDynamicVec(); }`. -/
def Lip.refreshCop (l : Lip K) : Res (Lip K) :=
  if l.auto then do
    let l ← l.computeCopX
    l.computeCopY
  else pure l

/-- Constructors, `/repo/src/model/lip_model.cpp:17-67`: the default one is `make 1 1 true`. Without
`autoCompute` the member `nbFeedbackInOneSample_` is not initialised by the code; it is zero here, as
are the sizes of the vectors, so that the indexed getters fail. Gravity is
`Constant::GRAVITY_VECTOR`, `/repo/mpc-walkgen/constant.h:33-35`. -/
def Lip.make [FloorRing K] (N : ℕ) (T : K) (auto : Bool) : Res (Lip K) :=
  Lip.refresh
    { auto := auto, N := N, T := T, fb := T, nbFb := 0, x := ⟨0, 0, 0⟩, y := ⟨0, 0, 0⟩
      z := ⟨1, 0, 0⟩, comHeight := 1, gx := 0, gy := 0, gz := GRAVITY_NORM, mass := 1, totalMass := 1
      copX := ⟨0, fun _ => .empty⟩, copY := ⟨0, fun _ => .empty⟩, pos := ⟨0, fun _ => .empty⟩
      vel := ⟨0, fun _ => .empty⟩, acc := ⟨0, fun _ => .empty⟩, jerk := .empty }

/-- `setNbSamples`, `/repo/src/model/lip_model.cpp:163-174`. -/
def Lip.setNbSamples [FloorRing K] (l : Lip K) (n : ℕ) : Res (Lip K) := do
  require (0 < n)
  Lip.refresh { l with N := n }

/-- `setSamplingPeriod`, `/repo/src/model/lip_model.cpp:194-206`. -/
def Lip.setSamplingPeriod [FloorRing K] (l : Lip K) (T : K) : Res (Lip K) := do
  require (0 < T)
  Lip.refresh { l with T := T, fb := T }

/-- `setFeedbackPeriod`, `/repo/src/model/lip_model.cpp:266-276`. -/
def Lip.setFeedbackPeriod [FloorRing K] (l : Lip K) (fb : K) : Res (Lip K) := do
  require (0 ≤ fb)
  Lip.refresh { l with fb := fb }

/-- `setComHeight`, `/repo/src/model/lip_model.cpp:208-221`. -/
def Lip.setComHeight (l : Lip K) (h : K) : Res (Lip K) :=
  Lip.refreshCop { l with comHeight := h, z := { l.z with p := h } }

/-- `setGravity`, `/repo/src/model/lip_model.cpp:223-236`: the assertion reads the old gravity. -/
def Lip.setGravity (l : Lip K) (gx gy gz : K) : Res (Lip K) := do
  require (EPS < |l.gz|)
  Lip.refreshCop { l with gx := gx, gy := gy, gz := gz }

/-- `setMass`, `/repo/src/model/lip_model.cpp:238-250`. -/
def Lip.setMass (l : Lip K) (m : K) : Res (Lip K) :=
  Lip.refreshCop { l with mass := m }

/-- `setTotalMass`, `/repo/src/model/lip_model.cpp:252-264`. -/
def Lip.setTotalMass (l : Lip K) (m : K) : Res (Lip K) := do
  require (l.mass ≤ m)
  Lip.refreshCop { l with totalMass := m }

/-- `setStateX`, `/repo/mpc-walkgen/model/lip_model.h:116-121`. -/
def Lip.setStateX (l : Lip K) (v : Vec K) : Res (Lip K) := do
  require (v.size = 3)
  pure { l with x := ⟨v.get 0, v.get 1, v.get 2⟩ }

/-- `setStateY`, `/repo/mpc-walkgen/model/lip_model.h:130-135`. -/
def Lip.setStateY (l : Lip K) (v : Vec K) : Res (Lip K) := do
  require (v.size = 3)
  pure { l with y := ⟨v.get 0, v.get 1, v.get 2⟩ }

/-- `updateStateX`, `/repo/src/model/lip_model.cpp:176-180`. -/
def Lip.updateStateX (l : Lip K) (jerk fb : K) : Res (Lip K) := do
  let x ← updateState jerk fb l.x
  pure { l with x := x }

/-- `updateStateY`, `/repo/src/model/lip_model.cpp:182-186`. -/
def Lip.updateStateY (l : Lip K) (jerk fb : K) : Res (Lip K) := do
  let y ← updateState jerk fb l.y
  pure { l with y := y }

/-- Calls of the public interface (`/repo/mpc-walkgen/model/lip_model.h:36-212`) that change the state. -/
inductive LipCall (K : Type)
  | setNbSamples (n : ℕ)
  | setSamplingPeriod (T : K)
  | setFeedbackPeriod (fb : K)
  | setComHeight (h : K)
  | setGravity (gx gy gz : K)
  | setMass (m : K)
  | setTotalMass (m : K)
  | setStateX (v : Vec K)
  | setStateY (v : Vec K)
  | updateStateX (jerk fb : K)
  | updateStateY (jerk fb : K)

/-- One call. -/
def Lip.step [FloorRing K] (l : Lip K) : LipCall K → Res (Lip K)
  | .setNbSamples n => l.setNbSamples n
  | .setSamplingPeriod T => l.setSamplingPeriod T
  | .setFeedbackPeriod fb => l.setFeedbackPeriod fb
  | .setComHeight h => l.setComHeight h
  | .setGravity gx gy gz => l.setGravity gx gy gz
  | .setMass m => l.setMass m
  | .setTotalMass m => l.setTotalMass m
  | .setStateX v => l.setStateX v
  | .setStateY v => l.setStateY v
  | .updateStateX j fb => l.updateStateX j fb
  | .updateStateY j fb => l.updateStateY j fb

/-- A sequence of calls; stops at the first fault. -/
def Lip.run [FloorRing K] : Lip K → List (LipCall K) → Res (Lip K)
  | l, [] => .ok l
  | l, c :: cs => do
    let l' ← l.step c
    l'.run cs

/-- The indexed getters, `/repo/mpc-walkgen/model/lip_model.h:76-110`. -/
def Lip.dyn (l : Lip K) (v : Vec (LinearDynamic K)) (i : ℤ) : Res (LinearDynamic K) := do
  require (i < l.nbFb)
  requireIndex (0 ≤ i)
  v.at? i.toNat

end MPC
