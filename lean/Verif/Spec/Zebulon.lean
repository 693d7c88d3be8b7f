import Verif.Model.Zebulon
import Verif.Spec.Motion
import Verif.Spec.QP
import Verif.Spec.Polygon

/-!
# What a user of `ZebulonWalkgen` expects

Written in terms of the calls made and of the motion `Spec.jerkTrajectory`, without the matrices of
the code.
-/

namespace MPC.Spec

open Finset

variable {K : Type} [Field K] [LinearOrder K]

/-- What the user configured. -/
structure ZebSettings (K : Type) where
  nbSamples : ℕ
  period : K
  gx : K
  gy : K
  gz : K
  copPolygon : Vec (Pt K)
  comPolygon : Vec (Pt K)
  bodyHeight : K
  baseHeight : K
  bodyMass : K
  baseMass : K
  velRef : Vec K
  posRef : Vec K
  copRef : Vec K
  comRef : Vec K
  velLimit : K
  accLimit : K
  jerkLimit : K
  roll : State3 K
  pitch : State3 K
  yaw : State3 K
  contactX : K
  contactY : K
  weighting : ZWeighting K
  config : ZConfig

/-- The defaults of the constructors. `cx`, `cy` stand for the tilt contact point, to which the default
constructor of `BaseModel` gives no value. -/
def ZebSettings.init (cx cy : K) : ZebSettings K :=
  { nbSamples := 1, period := 1, gx := 0, gy := 0, gz := GRAVITY_NORM
    copPolygon := ⟨0, fun _ => ⟨0, 0⟩⟩, comPolygon := ⟨0, fun _ => ⟨0, 0⟩⟩, bodyHeight := 1, baseHeight := 0
    bodyMass := 1, baseMass := 0, velRef := Vec.const 2 0, posRef := Vec.const 2 0, copRef := Vec.const 2 0
    comRef := Vec.const 2 0, velLimit := 1, accLimit := 1, jerkLimit := 1, roll := ⟨0, 0, 0⟩
    pitch := ⟨0, 0, 0⟩, yaw := ⟨0, 0, 0⟩, contactX := cx, contactY := cy, weighting := ⟨0, 0, 0, 0, 0, 0, 0⟩
    config := ⟨false, false, false, false⟩ }

/-- The CoP reference relative to the base stored for a reference motion: for each coordinate
`(Σ mᵢ (gz xᵢ - hᵢ xᵢ'') + (Σ mᵢ hᵢ) g) / ((Σ mᵢ) gz) - base`, where `g` is the horizontal gravity along that
coordinate (entries below `nbSamples`: X, others: Y). -/
def ZebSettings.copRefOf (s : ZebSettings K) (comPos comAcc basePos baseAcc : Vec K) : Vec K :=
  ⟨2 * s.nbSamples, fun i =>
    ((s.baseMass + s.bodyMass) * s.gz)⁻¹ *
      (s.baseMass * s.gz * basePos.get i - s.baseMass * s.baseHeight * baseAcc.get i
        + s.bodyMass * s.gz * comPos.get i - s.bodyMass * s.bodyHeight * comAcc.get i
        + (s.baseMass * s.baseHeight + s.bodyMass * s.bodyHeight)
            * (if i < s.nbSamples then s.gx else s.gy))
      - basePos.get i⟩

/-- State given to a state setter. -/
def stateOf (v : Vec K) : State3 K := ⟨v.get 0, v.get 1, v.get 2⟩

/-- Effect of a call on the settings. `setNbSamples` clears the CoM reference. -/
def ZebSettings.apply (s : ZebSettings K) : ZebCall K → ZebSettings K
  | .setNbSamples n => { s with nbSamples := n, comRef := Vec.const (2 * n) 0 }
  | .setSamplingPeriod T => { s with period := T }
  | .setGravity gx gy gz => { s with gx := gx, gy := gy, gz := gz }
  | .setCopPolygon p => { s with copPolygon := p }
  | .setComPolygon p => { s with comPolygon := p }
  | .setBodyHeight h => { s with bodyHeight := h }
  | .setBaseHeight h => { s with baseHeight := h }
  | .setBodyMass m => { s with bodyMass := m }
  | .setBaseMass m => { s with baseMass := m }
  | .setVelRef v => { s with velRef := v }
  | .setPosRef v => { s with posRef := v }
  | .setCopRef v => { s with copRef := v }
  | .setComRef v => { s with comRef := v }
  | .setComAndCopRef a b c d =>
    { s with comRef := ⟨2 * s.nbSamples, fun i => a.get i - c.get i⟩, copRef := s.copRefOf a b c d }
  | .setVelLimit l => { s with velLimit := l }
  | .setAccLimit l => { s with accLimit := l }
  | .setJerkLimit l => { s with jerkLimit := l }
  | .setBaseX _ => s
  | .setBaseY _ => s
  | .setRoll v => { s with roll := stateOf v }
  | .setPitch v => { s with pitch := stateOf v }
  | .setYaw v => { s with yaw := stateOf v }
  | .setComX _ => s
  | .setComY _ => s
  | .setContactX p => { s with contactX := p }
  | .setContactY p => { s with contactY := p }
  | .setWeightings w => { s with weighting := w }
  | .setConfig c => { s with config := c }
  | .solve _ => s

/-- Settings after a history of calls. -/
def ZebSettings.after (s : ZebSettings K) (cs : List (ZebCall K)) : ZebSettings K :=
  cs.foldl ZebSettings.apply s

/-- `2/T²`, the diagonal of the inverse of the matrix angular acceleration to angle, unless it is below
the precision `EPS` of that inverse. -/
def tiltGain (T : K) : K := if 2 / T ^ 2 < EPS then 0 else 2 / T ^ 2

/-- The tilt equation can be solved: `g (mh + ML) ≠ (mh² + ML²) 2/T²`. -/
def ZebSettings.TiltRegular (s : ZebSettings K) : Prop :=
  GRAVITY_NORM * (s.bodyMass * s.bodyHeight + s.baseMass * s.baseHeight)
    ≠ (s.bodyMass * s.bodyHeight ^ 2 + s.baseMass * s.baseHeight ^ 2) * tiltGain s.period

/-- Preconditions of a call: the assertions on its own arguments, a tilt equation that can be solved for
the new parameters, and for masses the order in which the code updates total and partial masses. -/
def ZebSettings.Pre (s : ZebSettings K) : ZebCall K → Prop
  | .setNbSamples n => 0 < n ∧ s.TiltRegular
  | .setSamplingPeriod T => 0 < T ∧ ({ s with period := T } : ZebSettings K).TiltRegular
  | .setGravity _ _ gz => EPS < |gz|
  | .setCopPolygon p => 3 ≤ p.size
  | .setComPolygon p => 3 ≤ p.size
  | .setBodyHeight h => ({ s with bodyHeight := h } : ZebSettings K).TiltRegular
  | .setBaseHeight _ => True
  | .setBodyMass m => 0 ≤ m ∧ EPS < m + s.baseMass ∧ s.bodyMass ≤ m + s.baseMass ∧
      ({ s with bodyMass := m } : ZebSettings K).TiltRegular
  | .setBaseMass m => 0 < m ∧ EPS < s.bodyMass + m ∧ s.baseMass ≤ s.bodyMass + m ∧
      ({ s with baseMass := m } : ZebSettings K).TiltRegular
  | .setVelRef v => v.size = 2 * s.nbSamples
  | .setPosRef v => v.size = 2 * s.nbSamples
  | .setCopRef v => v.size = 2 * s.nbSamples
  | .setComRef v => v.size = 2 * s.nbSamples
  | .setComAndCopRef a b c d => a.size = 2 * s.nbSamples ∧ b.size = 2 * s.nbSamples ∧
      c.size = 2 * s.nbSamples ∧ d.size = 2 * s.nbSamples ∧
      1 / 1000000 < |(s.baseMass + s.bodyMass) * s.gz|
  | .setVelLimit l => 0 ≤ l
  | .setAccLimit l => 0 ≤ l
  | .setJerkLimit l => 0 ≤ l
  | .setBaseX v => v.size = 3
  | .setBaseY v => v.size = 3
  | .setRoll v => v.size = 3
  | .setPitch v => v.size = 3
  | .setYaw v => v.size = 3
  | .setComX v => v.size = 3
  | .setComY v => v.size = 3
  | .setContactX _ => True
  | .setContactY _ => True
  | .setWeightings w => 0 ≤ w.copCentering ∧ 0 ≤ w.comCentering ∧ 0 ≤ w.velocityTracking ∧
      0 ≤ w.jerkMinimization ∧ 0 ≤ w.tiltMinimization
  | .setConfig _ => True
  | .solve fb => 0 < fb

/-- Every call of the history meets its preconditions. -/
def ZebSettings.Legal : ZebSettings K → List (ZebCall K) → Prop
  | _, [] => True
  | s, c :: cs => s.Pre c ∧ ZebSettings.Legal (s.apply c) cs

/-- The references were given for the current number of samples. -/
def ZebSettings.RefsCurrent (s : ZebSettings K) : Prop :=
  s.velRef.size = 2 * s.nbSamples ∧ s.posRef.size = 2 * s.nbSamples ∧ s.copRef.size = 2 * s.nbSamples

/-- At each `solve` of the history the references are current. -/
def ZebSettings.RefsCurrentAtSolves : ZebSettings K → List (ZebCall K) → Prop
  | _, [] => True
  | s, c :: cs => (∀ fb, c = .solve fb → s.RefsCurrent) ∧
      ZebSettings.RefsCurrentAtSolves (s.apply c) cs

/-- Base height used by the tilt objectives after a call, where `h` was in use before: the calls that refresh
the tilt objectives take the current base height. -/
def ZebSettings.nextTiltHeight (s : ZebSettings K) (h : K) : ZebCall K → K
  | .setNbSamples _ => s.baseHeight
  | .setSamplingPeriod _ => s.baseHeight
  | .setBodyHeight _ => s.baseHeight
  | .setBodyMass _ => s.baseHeight
  | .setBaseMass _ => s.baseHeight
  | _ => h

/-- Base height used by the tilt objectives after a history that started with `h` in use and with
settings `s`: that of the last call that refreshes them. -/
def ZebSettings.tiltHeight : ZebSettings K → K → List (ZebCall K) → K
  | _, h, [] => h
  | s, h, c :: cs => ZebSettings.tiltHeight (s.apply c) (s.nextTiltHeight h c) cs

/-- The shift due to horizontal gravity: `(Σ mᵢ hᵢ)/(Σ mᵢ) · g/gz`. -/
def ZebSettings.gravityShift (s : ZebSettings K) (g : K) : K :=
  (s.bodyMass * s.bodyHeight + s.baseMass * s.baseHeight) / (s.baseMass + s.bodyMass) * g / s.gz

/-- Shift used by CoM centering after a call, where `k` was in use before. -/
def ZebSettings.nextShift (s : ZebSettings K) (k : K × K) (c : ZebCall K) : K × K :=
  let s' := s.apply c
  match c with
  | .setNbSamples _ => (0, 0)
  | .setGravity _ _ _ => (s'.gravityShift s'.gx, s'.gravityShift s'.gy)
  | .setBodyHeight _ => (s'.gravityShift s'.gx, s'.gravityShift s'.gy)
  | .setBaseHeight _ => (s'.gravityShift s'.gx, s'.gravityShift s'.gy)
  | .setBodyMass _ => (s'.gravityShift s'.gx, s'.gravityShift s'.gy)
  | .setBaseMass _ => (s'.gravityShift s'.gx, s'.gravityShift s'.gy)
  | _ => k

/-- Shift used by CoM centering after a history that started with `k` in use and with settings `s`. -/
def ZebSettings.usedShift : ZebSettings K → K × K → List (ZebCall K) → K × K
  | _, k, [] => k
  | s, k, c :: cs => ZebSettings.usedShift (s.apply c) (s.nextShift k c) cs

/-- Length of the first sampling interval of the CoM prediction: the code uses the last of the
`⌊(T+ε)/T⌋` feedback instants of one sample. -/
def comFirst [FloorRing K] (T : K) : K := (⌊(T + EPS) / T⌋ : K) * T

/-- The unknowns: jerks of the CoM along X and Y, of the base along X and Y. -/
def jerkCX (_N : ℕ) (X : ℕ → K) (i : ℕ) : K := X i
def jerkCY (N : ℕ) (X : ℕ → K) (i : ℕ) : K := X (N + i)
def jerkBX (N : ℕ) (X : ℕ → K) (i : ℕ) : K := X (2 * N + i)
def jerkBY (N : ℕ) (X : ℕ → K) (i : ℕ) : K := X (3 * N + i)

/-- States of CoM and base along X and Y. -/
structure ZebState (K : Type) where
  cx : State3 K
  cy : State3 K
  bx : State3 K
  by_ : State3 K

section
variable [FloorRing K]

/-- Predicted states at sample `i`. -/
def ZebSettings.comX (s : ZebSettings K) (z : ZebState K) (X : ℕ → K) (i : ℕ) : State3 K :=
  jerkTrajectory (comFirst s.period) s.period z.cx (jerkCX s.nbSamples X) i
def ZebSettings.comY (s : ZebSettings K) (z : ZebState K) (X : ℕ → K) (i : ℕ) : State3 K :=
  jerkTrajectory (comFirst s.period) s.period z.cy (jerkCY s.nbSamples X) i
end

def ZebSettings.baseX (s : ZebSettings K) (z : ZebState K) (X : ℕ → K) (i : ℕ) : State3 K :=
  jerkTrajectory s.period s.period z.bx (jerkBX s.nbSamples X) i
def ZebSettings.baseY (s : ZebSettings K) (z : ZebState K) (X : ℕ → K) (i : ℕ) : State3 K :=
  jerkTrajectory s.period s.period z.by_ (jerkBY s.nbSamples X) i

/-- CoP of the two masses along a coordinate with horizontal gravity `g`, from the states of CoM and
base. -/
def ZebSettings.cop (s : ZebSettings K) (g : K) (com base : State3 K) : K :=
  copOf (s.bodyMass / (s.bodyMass + s.baseMass)) s.bodyHeight g s.gz com
    + copOf (s.baseMass / (s.bodyMass + s.baseMass)) s.baseHeight g s.gz base

/-- The CoP that the generator predicts: a base whose mass does not exceed `EPS` counts as massless. -/
def ZebSettings.predictedCop (s : ZebSettings K) (g : K) (com base : State3 K) : K :=
  copOf (s.bodyMass / (s.bodyMass + s.baseMass)) s.bodyHeight g s.gz com
    + if EPS < s.baseMass then copOf (s.baseMass / (s.bodyMass + s.baseMass)) s.baseHeight g s.gz base
      else 0

end MPC.Spec
