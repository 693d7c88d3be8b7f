import Verif.Spec.Humanoid
import Verif.Spec.HumSafe

/-! # The configuration of the humanoid generator -/

namespace MPC.Spec

variable {K : Type} [Field K] [LinearOrder K]

/-- What a user sets for a foot. -/
structure FootSettings (K : Type) where
  x : State3 K
  y : State3 K
  z : State3 K
  maxHeight : K
  kin : Polygon K
  cop : Polygon K

/-- What a user sets before a walk. -/
structure HumSettings (K : Type) where
  nbSamples : ℕ
  period : K
  stepPeriod : K
  dsPeriod : K
  left : FootSettings K
  right : FootSettings K
  comX : State3 K
  comY : State3 K
  height : K
  velRef : Vec K
  weighting : HWeighting K
  withCop : Bool
  withFeet : Bool

/-- A foot at the origin, without polygons. -/
def FootSettings.default : FootSettings K :=
  ⟨⟨0, 0, 0⟩, ⟨0, 0, 0⟩, ⟨0, 0, 0⟩, 0, Polygon.none, Polygon.none⟩

/-- The settings of a new generator: one sample of one second, phases of two seconds. -/
def HumSettings.default : HumSettings K :=
  { nbSamples := 1, period := 1, stepPeriod := 2, dsPeriod := 2, left := .default, right := .default
    comX := ⟨0, 0, 0⟩, comY := ⟨0, 0, 0⟩, height := 1, velRef := ⟨2, fun _ => 0⟩, weighting := ⟨0, 0, 0⟩
    withCop := false, withFeet := false }

/-- Changes a foot. -/
def HumSettings.foot (s : HumSettings K) (left : Bool) (f : FootSettings K → FootSettings K) : HumSettings K :=
  if left then { s with left := f s.left } else { s with right := f s.right }

/-- The three components of a vector. -/
def hStateOf (v : Vec K) : State3 K := ⟨v.get 0, v.get 1, v.get 2⟩

/-- Every setter replaces one value; the last value counts. -/
def HumSettings.set (s : HumSettings K) : HCall K → HumSettings K
  | .setNbSamples n => { s with nbSamples := n }
  | .setSamplingPeriod T => { s with period := T }
  | .setStepPeriod p => { s with stepPeriod := p }
  | .setInitialDoubleSupportLength p => { s with dsPeriod := p }
  | .setKin left g => s.foot left fun f => { f with kin := g }
  | .setCop left g => s.foot left fun f => { f with cop := g }
  | .setVelRef v => { s with velRef := v }
  | .setAngularVelRef _ => s
  | .setFootState left .x v => s.foot left fun f => { f with x := hStateOf v }
  | .setFootState left .y v => s.foot left fun f => { f with y := hStateOf v }
  | .setFootState left .z v => s.foot left fun f => { f with z := hStateOf v }
  | .setComState .x v => { s with comX := hStateOf v }
  | .setComState .y v => { s with comY := hStateOf v }
  | .setComState .z v => { s with height := v.get 0 }
  | .setMaxHeight left h => s.foot left fun f => { f with maxHeight := h }
  | .setWeightings w => { s with weighting := w }
  | .setConfig a b => { s with withCop := a, withFeet := b }
  | .setMove _ => s
  | .solve _ => s

/-- The settings after the calls `cs`. -/
def humSettingsOf (cs : List (HCall K)) : HumSettings K := cs.foldl HumSettings.set .default

/-- The call is one of the configuration: neither `solve` nor `setMove`. -/
def IsSetting : HCall K → Prop
  | .setMove _ => False
  | .solve _ => False
  | _ => True

/-- The call passes the assertions of the code. -/
def HumSettings.Accepts (s : HumSettings K) : HCall K → Prop
  | .setNbSamples n => 0 < n
  | .setSamplingPeriod T => 0 < T
  | .setStepPeriod p => 0 < p ∧ s.period < p + EPS
  | .setInitialDoubleSupportLength p => s.dsPeriod - EPS ≤ p ∨ -EPS < p
  | .setVelRef v => v.size = 2 * s.nbSamples
  | .setAngularVelRef v => v.size = s.nbSamples
  | .setFootState _ _ v => v.size = 3
  | .setComState .z v => v.size = 3 ∧ v.get 1 = 0 ∧ v.get 2 = 0
  | .setComState _ v => v.size = 3
  | .setWeightings _ => 0 ≤ s.weighting.velocityTracking ∧ 0 ≤ s.weighting.copCentering ∧
      0 ≤ s.weighting.jerkMinimization
  | .setKin _ _ | .setCop _ _ | .setMaxHeight _ _ | .setConfig _ _ => True
  | .setMove _ => False
  | .solve _ => False

/-- The calls pass the assertions, one after the other. -/
def HumSettings.AcceptsAll : HumSettings K → List (HCall K) → Prop
  | _, [] => True
  | s, c :: cs => s.Accepts c ∧ (s.set c).AcceptsAll cs

/-- The largest number of rows of a problem with these settings: at each sample, the edges of the CoP polygons of both
feet, and those of a kinematic polygon. -/
def HumSettings.rows (s : HumSettings K) : ℕ :=
  (if s.withCop then (s.left.cop.vertices.size + s.right.cop.vertices.size) * s.nbSamples else 0) +
    if s.withFeet then max s.left.kin.vertices.size s.right.kin.vertices.size * s.nbSamples else 0

/-- The call makes new tables of problems. -/
def MakesTables : HCall K → Prop
  | .setNbSamples _ => True
  | .setConfig _ _ => True
  | _ => False

/-- The call changes the polygon of a foot. -/
def SetsPolygon : HCall K → Prop
  | .setKin _ _ => True
  | .setCop _ _ => True
  | _ => False

/-- The settings allow to walk with the feedback period `fb`: times on the grid of `fb`, a reference of the size of the
horizon, invertible CoP dynamics, polygons. -/
structure HumSettings.Walkable (s : HumSettings K) (fb : K) : Prop where
  pos : EPS < fb
  period : ∃ n : ℕ, 0 < n ∧ s.period = n * fb
  stepPeriod : ∃ n : ℕ, 0 < n ∧ s.stepPeriod = n * fb
  dsPeriod : ∃ n : ℕ, 0 < n ∧ s.dsPeriod = n * fb
  horizon : s.stepPeriod ≤ s.nbSamples * s.period
  update : s.period = fb ∨ EPS < |fb - s.period|
  ref : 0 < s.weighting.velocityTracking → s.velRef.size = 2 * s.nbSamples
  regular : ∀ c : ℕ, 1 ≤ c → c * fb ≤ s.period → (c * fb) ^ 2 * GRAVITY_NORM ≠ 6 * s.height
  kin : 0 < s.left.kin.vertices.size ∧ 0 < s.right.kin.vertices.size
  copFits : s.withCop = true → s.left.cop.Complete ∧ s.right.cop.Complete
  kinFits : s.withFeet = true → s.left.kin.Complete ∧ s.right.kin.Complete

/-- The foot of the generator holds the settings. -/
structure FootHolds (s : FootSettings K) (f : Foot K) : Prop where
  x : f.x.state = s.x
  y : f.y.state = s.y
  z : f.z.state = s.z
  maxHeight : f.maxHeight = s.maxHeight
  kin : f.kin = s.kin
  cop : f.cop = s.cop

/-- The generator holds the settings; it stands still at the start of its initial double support, with an empty plan. -/
structure HumHolds (s : HumSettings K) (w : HWalkgen K) : Prop where
  supN : w.sup.N = s.nbSamples
  lipN : w.lip.N = s.nbSamples
  supT : w.sup.T = s.period
  lipT : w.lip.T = s.period
  stepPeriod : w.sup.stepPeriod = s.stepPeriod
  dsPeriod : w.sup.dsPeriod = s.dsPeriod
  left : FootHolds s.left w.sup.left
  right : FootHolds s.right w.sup.right
  comX : w.lip.x = s.comX
  comY : w.lip.y = s.comY
  height : w.lip.comHeight = s.height
  velRef : w.velRef = s.velRef
  weighting : w.weighting = s.weighting
  withCop : w.withCop = s.withCop
  withFeet : w.withFeet = s.withFeet
  timeline : w.sup.timeline = [⟨.DS, s.dsPeriod⟩]
  ttnp : w.sup.ttnp = s.dsPeriod
  still : w.sup.move = false ∧ w.sup.M = 0 ∧ w.first = true
  plan : w.X.size = 2 * s.nbSamples ∧ ∀ i < 2 * s.nbSamples, w.X.get i = 0

end MPC.Spec
