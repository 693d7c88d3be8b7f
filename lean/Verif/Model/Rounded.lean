import Verif.Model.Supervisor
import Mathlib.Data.Int.Log
import Mathlib.Data.Rat.Floor
/-!
# The clocks of `HumanoidFeetSupervisor` with rounding: `/repo/src/humanoid_feet_supervisor.cpp`

`Scalar` is `float` or `double`, so that each operation on a timer is rounded, and the constant `EPSILON` as well,
`/repo/mpc-walkgen/constant.h:28`. The definitions below are those of `Verif.Model.Supervisor` with a rounding after each
operation on times. The coordinates of feet and footsteps, which do not influence the clocks, are left as they are.
-/
namespace MPC
variable {K : Type} [Field K] [LinearOrder K]

/-- Rounding of the results of operations, and the stored `EPSILON`. -/
structure Clock (K : Type) where
  rnd : K → K
  eps : K

/-- Exact arithmetic. -/
def Clock.exact : Clock K := ⟨fun x => x, EPS⟩

/-- `while (t > T + EPSILON) t -= T`, lines 451-456 and 835-840. -/
noncomputable def timeToSampleR (c : Clock K) (T t : K) : Res K :=
  whileLoop (fun t => c.rnd (T + c.eps) < t) (fun t => .ok (c.rnd (t - T))) t

/-- `getNbOfCallsBeforeNextSample`, lines 448-459. -/
noncomputable def Sup.nbCallsR [FloorRing K] (c : Clock K) (s : Sup K) : Res ℤ := do
  let t ← timeToSampleR c s.T s.ttnp
  if s.fb = 0 then .error .unspecified else pure (truncInt (c.rnd (c.rnd (t + c.eps) / s.fb)))

/-- `nbFeedbackInOneSample_`, computed by `LIPModel::computeDynamics`, `/repo/src/model/lip_model.cpp:74-75`: number of
dynamics in the tables of the LIP model. -/
def lipCountR [FloorRing K] (c : Clock K) (T fb : K) : Res ℤ :=
  if fb = 0 then .error .unspecified else pure (truncInt (c.rnd (c.rnd (T + c.eps) / fb)))

/-- Lines 503-522: when the current phase is over, the next phase is previewed. -/
def TLState.nextPhaseR (c : Clock K) (l : TLState K) : Res (TLState K) :=
  if l.phaseTimer < c.eps then do
    let last ← listAt l.sup.timeline l.idx
    let ph := l.sup.nextPhase last
    let tl := if l.idx + 1 = l.sup.timeline.length then l.sup.timeline ++ [ph]
      else l.sup.timeline.set (l.idx + 1) ph
    pure { l with
      sup := { l.sup with timeline := tl, M := if last.type = .DS then l.sup.M else l.sup.M + 1 },
      phaseTimer := ph.duration, idx := l.idx + 1 }
  else pure l

/-- One iteration of the main loop, lines 501-539. -/
noncomputable def TLState.bodyR (c : Clock K) (l : TLState K) : Res (TLState K) := do
  let l ← l.nextPhaseR c
  let var ← l.sup.enlargeLoop l.var
  let var ← l.sup.trim var
  pure { l with var := var, phaseTimer := c.rnd (l.phaseTimer - l.sup.T), horizon := c.rnd (l.horizon - l.sup.T) }

/-- Lines 481-492: the current phase is over. -/
def Sup.popPhaseR (c : Clock K) (s : Sup K) (var : Vec K) : Res (Sup K × Vec K) :=
  if s.ttnp < c.eps then do
    let ds ← s.isInDS
    let var ← if ds then pure var else s.shorten var
    let f ← listAt s.timeline.tail 0
    pure ({ s with timeline := s.timeline.tail, ttnp := f.duration }, var)
  else pure (s, var)

/-- `computeSampleWeightMatrix`, lines 832-849. -/
noncomputable def Sup.sampleWeightR (c : Clock K) (s : Sup K) : Res (Mat K) := do
  let t ← timeToSampleR c s.T s.ttnp
  if s.T = 0 then .error .unspecified else do
    let w ← (Mat.one s.N).set? 0 0 (c.rnd (t / s.T))
    requireIndex (0 < s.N)
    w.set? (s.N - 1) (s.N - 1) (c.rnd (c.rnd (105 / 100) - (← w.at? 0 0)))

/-- Body of the first loop of `computeSelectionMatrix`, lines 862-867. -/
def Sup.selFirstR (c : Clock K) (s : Sup K) (l : SelState K) : Res (SelState K) := do
  let V0 ← l.V0.set? l.row 0 1
  pure { l with V0 := V0, phaseTimer := c.rnd (l.phaseTimer - s.T), row := l.row + 1 }

/-- Body of the inner loop of `computeSelectionMatrix`, lines 878-896. -/
def Sup.selInnerR (c : Clock K) (s : Sup K) (l : SelState K) : Res (SelState K) := do
  let ds ← s.isInDS
  let l ← if ds ∧ (l.phase = 1 ∨ s.move = false) then do
      pure { l with V0 := ← l.V0.set? l.row 0 1 }
    else do
      pure { l with V := ← l.V.set? l.row l.col 1 }
  let idx ← l.phaseIdx.set? l.row l.phase
  pure { l with phaseIdx := idx, row := l.row + 1, phaseTimer := c.rnd (l.phaseTimer - s.T),
                horizon := c.rnd (l.horizon - s.T) }

/-- Body of the outer loop of `computeSelectionMatrix`, lines 874-904. -/
noncomputable def Sup.selOuterR (c : Clock K) (s : Sup K) (l : SelState K) : Res (SelState K) := do
  let ph ← listAt s.timeline l.phase
  let l ← whileLoop (fun l => c.eps < l.phaseTimer ∧ l.row < s.N) (s.selInnerR c)
    { l with phaseTimer := ph.duration }
  let ds ← s.isInDS
  pure { l with
    col := if s.move = true ∧ (ds = false ∨ 1 < l.phase) then l.col + 1 else l.col,
    phase := l.phase + 1 }

/-- `computeSelectionMatrix` and `computeFeetPosDynamic`, lines 851-923. -/
noncomputable def Sup.selectionR (c : Clock K) (s : Sup K) : Res (Sup K) := do
  require (0 < s.N)
  let l : SelState K := ⟨Mat.zero s.N 1, Mat.zero s.N s.M, Vec.const s.N 0, 0, 0, 1, s.ttnp, 0⟩
  let l ← whileLoop (fun l => c.rnd (s.T + c.eps) < l.phaseTimer ∧ l.row < s.N) (s.selFirstR c) l
  let l ← whileLoop (fun l => -c.eps < l.horizon) (s.selOuterR c)
    { l with horizon := c.rnd (c.rnd (s.N * s.T) - s.ttnp) }
  pure { s with V0 := l.V0, V := l.V, VT := l.V.transpose, phaseIdx := l.phaseIdx }

/-- `updateTimeline`, lines 472-550. -/
noncomputable def Sup.updateTimelineR (c : Clock K) (s : Sup K) (var : Vec K) (fb : K) :
    Res (Sup K × Vec K) := do
  require (0 < s.timeline.length)
  require (2 * s.N ≤ var.size)
  let s := { s with fb := fb }
  let (s, var) ← s.popPhaseR c var
  let l ← whileLoop (fun l : TLState K => -c.eps < l.horizon) (TLState.bodyR c)
    ⟨{ s with M := 0 }, 0, s.ttnp, c.rnd (s.N * s.T), var⟩
  let s := { l.sup with timeline := l.sup.timeline.take (l.idx + 1) }
  let sv ← l.var.segment? (2 * s.N) (l.var.size - 2 * s.N)
  let s := { s with stepVec := sv }
  let w ← s.sampleWeightR c
  let s := { s with weight := w }
  let s ← s.selectionR c
  pure (s, l.var)

/-- Update of the flying foot in `updateFeetStates`, lines 581-601. -/
def Foot.flyR (c : Clock K) (f : Foot K) (tx ty flyingTime ttnp fb : K) : Res (Foot K) := do
  let x ← interpolateTrajectory f.x ⟨tx, 0, 0⟩ ttnp fb
  let y ← interpolateTrajectory f.y ⟨ty, 0, 0⟩ ttnp fb
  let z ← if ttnp < c.rnd (c.rnd (flyingTime / 2) + c.eps) then interpolateTrajectory f.z ⟨0, 0, 0⟩ ttnp fb
    else interpolateTrajectory f.z ⟨f.maxHeight, 0, 0⟩ (c.rnd (ttnp - c.rnd (flyingTime / 2))) fb
  pure { f with x := x, y := y, z := z }

/-- `updateFeetStates`, lines 552-606. -/
def Sup.updateFeetStatesR (c : Clock K) (s : Sup K) (stepVec : Vec K) (fb : K) : Res (Sup K) := do
  let s := { s with stepVec := stepVec }
  let f ← listAt s.timeline 0
  let flyingTime := c.rnd (f.duration - s.T)
  let ds ← s.isInDS
  let s ← if ds = false ∧ s.ttnp < c.rnd (flyingTime + c.eps) then do
      match f.type with
      | .leftSS => do
        let foot ← s.right.flyR c (← stepVec.at? 0) (← stepVec.at? s.M) flyingTime s.ttnp fb
        pure { s with right := foot }
      | .rightSS => do
        let foot ← s.left.flyR c (← stepVec.at? 0) (← stepVec.at? s.M) flyingTime s.ttnp fb
        pure { s with left := foot }
      | .DS => .error .aborted
    else pure s
  pure { s with ttnp := c.rnd (s.ttnp - fb) }

/-! ### Binary floating point -/

/-- `x` rounded to a multiple of `ulp`, ties to even. -/
def roundEven (x ulp : ℚ) : ℚ :=
  let q := x / ulp
  let r := ⌊q⌋
  if q - r < 1 / 2 then r * ulp
  else if q - r > 1 / 2 then (r + 1) * ulp
  else if r % 2 = 0 then r * ulp else (r + 1) * ulp

/-- Rounding to `p` significant bits, ties to even (IEEE 754 without overflow and subnormal numbers): `p = 24` is `float`,
`p = 53` is `double`. -/
def fl (p : ℕ) (x : ℚ) : ℚ :=
  if x = 0 then 0 else roundEven x ((2 : ℚ) ^ (Int.log 2 |x| - p + 1))

/-- The clock of a `float` or `double` supervisor. -/
def flClock (p : ℕ) : Clock ℚ := ⟨fl p, fl p EPS⟩

end MPC
