import Verif.Model.Trajectory
import Verif.Model.Zebulon
import Verif.Model.Hull
/-!
# The example programs, and the hull setters of `ZebulonWalkgen`

`/repo/test/trajectory-walkgen-bin.cpp` and `/repo/test/zebulon-walkgen-bin.cpp`. The times of the loops
(`for(Real t=...; t<...; t+=...)`) are a list given as argument, and so are the floating point literals to which they are
compared: the theorems hold for every way to round them. What the programs write is a list of rows; the headers of the
outputs are omitted.
-/
namespace MPC

section
variable {K : Type} [Field K] [LinearOrder K]

/-! ### `trajectory-walkgen-bin` -/

/-- Settings, `/repo/test/trajectory-walkgen-bin.cpp:47-80`. -/
def trajProgramSetup : List (TrajCall K) :=
  [.setNbSamples 20, .setSamplingPeriod (1 / 10), .setWeightings ⟨1, 0, 1 / 1000000⟩, .setConfig true,
    .setVelRef (Vec.const 20 (2 / 10)), .setPosRef (Vec.const 20 0), .setState (Vec.const 3 0), .setVelLimit 1,
    .setAccLimit 1, .setJerkLimit 10]

/-- A row of `log`, `/repo/test/trajectory-walkgen-bin.cpp:22-31`. -/
structure TrajRow (K : Type) where
  time : K
  state : State3 K
  jerk : K
  refPos : K
  refVel : K

/-- The loop, `/repo/test/trajectory-walkgen-bin.cpp:83-88`. -/
def trajProgramLoop (o : Oracle K) : TrajWalkgen K → List K → Res (List (TrajRow K))
  | _, [] => .ok []
  | w, t :: ts => do
    let (_, w) ← w.solve o (2 / 100)
    let j ← w.getJerk
    let rows ← trajProgramLoop o w ts
    pure (⟨t * 1000, w.getState, j, 0, 0⟩ :: rows)

/-- `main`, `/repo/test/trajectory-walkgen-bin.cpp:33-93`. `argv` includes the name of the program. With another number of
arguments the program prints how to use it and goes on; `std::string(argv[1])` is undefined when there is no argument, since
`argv[1]` is then null. -/
def trajProgram (o : Oracle K) (argv : List String) (ts : List K) : Res (List (TrajRow K)) := do
  if argv.length < 2 then .error .unspecified else do
    let w ← TrajWalkgen.make
    let w ← w.run o trajProgramSetup
    trajProgramLoop o w ts

end

/-! ### The hull setters -/

/-- First two coordinates, `head<2>()`. -/
def head2 (p : Vec (ℝ × ℝ × ℝ)) : Vec (Pt ℝ) := ⟨p.size, fun i => ⟨(p.get i).1, (p.get i).2.1⟩⟩

/-- `setBaseCopHull`, `/repo/src/zebulon_walkgen.cpp:131-142`. -/
noncomputable def Zeb.setBaseCopHull (δ : ℝ) (w : Zeb ℝ) (p : Vec (ℝ × ℝ × ℝ)) : Res (Zeb ℝ) := do
  let g ← Polygon.ofPoints δ (head2 p)
  w.setCopPolygon g.vertices

/-- `setBaseComHull`, `/repo/src/zebulon_walkgen.cpp:144-153`. -/
noncomputable def Zeb.setBaseComHull (δ : ℝ) (w : Zeb ℝ) (p : Vec (ℝ × ℝ × ℝ)) : Res (Zeb ℝ) := do
  let g ← Polygon.ofPoints δ (head2 p)
  w.setComPolygon g.vertices

/-! ### `zebulon-walkgen-bin` -/

/-- Settings before the polygons, `/repo/test/zebulon-walkgen-bin.cpp:62-69`. -/
noncomputable def zebProgramSetup1 : List (ZebCall ℝ) :=
  [.setNbSamples 10, .setSamplingPeriod (2 / 10), .setBodyHeight (73 / 100), .setBaseHeight (13 / 100),
    .setBodyMass (135 / 10), .setBaseMass (165 / 10), .setContactX 0, .setContactY (15 / 100)]

/-- The points of the polygons, `/repo/test/zebulon-walkgen-bin.cpp:71-81`. -/
noncomputable def zebProgramPoints : Vec (ℝ × ℝ × ℝ) :=
  ⟨8, fun i => if i = 0 then (1 / 10, 1 / 10, 0) else if i = 1 then (0, 15 / 100, 0) else if i = 2 then (-(1 / 10), 1 / 10, 0)
    else if i = 3 then (-(15 / 100), 0, 0) else if i = 4 then (-(1 / 10), -(1 / 10), 0) else if i = 5 then (0, -(15 / 100), 0)
    else if i = 6 then (1 / 10, -(1 / 10), 0) else (15 / 100, 0, 0)⟩

/-- Settings after the polygons, `/repo/test/zebulon-walkgen-bin.cpp:85-129`. -/
noncomputable def zebProgramSetup2 : List (ZebCall ℝ) :=
  [.setWeightings ⟨100, 0, 10, 100, 1 / 100000, 0, 0⟩, .setConfig ⟨true, false, false, false⟩, .setVelRef (Vec.const 20 0),
    .setPosRef (Vec.const 20 0), .setCopRef (Vec.const 20 0), .setBaseX (Vec.const 3 0), .setVelLimit 3, .setAccLimit 4,
    .setJerkLimit 160]

/-- The literals `5.0f`, `5.022f`, `5.02f`, `5.22f`, `5.24f`, `5.24` of `/repo/test/zebulon-walkgen-bin.cpp:164-207`. -/
structure TiltTimes where
  a : ℝ
  b : ℝ
  c : ℝ
  d : ℝ
  e : ℝ
  f : ℝ

/-- The simulated tilt of the base, `/repo/test/zebulon-walkgen-bin.cpp:9-34`, from the positions and accelerations of the base
and of the CoM. -/
noncomputable def psiStep (psi : State3 ℝ) (b c ddb ddc : ℝ) : State3 ℝ :=
  let g : ℝ := 981 / 100
  let m : ℝ := 135 / 10
  let M : ℝ := 165 / 10
  let h : ℝ := 73 / 100
  let L : ℝ := 13 / 100
  let T : ℝ := 2 / 100
  let p0 := psi.p + (psi.v * T + psi.a * T * T / 2)
  let p1 := psi.v + psi.a * T
  let p2 := (g * (m * h + M * L) * p0 - m * g * (c - b) + M * L * ddb + m * h * ddc + M * g * (24 / 100))
    / (m * h * h + M * L * L)
  ⟨if -(1 / 100) < p0 then 0 else p0, p1, p2⟩

/-- What `updatePsi` sets when the base touches the ground, `/repo/test/zebulon-walkgen-bin.cpp:39-52`. -/
noncomputable def touchSetup : List (ZebCall ℝ) :=
  [.setWeightings ⟨10, 0, 10, 100, 1 / 100000, 0, 0⟩, .setConfig ⟨true, false, false, false⟩]

/-- What the program keeps: the generator, the tilt `baseState`, and the static variable `touch` of `updatePsi`. -/
structure ZebProg where
  w : Zeb ℝ
  psi : State3 ℝ
  touch : Bool

/-- `updatePsi`, `/repo/test/zebulon-walkgen-bin.cpp:9-55`. -/
noncomputable def updatePsi (o : Oracle ℝ) (tr : Trig ℝ) (s : ZebProg) : Res ZebProg := do
  let psi := psiStep s.psi s.w.base.y.p s.w.lip.y.p s.w.base.y.a s.w.lip.y.a
  if 0 ≤ psi.p ∨ s.touch = true then do
    let w ← s.w.run o tr touchSetup
    pure ⟨w, ⟨0, 0, 0⟩, true⟩
  else pure { s with psi := psi }

/-- A row of the output, `/repo/test/zebulon-walkgen-bin.cpp:209-226`. -/
structure ZebRow where
  time : ℝ
  psi : State3 ℝ
  base : State3 ℝ
  com : State3 ℝ
  delta : ℝ

/-- The tilt given to the generator, `/repo/test/zebulon-walkgen-bin.cpp:163-178`. -/
noncomputable def tiltInput (l : TiltTimes) (t : ℝ) (psi : State3 ℝ) : State3 ℝ :=
  let acc : ℝ := -(55 / 10)
  let psi := if l.a ≤ t ∧ t < l.b then
    ⟨acc * (2 / 100) * (2 / 100) * 6 * 6, acc * (2 / 100) * 6, acc⟩ else psi
  if l.c ≤ t ∧ t < l.d then ⟨psi.p + acc * (2 / 100) * (2 / 100), psi.v + acc * (2 / 100), acc⟩ else psi

/-- Settings at the end of the push, `/repo/test/zebulon-walkgen-bin.cpp:179-194`. -/
noncomputable def endTiltSetup : List (ZebCall ℝ) :=
  [.setWeightings ⟨1 / 1000, 0, 0, 100, 1 / 1000, 10, 10⟩, .setConfig ⟨false, false, false, false⟩]

/-- New weights at the end of the push. -/
noncomputable def endTilt (o : Oracle ℝ) (tr : Trig ℝ) (l : TiltTimes) (t : ℝ) (w : Zeb ℝ) : Res (Zeb ℝ) :=
  if l.d ≤ t ∧ t < l.e then w.run o tr endTiltSetup else .ok w

/-- The tilt after `solve`, `/repo/test/zebulon-walkgen-bin.cpp:202-208`. -/
noncomputable def tiltAfter (o : Oracle ℝ) (tr : Trig ℝ) (l : TiltTimes) (t : ℝ) (s : ZebProg) : Res ZebProg :=
  if t < l.a then .ok { s with psi := ⟨0, 0, 0⟩ } else if l.f ≤ t then updatePsi o tr s else .ok s

/-- One turn of the loop, `/repo/test/zebulon-walkgen-bin.cpp:158-232`. The first component tells whether the QP was solved. -/
noncomputable def zebProgramTurn (o : Oracle ℝ) (tr : Trig ℝ) (l : TiltTimes) (s : ZebProg) (t : ℝ) :
    Res (Bool × ZebRow × ZebProg) := do
  let psi := tiltInput l t s.psi
  let w ← endTilt o tr l t s.w
  let (_, w) ← w.step o tr (.setPitch ⟨3, fun i => if i = 0 then psi.p else if i = 1 then psi.v else psi.a⟩)
  let (found, w) ← w.solve o tr (2 / 100)
  let s ← tiltAfter o tr l t ⟨w, psi, s.touch⟩
  pure (found, ⟨t, s.psi, s.w.base.y, s.w.lip.y, s.w.lip.y.p - s.w.base.y.p⟩, s)

/-- The loop; it ends when the QP is not solved. -/
noncomputable def zebProgramLoop (o : Oracle ℝ) (tr : Trig ℝ) (l : TiltTimes) : ZebProg → List ℝ → Res (List ZebRow × ZebProg)
  | s, [] => .ok ([], s)
  | s, t :: ts => do
    let (found, row, s) ← zebProgramTurn o tr l s t
    if found then do
      let (rows, s) ← zebProgramLoop o tr l s ts
      pure (row :: rows, s)
    else pure ([row], s)

/-- `main`, `/repo/test/zebulon-walkgen-bin.cpp:57-238`. `mem` is what the memory of the contact point holds at
construction. -/
noncomputable def zebProgram (δ : ℝ) (o : Oracle ℝ) (tr : Trig ℝ) (mem : Option ℝ × Option ℝ) (l : TiltTimes) (ts : List ℝ) :
    Res (List ZebRow × ZebProg) := do
  let w ← Zeb.make tr mem
  let w ← w.run o tr zebProgramSetup1
  let w ← w.setBaseCopHull δ zebProgramPoints
  let w ← w.setBaseComHull δ zebProgramPoints
  let w ← w.run o tr zebProgramSetup2
  zebProgramLoop o tr l ⟨w, ⟨0, 0, 0⟩, false⟩ ts

end MPC
