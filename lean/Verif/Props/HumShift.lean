import Verif.Lemmas.HumShiftGrid
import Verif.Props.HumSafe

/-! # Property C69: the humanoid generator does not depend on where the robot is -/

set_option linter.unusedSectionVars false

namespace MPC

open Finset Spec

section

variable {K : Type} [Field K] [LinearOrder K] [IsStrictOrderedRing K] [FloorRing K]

/-- **C69, setters.** On a generator that is moved, every setter (its positions moved too) returns the same and leaves a
moved generator; `setNbSamples` when no footstep is planned (see `C69_violated_samples`). -/
theorem C69_setters (hull : Vec (Pt K) → Res (Polygon K)) (o : Oracle K) (a b : K)
    (w w' w1 : HWalkgen K) (c : HCall K) (f : Bool) (hr : HumHistory hull w) (h : HumMoved a b w w')
    (hc : ∀ fb, c ≠ .solve fb) (hn : ∀ n, c = .setNbSamples n → w.sup.M = 0) (e : w.step hull o c = .ok (f, w1)) :
    ∃ w1', w'.step hull o (c.moved a b) = .ok (f, w1') ∧ HumMoved a b w1 w1' :=
  call_moved hr.inv h hc hn e

/-- **C69, one cycle** (part). If `solve` works on a generator, it works on the generator moved by `(a, b)`, with the same
answer of the solver, and leaves the generator moved by `(a, b)`: CoM, feet, planned footsteps. Full statement: without
the hypotheses that the footstep of a single support is planned before it runs and that the samples are supported; it
is false (`C69_violated_tie`, `C69_violated_first`). -/
theorem C69_solve_partial (hull : Vec (Pt K) → Res (Polygon K)) (o : Oracle K) (ho : o.Reads) (a b : K)
    (w w' w2 : HWalkgen K) (fb : K) (f : Bool) (hr : HumHistory hull w) (h : HumMoved a b w w')
    (hp : StepPlanned w.sup w.X) (hc : ∀ s X, w.sup.updateTimeline w.X fb = .ok (s, X) → Covered s)
    (e : w.solve hull o fb = .ok (f, w2)) :
    ∃ w2', w'.solve hull o fb = .ok (f, w2') ∧ HumMoved a b w2 w2' := by
  refine solve_moved ho hr.inv h hp (fun w1 e1 => ?_) e
  obtain ⟨X, eX⟩ := begin_sup e1
  exact hc _ _ eX

/-- **C69, walks** (part). A configured generator at rest and the same one moved by `(a, b)` are given the same calls, the
CoM states of the second being moved: `solve` on a grid of times, `setMove`, references, weightings, constraints. As
long as the first works, the second does, returns the same values and is the first moved by `(a, b)`. A step and a
sampling period fit in the horizon. Full statement: for all times; false (`C69_violated_tie`, `C69_violated_first`). -/
theorem C69_walk_partial [Archimedean K] (hull : Vec (Pt K) → Res (Polygon K)) (o : Oracle K) (ho : o.Reads)
    (a b fb : K) (w w' : HWalkgen K) (hr : HumHistory hull w) (h0 : Ready (w.sup, w.X))
    (hg : Grid fb w.sup) (hroom : w.sup.stepPeriod + w.sup.T ≤ w.sup.N * w.sup.T) (h : HumMoved a b w w')
    (ds : List (HCall K)) (hd : RunningCalls hull o fb w ds) (fs : List Bool) (w1 : HWalkgen K)
    (e : w.answers hull o ds = .ok (fs, w1)) :
    ∃ w1', w'.answers hull o (ds.map (HCall.moved a b)) = .ok (fs, w1') ∧ HumMoved a b w1 w1' := by
  have hE : (0 : K) < EPS := EPS_pos
  have hfb : 0 < fb := hE.trans hg.pos
  have key : ∀ (ds : List (HCall K)) (u u' : HWalkgen K), HumRuns hull o (· = fb) CanStop w u → HumMoved a b u u' →
      RunningCalls hull o fb u ds → ∀ fs, u.answers hull o ds = .ok (fs, w1) →
      ∃ w1', u'.answers hull o (ds.map (HCall.moved a b)) = .ok (fs, w1') ∧ HumMoved a b w1 w1' := by
    intro ds
    induction ds with
    | nil =>
      intro u u' _ hm _ fs e
      obtain ⟨rfl, rfl⟩ := Prod.mk.inj (Except.ok.inj e)
      exact ⟨u', rfl, hm⟩
    | cons c ds ih =>
      intro u u' hu hm hd fs e
      obtain ⟨hd1, hd2⟩ := hd
      unfold HWalkgen.answers at e
      obtain ⟨⟨f, u1⟩, e1, e⟩ := bind_eq_ok.1 e
      obtain ⟨⟨gs, u2⟩, e2, e⟩ := bind_eq_ok.1 e
      obtain ⟨rfl, rfl⟩ := Prod.mk.inj (Except.ok.inj e)
      obtain ⟨hi', hre, i1, i2, i3, i4⟩ := runs_inv hfb hr.inv h0 hu
      have hg' : Grid fb u.sup := hg.congr i1 i2 i3 i4
      have hstep : ∃ u1', u'.step hull o (c.moved a b) = .ok (f, u1') ∧ HumMoved a b u1 u1' := by
        by_cases hs : ∃ p, c = .solve p
        · obtain ⟨p, rfl⟩ := hs
          have hp : p = fb := hd1
          subst hp
          refine solve_moved ho hi' hm (hre.planned hg' (by rw [i1, i2, i3]; exact hroom)) (fun v e1 => ?_) e1
          obtain ⟨X, eX⟩ := begin_sup e1
          exact hre.covered hg' eX
        · refine call_moved hi' hm (fun p hp => hs ⟨p, hp⟩) ?_ e1
          rintro n rfl
          exact hd1.elim
      obtain ⟨u1', e1', hm1⟩ := hstep
      obtain ⟨w1', e2', hw⟩ := ih u1 u1' (.call hu hd1 e1) hm1 (hd2 f u1 e1) gs e2
      refine ⟨w1', ?_, hw⟩
      rw [List.map_cons]
      unfold HWalkgen.answers
      rw [e1', ok_bind]
      dsimp only
      rw [e2', ok_bind]
      rfl
  exact key ds w w' .refl h hd fs e

/-- The calls that place the robot: CoM, left and right foot along `x` and `y`. -/
def placeCalls (cx cy lx ly rx ry : Vec K) : List (HCall K) :=
  [.setComState .x cx, .setComState .y cy, .setFootState true .x lx, .setFootState true .y ly,
    .setFootState false .x rx, .setFootState false .y ry]

/-- **C69, placing.** A generator without planned footsteps, placed somewhere and placed elsewhere, gives two generators
of which the second is the first moved. -/
theorem C69_placed (hull : Vec (Pt K) → Res (Polygon K)) (o : Oracle K) (a b : K) (w w1 : HWalkgen K)
    (cx cy lx ly rx ry : Vec K) (hX : w.X.size = 2 * w.sup.N) (hl : w.sup.left.HasFactors) (hr : w.sup.right.HasFactors)
    (e : w.run hull o (placeCalls cx cy lx ly rx ry) = .ok w1) :
    ∃ w1', w.run hull o ((placeCalls cx cy lx ly rx ry).map (HCall.moved a b)) = .ok w1' ∧ HumMoved a b w1 w1' := by
  unfold placeCalls at e ⊢
  simp only [List.map_cons, List.map_nil, HCall.moved, HWalkgen.run, HWalkgen.step, Lip.setStateX, Lip.setStateY, bind_assoc,
    pure_bind] at e ⊢
  obtain ⟨_, r1, e⟩ := bind_eq_ok.1 e
  obtain ⟨_, r2, e⟩ := bind_eq_ok.1 e
  obtain ⟨_, r3, e⟩ := bind_eq_ok.1 e
  obtain ⟨_, r4, e⟩ := bind_eq_ok.1 e
  obtain ⟨_, r5, e⟩ := bind_eq_ok.1 e
  obtain ⟨_, r6, e⟩ := bind_eq_ok.1 e
  obtain rfl := Except.ok.inj e
  rw [require_pos (by exact require_eq_ok.1 r1), ok_bind, require_pos (by exact require_eq_ok.1 r2), ok_bind,
    require_pos (by exact require_eq_ok.1 r3), ok_bind, require_pos (by exact require_eq_ok.1 r4), ok_bind,
    require_pos (by exact require_eq_ok.1 r5), ok_bind, require_pos (by exact require_eq_ok.1 r6), ok_bind]
  refine ⟨_, rfl, ⟨rfl, ?_, ?_⟩, rfl, ⟨rfl, ?_⟩, ⟨0, hX⟩, rfl, rfl, rfl, rfl, rfl, rfl, rfl, rfl, rfl, rfl, rfl⟩
  · exact ⟨rfl, rfl, rfl, ⟨hl.1, hl.1⟩, ⟨hl.2.1, hl.2.1⟩, rfl, rfl, rfl⟩
  · exact ⟨rfl, rfl, rfl, ⟨hr.1, hr.1⟩, ⟨hr.2.1, hr.2.1⟩, rfl, rfl, rfl⟩
  · intro i hi
    have hi' : i < 2 * w.sup.N := by rw [← hX]; exact hi
    show w.X.get i = w.X.get i + planShift a b w.sup.N w.X.size i
    rw [planShift, if_pos hi', add_zero]

/-- **C69 fails when the number of samples is set while footsteps are planned.** The plan is set to zero in the world
frame: whatever the two generators, the footsteps of the second are not those of the first moved. -/
theorem C69_violated_samples (hull : Vec (Pt K) → Res (Polygon K)) (o : Oracle K) (a b : K) (ha : a ≠ 0)
    (w w' w1 w1' : HWalkgen K) (n : ℕ) (h : HumMoved a b w w') (hM : 0 < w.sup.M) (f f' : Bool)
    (e : w.step hull o (.setNbSamples n) = .ok (f, w1)) (e' : w'.step hull o (.setNbSamples n) = .ok (f', w1')) :
    w1.sup.M = w.sup.M ∧ ¬ PlanMoved a b w1.sup.N w1.X w1'.X := by
  unfold HWalkgen.step at e e'
  obtain ⟨_, -, e⟩ := bind_eq_ok.1 e
  obtain ⟨l1, -, e⟩ := bind_eq_ok.1 e
  obtain ⟨s1, e3, e⟩ := bind_eq_ok.1 e
  obtain ⟨rfl, rfl⟩ := Prod.mk.inj (Except.ok.inj e)
  obtain ⟨_, -, e'⟩ := bind_eq_ok.1 e'
  obtain ⟨l2, -, e'⟩ := bind_eq_ok.1 e'
  obtain ⟨s2, -, e'⟩ := bind_eq_ok.1 e'
  obtain ⟨rfl, rfl⟩ := Prod.mk.inj (Except.ok.inj e')
  unfold Sup.setNbSamples at e3
  obtain ⟨_, -, e3⟩ := bind_eq_ok.1 e3
  obtain rfl := Except.ok.inj e3
  refine ⟨rfl, fun hp => ha ?_⟩
  have h1 := hp.get (2 * n) (show 2 * n < 2 * n + 2 * w.sup.M by omega)
  have h2 : (0 : K) = 0 + planShift a b n (2 * n + 2 * w.sup.M) (2 * n) := h1
  rw [planShift, if_neg (by omega), if_pos (by omega)] at h2
  linarith

end

/-! ### Concrete runs -/

theorem oneOracle_reads : oneOracle.Reads := fun _ _ _ _ _ => rfl

/-- The robot is at the origin. -/
def originCalls : List (HCall ℚ) :=
  placeCalls (Vec.const 3 0) (Vec.const 3 0) (Vec.const 3 0) (Vec.const 3 0) (Vec.const 3 0) (Vec.const 3 0)

/-- The end of a run. -/
theorem HumReaches.append {hull : Vec (Pt ℚ) → Res (Polygon ℚ)} {o : Oracle ℚ} {cs ds : List (HCall ℚ)} {w w' : HWalkgen ℚ}
    (h : HumReaches hull o cs w) (e : w.run hull o ds = .ok w') : HumReaches hull o (cs ++ ds) w' := by
  induction ds generalizing cs w with
  | nil => obtain rfl := Except.ok.inj e; rw [List.append_nil]; exact h
  | cons d ds ih =>
    unfold HWalkgen.run at e
    obtain ⟨⟨f, w1⟩, e1, e⟩ := bind_eq_ok.1 e
    have := ih (h.call e1) e
    rwa [List.append_assoc] at this

/-- The initial double support lasts 1.0001 seconds. -/
def tieCalls : List (HCall ℚ) :=
  [.setInitialDoubleSupportLength (10001 / 10000), .setStepPeriod 1, .setKin true demoRect, .setKin false demoRect]

set_option maxRecDepth 100000 in
theorem tie_checks : okAnd (fun w => decide (w.X.size = 2 * w.sup.N ∧ w.sup.left.x.factor.size = 12 ∧
      w.sup.left.y.factor.size = 12 ∧ w.sup.left.z.factor.size = 12 ∧ w.sup.right.x.factor.size = 12 ∧
      w.sup.right.y.factor.size = 12 ∧ w.sup.right.z.factor.size = 12) &&
      okAnd (fun r => decide (r.1.2.lip.x.v ≠ r.2.2.lip.x.v)) (do
        let w1 ← w.run (fun _ => .ok demoRect) oneOracle originCalls
        let w2 ← w.run (fun _ => .ok demoRect) oneOracle (originCalls.map (HCall.moved 1 0))
        let r1 ← w1.solve (fun _ => .ok demoRect) oneOracle 1
        let r2 ← w2.solve (fun _ => .ok demoRect) oneOracle 1
        pure (r1, r2)))
    (HWalkgen.make >>= fun w => w.run (fun _ => .ok demoRect) oneOracle tieCalls) = true := by
  decide +kernel

/-- **C69 fails on ties.** The initial double support ends `EPSILON` after the first sample, which is supported by no
foot: the CoM of a robot that is moved by one metre gets another velocity. -/
theorem C69_violated_tie : ∃ w w' f w2 f' w2', HumReaches (fun _ => .ok demoRect) oneOracle (tieCalls ++ originCalls) w ∧
    HumReaches (fun _ => .ok demoRect) oneOracle (tieCalls ++ originCalls.map (HCall.moved 1 0)) w' ∧ HumMoved 1 0 w w' ∧
    w.solve (fun _ => .ok demoRect) oneOracle 1 = .ok (f, w2) ∧
    w'.solve (fun _ => .ok demoRect) oneOracle 1 = .ok (f', w2') ∧ w2'.lip.x.v ≠ w2.lip.x.v := by
  obtain ⟨w, e, h⟩ := okAnd_true tie_checks
  obtain ⟨w0, e0, e⟩ := bind_eq_ok.1 e
  simp only [Bool.and_eq_true, decide_eq_true_eq] at h
  obtain ⟨⟨z1, z2, z3, z4, z5, z6, z7⟩, h⟩ := h
  obtain ⟨r, er, h⟩ := okAnd_true h
  obtain ⟨w1, e1, er⟩ := bind_eq_ok.1 er
  obtain ⟨w2, e2, er⟩ := bind_eq_ok.1 er
  obtain ⟨r1, e3, er⟩ := bind_eq_ok.1 er
  obtain ⟨r2, e4, er⟩ := bind_eq_ok.1 er
  obtain rfl := Except.ok.inj er
  rw [decide_eq_true_eq] at h
  obtain ⟨w3, e5, hm⟩ := C69_placed (fun _ => .ok demoRect) oneOracle 1 0 w w1 _ _ _ _ _ _ z1 ⟨z2, z3, z4⟩ ⟨z5, z6, z7⟩ e1
  obtain rfl := Except.ok.inj (e5.symm.trans e2)
  have hw : HumReaches (fun _ => .ok demoRect) oneOracle tieCalls w := ⟨w0, e0, e⟩
  exact ⟨w1, w3, r1.1, r1.2, r2.1, r2.2, hw.append e1, hw.append e2, hm, e3, e4, fun hc => h hc.symm⟩

/-- The user starts the walk and solves twice. -/
def firstWalk : List (HCall ℚ) := [.setMove true, .solve 1, .solve 1]

theorem firstWalk_running (hull : Vec (Pt ℚ) → Res (Polygon ℚ)) (o : Oracle ℚ) (w : HWalkgen ℚ) :
    RunningCalls hull o 1 w firstWalk :=
  ⟨Or.inl rfl, fun _ _ _ => ⟨rfl, fun _ _ _ => ⟨rfl, fun _ _ _ => trivial⟩⟩⟩

/-- What is needed of a generator in the examples. -/
def readyCheck (N : ℕ) (w : HWalkgen ℚ) : Bool :=
  decide (w.sup.N = N ∧ w.sup.T = 1 ∧ w.sup.stepPeriod = 1 ∧ w.sup.dsPeriod = 1 ∧
      0 < w.sup.left.kin.vertices.size ∧ 0 < w.sup.right.kin.vertices.size) &&
    decide ((w.sup.timeline.map fun p => (p.type, p.duration)) = [(.DS, 1)] ∧ w.sup.ttnp = 1 ∧ w.sup.M = 0 ∧
      w.sup.move = false ∧ w.X.size = 2 * N) &&
    decide (w.sup.left.x.factor.size = 12 ∧ w.sup.left.y.factor.size = 12 ∧ w.sup.left.z.factor.size = 12) &&
    decide (w.sup.right.x.factor.size = 12 ∧ w.sup.right.y.factor.size = 12 ∧ w.sup.right.z.factor.size = 12)

theorem readyCheck_ready {N : ℕ} (hN : 0 < N) {w : HWalkgen ℚ} (h : readyCheck N w = true) :
    Ready (w.sup, w.X) ∧ Grid 1 w.sup ∧ w.sup.N = N ∧ w.sup.T = 1 ∧ w.sup.stepPeriod = 1 := by
  unfold readyCheck at h
  simp only [Bool.and_eq_true, decide_eq_true_eq] at h
  obtain ⟨⟨⟨⟨c1, c2, c3, c4, c5, c6⟩, c7, c8, c9, c10, c11⟩, l⟩, r⟩ := h
  have hN1 : (1 : ℚ) ≤ N := by exact_mod_cast hN
  refine ⟨⟨by rw [c1]; exact hN, ?_, ?_, ?_, ⟨c5, c6⟩, ?_, ?_, c9, c10, by rw [c1]; exact c11, l, r⟩, ⟨?_, ⟨1, one_pos, ?_⟩,
    ⟨1, one_pos, ?_⟩, ⟨1, one_pos, ?_⟩, ?_⟩, c1, c2, c3⟩
  · rw [c2]; norm_num [EPS]
  · rw [c3]; norm_num [EPS]
  · rw [c4]; norm_num [EPS]
  · dsimp only; rw [c4]; exact timeline_of_map c7
  · dsimp only; rw [c8, c4]
  · norm_num [EPS]
  · rw [c2]; norm_num
  · rw [c3]; norm_num
  · rw [c4]; norm_num
  · rw [c3, c1, c2]; linarith

set_option maxRecDepth 100000 in
theorem first_checks : okAnd (fun w =>
      okAnd (fun r => readyCheck 1 r.1 && decide (r.2.1.2.sup.M = 1 ∧ r.2.2.2.X.get 2 = r.2.1.2.X.get 2)) (do
        let w1 ← w.run (fun _ => .ok demoRect) oneOracle originCalls
        let w2 ← w.run (fun _ => .ok demoRect) oneOracle (originCalls.map (HCall.moved 1 0))
        let r1 ← w1.answers (fun _ => .ok demoRect) oneOracle firstWalk
        let r2 ← w2.answers (fun _ => .ok demoRect) oneOracle (firstWalk.map (HCall.moved 1 0))
        pure (w1, r1, r2)) && readyCheck 1 w)
    (HWalkgen.make >>= fun w => w.run (fun _ => .ok demoRect) oneOracle readyCalls) = true := by
  decide +kernel

/-- **C69 fails when the first footstep is added during a single support.** With one sample and steps of one sample the
first footstep is not planned during the double support. Its first guess is computed from an entry of the plan that is
a local CoP: it does not move with the robot. All other hypotheses of `C69_walk_partial` are met. -/
theorem C69_violated_first : ∃ w w' fs w1 fs' w1',
    HumReaches (fun _ => .ok demoRect) oneOracle (readyCalls ++ originCalls) w ∧
    HumReaches (fun _ => .ok demoRect) oneOracle (readyCalls ++ originCalls.map (HCall.moved 1 0)) w' ∧
    HumMoved 1 0 w w' ∧ Ready (w.sup, w.X) ∧ Grid 1 w.sup ∧ w.sup.stepPeriod = w.sup.N * w.sup.T ∧
    RunningCalls (fun _ => .ok demoRect) oneOracle 1 w firstWalk ∧
    w.answers (fun _ => .ok demoRect) oneOracle firstWalk = .ok (fs, w1) ∧
    w'.answers (fun _ => .ok demoRect) oneOracle (firstWalk.map (HCall.moved 1 0)) = .ok (fs', w1') ∧
    w1.sup.M = 1 ∧ w1'.X.get 2 = w1.X.get 2 := by
  obtain ⟨w, e, h⟩ := okAnd_true first_checks
  obtain ⟨w0, e0, e⟩ := bind_eq_ok.1 e
  rw [Bool.and_eq_true] at h
  obtain ⟨h, hR⟩ := h
  obtain ⟨hR, -, hN, -, -⟩ := readyCheck_ready one_pos hR
  obtain ⟨r, er, h⟩ := okAnd_true h
  obtain ⟨w1, e1, er⟩ := bind_eq_ok.1 er
  obtain ⟨w2, e2, er⟩ := bind_eq_ok.1 er
  obtain ⟨r1, e3, er⟩ := bind_eq_ok.1 er
  obtain ⟨r2, e4, er⟩ := bind_eq_ok.1 er
  obtain rfl := Except.ok.inj er
  simp only [Bool.and_eq_true, decide_eq_true_eq] at h
  obtain ⟨h1, h2, h3⟩ := h
  obtain ⟨k1, k2, k3, k4, k5⟩ := readyCheck_ready one_pos h1
  obtain ⟨w3, e5, hm⟩ := C69_placed (fun _ => .ok demoRect) oneOracle 1 0 w w1 _ _ _ _ _ _ hR.var hR.left hR.right e1
  obtain rfl := Except.ok.inj (e5.symm.trans e2)
  have hw : HumReaches (fun _ => .ok demoRect) oneOracle readyCalls w := ⟨w0, e0, e⟩
  exact ⟨w1, w3, r1.1, r1.2, r2.1, r2.2, hw.append e1, hw.append e2, hm, k1, k2, by rw [k3, k4, k5]; norm_num,
    firstWalk_running _ _ _, e3, e4, h2, h3⟩

/-- A user of two samples. -/
def twoCalls : List (HCall ℚ) :=
  [.setInitialDoubleSupportLength 1, .setStepPeriod 1, .setNbSamples 2, .setKin true demoRect, .setKin false demoRect,
    .setWeightings ⟨1, 1 / 10, 1 / 100⟩, .setVelRef (Vec.const 4 1)]

/-- A walk of three cycles; the reference and the state of the CoM change. -/
def twoWalk : List (HCall ℚ) :=
  [.setMove true, .solve 1, .setVelRef (Vec.const 4 (1 / 2)), .solve 1, .setComState .x (Vec.const 3 (1 / 8)), .solve 1]

set_option maxRecDepth 100000 in
theorem two_checks : okAnd (fun w => okAnd (fun r => readyCheck 2 r.1 &&
      decide (r.2.2.sup.M = 2 ∧ r.2.2.lip.x.v ≠ 0 ∧ r.2.2.sup.timeline[0]?.map (·.type) = some .rightSS)) (do
        let w1 ← w.run (fun _ => .ok demoRect) oneOracle originCalls
        let w2 ← w.run (fun _ => .ok demoRect) oneOracle (originCalls.map (HCall.moved 1 2))
        let r1 ← (fitted w1).answers (fun _ => .ok demoRect) oneOracle twoWalk
        let r2 ← (fitted w2).answers (fun _ => .ok demoRect) oneOracle (twoWalk.map (HCall.moved 1 2))
        let _ ← r1.2.step (fun _ => .ok demoRect) oneOracle (.setNbSamples 1)
        let _ ← r2.2.step (fun _ => .ok demoRect) oneOracle (.setNbSamples 1)
        pure (w1, r1)) && readyCheck 2 w)
    (HWalkgen.make >>= fun w => w.run (fun _ => .ok demoRect) oneOracle twoCalls) = true := by
  decide +kernel

/-- The hypotheses of `C69_walk_partial` (and so those of `C69_solve_partial`) are met by a walk with two samples during
which two footsteps are planned; the moved robot makes the same walk one metre and two metres away. -/
theorem two_walk : ∃ w w', HumHistory (fun _ => .ok demoRect) w ∧ Ready (w.sup, w.X) ∧
    Grid 1 w.sup ∧ w.sup.stepPeriod + w.sup.T ≤ w.sup.N * w.sup.T ∧ HumMoved 1 2 w w' ∧
    RunningCalls (fun _ => .ok demoRect) oneOracle 1 w twoWalk ∧
    ∃ fs w1 w1', w.answers (fun _ => .ok demoRect) oneOracle twoWalk = .ok (fs, w1) ∧ w1.sup.M = 2 ∧ w1.lip.x.v ≠ 0 ∧
      w'.answers (fun _ => .ok demoRect) oneOracle (twoWalk.map (HCall.moved 1 2)) = .ok (fs, w1') ∧
      HumMoved 1 2 w1 w1' ∧ (∃ r, w1.step (fun _ => .ok demoRect) oneOracle (.setNbSamples 1) = .ok r) ∧
      ∃ r, w1'.step (fun _ => .ok demoRect) oneOracle (.setNbSamples 1) = .ok r := by
  obtain ⟨w, e, h⟩ := okAnd_true two_checks
  obtain ⟨w0, e0, e⟩ := bind_eq_ok.1 e
  rw [Bool.and_eq_true] at h
  obtain ⟨h, hR⟩ := h
  obtain ⟨hR, -, hN, -, -⟩ := readyCheck_ready two_pos hR
  obtain ⟨r, er, h⟩ := okAnd_true h
  obtain ⟨w1, e1, er⟩ := bind_eq_ok.1 er
  obtain ⟨w2, e2, er⟩ := bind_eq_ok.1 er
  obtain ⟨r1, e3, er⟩ := bind_eq_ok.1 er
  obtain ⟨r2, e4, er⟩ := bind_eq_ok.1 er
  obtain ⟨r3, e7, er⟩ := bind_eq_ok.1 er
  obtain ⟨r4, e8, er⟩ := bind_eq_ok.1 er
  obtain rfl := Except.ok.inj er
  simp only [Bool.and_eq_true, decide_eq_true_eq] at h
  obtain ⟨h1, h2, h3, -⟩ := h
  obtain ⟨k1, k2, k3, k4, k5⟩ := readyCheck_ready two_pos h1
  obtain ⟨w3, e5, hm⟩ := C69_placed (fun _ => .ok demoRect) oneOracle 1 2 w w1 _ _ _ _ _ _ hR.var hR.left hR.right e1
  obtain rfl := Except.ok.inj (e5.symm.trans e2)
  have hw : HumReaches (fun _ => .ok demoRect) oneOracle twoCalls w := ⟨w0, e0, e⟩
  have hb : HumHistory (fun _ => .ok demoRect) (fitted w1) :=
    .solvers _ (hw.append e1).history
  have hm' : HumMoved 1 2 (fitted w1) (fitted w3) := by
    refine ⟨hm.sup, hm.lip, hm.plan, hm.even, hm.velRef, hm.boundSize, hm.weighting, hm.withCop, hm.withFeet, hm.maxCtr,
      hm.first, hm.calls, hm.dX, ?_, hm.qps⟩
    unfold fitted
    rw [hm.maxCtr, show w3.sup.N = w1.sup.N by rw [hm.sup.rest], show w3.lip.N = w1.lip.N by rw [hm.lip]]
  have hroom : w1.sup.stepPeriod + w1.sup.T ≤ w1.sup.N * w1.sup.T := by rw [k3, k4, k5]; norm_num
  have hrun : RunningCalls (fun _ => .ok demoRect) oneOracle 1 (fitted w1) twoWalk :=
    ⟨Or.inl rfl, fun _ _ _ => ⟨rfl, fun _ _ _ => ⟨trivial, fun _ _ _ => ⟨rfl, fun _ _ _ => ⟨trivial, fun _ _ _ =>
      ⟨rfl, fun _ _ _ => trivial⟩⟩⟩⟩⟩⟩
  obtain ⟨w4, e6, hm4⟩ := C69_walk_partial _ _ oneOracle_reads 1 2 1 (fitted w1) (fitted w3) hb k1 k2 hroom hm' twoWalk hrun
    r1.1 r1.2 e3
  exact ⟨fitted w1, fitted w3, hb, k1, k2, hroom, hm', hrun, r1.1, r1.2, w4, e3, h2, h3, e6, hm4,
    ⟨r3, e7⟩, ⟨r4, by rw [← e8, Except.ok.inj (e4.symm.trans e6)]⟩⟩

/-- The hypotheses of `C69_violated_samples` are met: the generator of `C69_walk_partial` has two footsteps planned. -/
example : ∃ w w' w1 w1' f f', HumMoved 1 2 w w' ∧ 0 < w.sup.M ∧
    w.step (fun _ => .ok demoRect) oneOracle (.setNbSamples 1) = .ok (f, w1) ∧
    w'.step (fun _ => .ok demoRect) oneOracle (.setNbSamples 1) = .ok (f', w1') := by
  obtain ⟨_, _, -, -, -, -, -, -, _, w1, w1', -, h1, -, -, h2, ⟨r, e⟩, r', e'⟩ := two_walk
  exact ⟨w1, w1', r.2, r'.2, r.1, r'.1, h2, by omega, e, e'⟩

end MPC
