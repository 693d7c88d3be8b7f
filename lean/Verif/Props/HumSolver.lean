import Verif.Lemmas.HumTable
import Verif.Props.HumCost

/-! # Sizes of the problems of the humanoid generator (C42) -/

set_option linter.unusedSectionVars false

namespace MPC

variable {K : Type} [Field K] [LinearOrder K] [IsStrictOrderedRing K] [FloorRing K]

/-- **C42 (partial): matrices.** After any sequence of calls, the QP matrices selected by `solve` have
the size of the current problem, provided there are at most `maxCtr` constraints. Missing: the number of
constraints may be larger (`C42_violated_polygons`). -/
theorem C42_matrices_partial (hull : Vec (Pt K) → Res (Polygon K))
    (w w' : HWalkgen K) (fb : K) (idx : ℕ) (qp : QPMatrices K) (hr : HumHistory hull w)
    (hp : w.prepare hull fb = .ok (w', idx, qp)) :
    ∃ a b, w'.nbCtr hull = .ok (a, b) ∧
      (a + b ≤ w'.maxCtr → qp.DimensionsAreConsistent (2 * w'.lip.N + 2 * w'.sup.M) (a + b)) := by
  obtain ⟨-, -, a, b, h1, h2, h3⟩ := HWalkgen.prepare_frame hr.inv hp
  refine ⟨a, b, h1, fun hle => ?_⟩
  have h3 := h3 hr.table
  have e1 : idx / (w'.maxCtr + 1) = w'.sup.M := by
    rw [h2, Nat.mul_comm, Nat.mul_add_div (by omega), Nat.div_eq_of_lt (by omega), Nat.add_zero]
  have e2 : idx % (w'.maxCtr + 1) = a + b := by
    rw [h2, Nat.mul_comm, Nat.mul_add_mod, Nat.mod_eq_of_lt (by omega)]
  rwa [e1, e2] at h3

theorem nbCtr_off {hull : Vec (Pt K) → Res (Polygon K)} {w : HWalkgen K} {a b : ℕ} (hc : w.withCop = false)
    (hf : w.withFeet = false) (h : w.nbCtr hull = .ok (a, b)) : a = 0 ∧ b = 0 := by
  simp only [HWalkgen.nbCtr, hc, hf, Bool.false_eq_true, if_false, res_pure, ok_bind] at h
  obtain ⟨rfl, rfl⟩ := Prod.mk.inj (Except.ok.inj h)
  exact ⟨rfl, rfl⟩

/-- **C42 (partial): solver.** As long as neither the number of samples nor the configuration was set,
the selected matrices and the selected solver have the size of the current problem. Missing: the other
histories, for which this is false (`C42_violated_samples`). -/
theorem C42_solver_partial (hull : Vec (Pt K) → Res (Polygon K)) (o : Oracle K) (cs : List (HCall K))
    (hc : ∀ c ∈ cs, c.Plain) (w w' : HWalkgen K) (fb : K) (idx : ℕ) (qp : QPMatrices K)
    (hr : HumReaches hull o cs w) (hp : w.prepare hull fb = .ok (w', idx, qp)) :
    w'.nbCtr hull = .ok (0, 0) ∧ qp.DimensionsAreConsistent (2 * w'.lip.N + 2 * w'.sup.M) 0 ∧
      (w'.sup.M ≤ w'.lip.N → ∃ s, w'.solvers[idx]? = some s ∧ s.nbVar = 2 * w'.lip.N + 2 * w'.sup.M ∧
        s.nbCtr = 0) := by
  obtain ⟨w₀, h0, hrun⟩ := hr
  obtain ⟨t1, t2, t3, t4, t5, t6⟩ := HWalkgen.make_table h0
  have f1 := HWalkgen.run_frame (HumInv.make h0) hc hrun
  have hr : HumReaches hull o cs w := ⟨w₀, h0, hrun⟩
  obtain ⟨f2, -, a, b, h1, h2, h3⟩ := HWalkgen.prepare_frame hr.inv hp
  have f := f1.trans f2
  obtain ⟨rfl, rfl⟩ := nbCtr_off (f.withCop.trans t4) (f.withFeet.trans t5) h1
  have h3 := h3 hr.history.table
  rw [f.maxCtr, t3] at h2 h3
  have h2 : idx = w'.sup.M := by omega
  subst h2
  rw [Nat.zero_add, Nat.div_one, Nat.mod_one] at h3
  refine ⟨h1, h3, fun hM => ?_⟩
  rw [f.N, t2] at hM ⊢
  have hd := f.solvers.trans t6
  unfold HWalkgen.solverDims at hd
  have hg := congrArg (fun l => l[w'.sup.M]?) hd
  rw [List.getElem?_map] at hg
  have hM : w'.sup.M = 0 ∨ w'.sup.M = 1 := by omega
  rcases hM with hM | hM <;> rw [hM] at hg ⊢ <;>
  · obtain ⟨s, hs, he⟩ := Option.map_eq_some_iff.1 hg
    obtain ⟨e1, e2⟩ := Prod.mk.inj he
    exact ⟨s, hs, e1, e2⟩

theorem computeConstantPart_dims {w : HWalkgen K} (hc : w.withCop = false) (hf : w.withFeet = false)
    (hm : w.maxCtr = 0) : w.computeConstantPart.maxCtr = 0 ∧ w.computeConstantPart.withCop = false ∧
      w.computeConstantPart.withFeet = false ∧ w.computeConstantPart.lip = w.lip ∧
      w.computeConstantPart.solverDims = w.solverDims ++
        HWalkgen.table w.sup.N 0 fun i j => (2 * w.lip.N + 2 * i, j) := by
  refine ⟨?_, hc, hf, rfl, ?_⟩
  · simp [HWalkgen.computeConstantPart, hc, hf, hm]
  · simp only [HWalkgen.solverDims, HWalkgen.computeConstantPart, hc, hf, hm, Bool.false_eq_true, if_false,
      List.map_append, HWalkgen.table, List.map_map]
    rfl

/-- **C42 is false: number of samples.** A user who sets the number of samples once, to two or more,
before or after any calls that change neither it nor the configuration, can never solve: for every hull,
solver, feedback period and such history, `solve` fails. -/
theorem C42_violated_samples (hull : Vec (Pt K) → Res (Polygon K)) (o : Oracle K) (cs cs' : List (HCall K))
    (n : ℕ) (hn : 2 ≤ n) (hc : ∀ c ∈ cs, c.Plain) (hc' : ∀ c ∈ cs', c.Plain) (w : HWalkgen K) (fb : K)
    (hr : HumReaches hull o (cs ++ .setNbSamples n :: cs') w) :
    ∀ r, w.solve hull o fb ≠ .ok r := by
  rintro ⟨b, w3⟩ hs
  obtain ⟨w1, idx, qp, sv, dX, sv', hp, hsv, hdim, -, -, -⟩ := HWalkgen.solve_stages hs
  obtain ⟨p1, p2, a, b', h1, h2, h3⟩ := HWalkgen.prepare_frame hr.inv hp
  have h3 := h3 hr.history.table
  obtain ⟨w₀, h0, hrun⟩ := hr
  obtain ⟨t1, t2, t3, t4, t5, t6⟩ := HWalkgen.make_table h0
  obtain ⟨u, hu, hrun⟩ := HWalkgen.run_append hrun
  obtain ⟨⟨b2, v⟩, hv, hrun⟩ := bind_eq_ok.1 hrun
  have f1 := HWalkgen.run_frame (HumInv.make h0) hc hu
  have iu : HumInv u := (HumInv.make h0).run hu
  have f2 := HWalkgen.run_frame (iu.step hv) hc' hrun
  obtain ⟨_, -, hv⟩ := bind_eq_ok.1 hv
  obtain ⟨l, hl, hv⟩ := bind_eq_ok.1 hv
  obtain ⟨s, hsup, hv⟩ := bind_eq_ok.1 hv
  obtain ⟨-, rfl⟩ := Prod.mk.inj (Except.ok.inj hv)
  obtain ⟨_, -, hl⟩ := bind_eq_ok.1 hl
  obtain ⟨_, -, hsup⟩ := bind_eq_ok.1 hsup
  obtain rfl := Except.ok.inj hsup
  obtain ⟨-, -, q2, -⟩ := Lip.refresh_fresh (l := { u.lip with N := n }) iu.fresh.auto hl
  obtain ⟨g1, g2, g3, g4, g5⟩ := computeConstantPart_dims (w := { u with
      lip := l, sup := { u.sup with N := n }, boundSize := 2 * l.N
      dX := Vec.const (2 * l.N + 2 * u.sup.M) 0, X := Vec.const (2 * n + 2 * u.sup.M) 0 })
    (f1.withCop.trans t4) (f1.withFeet.trans t5) (f1.maxCtr.trans t3)
  have f := f2.trans p1
  have hN : w1.lip.N = n := f.N.trans ((congrArg Lip.N g4).trans q2)
  have hm : w1.maxCtr = 0 := f.maxCtr.trans g1
  obtain ⟨rfl, rfl⟩ := nbCtr_off (f.withCop.trans g2) (f.withFeet.trans g3) h1
  have hd := f.solvers.trans g5
  have hd0 : HWalkgen.solverDims { u with
      lip := l, sup := { u.sup with N := n }, boundSize := 2 * l.N
      dX := Vec.const (2 * l.N + 2 * u.sup.M) 0, X := Vec.const (2 * n + 2 * u.sup.M) 0 } =
      [(2, 0), (4, 0)] := f1.solvers.trans t6
  rw [hd0] at hd
  have hg : w1.solverDims[idx]? = some (sv.nbVar, sv.nbCtr) := by
    unfold HWalkgen.solverDims
    rw [List.getElem?_map, hsv]
    rfl
  rw [hd] at hg
  rw [hm, Nat.zero_add, Nat.div_one, Nat.mod_one, hN] at h3
  have hv : sv.nbVar = 2 * n + 2 * idx := hdim.1.symm.trans h3.1
  have q2 : l.N = n := q2
  match idx, hg, hv with
  | 0, hg, hv =>
    have e : ((2, 0) : ℕ × ℕ) = (sv.nbVar, sv.nbCtr) := Option.some.inj hg
    have e := (Prod.mk.inj e).1
    omega
  | 1, hg, hv =>
    have e : ((4, 0) : ℕ × ℕ) = (sv.nbVar, sv.nbCtr) := Option.some.inj hg
    have e := (Prod.mk.inj e).1
    omega
  | k + 2, hg, hv =>
    have hg : (HWalkgen.table n 0 fun i j => (2 * l.N + 2 * i, j))[k]? = some (sv.nbVar, sv.nbCtr) := hg
    obtain ⟨-, e⟩ := table_getElem? hg
    have e := (Prod.mk.inj e).1
    rw [Nat.zero_add, Nat.div_one, q2] at e
    omega

/-- A diamond: its four edges are general. -/
def demoDiamond : Polygon ℚ :=
  match Polygon.ofVertices ⟨4, fun i => if i = 0 then ⟨2, 0⟩ else if i = 1 then ⟨0, 2⟩ else
    if i = 2 then ⟨-2, 0⟩ else ⟨0, -2⟩⟩ with
  | .ok g => g
  | .error _ => Polygon.none

def demoDiamondCalls : List (HCall ℚ) :=
  [.setConfig true false, .setCop true demoDiamond, .setCop false demoDiamond]

set_option maxRecDepth 100000 in
theorem diamond_checks : okAnd (fun w => decide (w.maxCtr = 0 ∧ demoDiamond.nbGeneral = 4 ∧
      okAnd (fun c => decide (c = (4, 0))) (w.begin 1 >>= HWalkgen.nbCtr fun _ => .ok demoDiamond) = true ∧
      w.qps.length = 2 ∧ faultOf (w.prepare (fun _ => .ok demoDiamond) 1) = some .outOfRange))
    (HWalkgen.make >>= fun w => w.run (fun _ => .ok demoDiamond) (fun _ _ _ => (true, fun _ => 0))
      demoDiamondCalls) = true := by
  decide +kernel

/-- **C42 is false: polygons.** A user of one sample turns the CoP constraint on before giving the
polygons of the feet (a diamond, also the hull of the two coincident feet): there are four constraints,
the table of matrices has two entries, and `solve` reads beyond its end, for every solver. -/
theorem C42_violated_polygons (o : Oracle ℚ) :
    ∃ w w', HumReaches (fun _ => .ok demoDiamond) o demoDiamondCalls w ∧ w.maxCtr = 0 ∧
      w.begin 1 = .ok w' ∧ w'.nbCtr (fun _ => .ok demoDiamond) = .ok (4, 0) ∧ w.qps.length = 2 ∧
      w.solve (fun _ => .ok demoDiamond) o 1 = .error .outOfRange := by
  obtain ⟨w, h, hc⟩ := okAnd_true diamond_checks
  obtain ⟨w0, h0, hw⟩ := bind_eq_ok.1 h
  obtain ⟨c1, -, c2, c4, c3⟩ := of_decide_eq_true hc
  obtain ⟨n, hn, c2⟩ := okAnd_true c2
  obtain ⟨w', hw', hn⟩ := bind_eq_ok.1 hn
  have c2 := of_decide_eq_true c2
  refine ⟨w, w', ⟨w0, h0, hw⟩, c1, hw', by rw [hn, c2], c4, ?_⟩
  unfold HWalkgen.solve
  rw [faultOf_some c3]
  rfl

/-- The user of `demoWalkCalls` without constraints (three samples): the matrices have the right size,
`prepare` succeeds, but the selected solver has 2 variables, not 6, and its assertion fails. -/
def demoSampleCalls : List (HCall ℚ) :=
  [.setInitialDoubleSupportLength 1, .setNbSamples 3, .setStepPeriod 1, .setKin true demoRect,
    .setKin false demoRect, .setCop true demoRect, .setCop false demoRect, .setMove true]

set_option maxRecDepth 100000 in
theorem sample_checks : okAnd (fun w => decide (
      okAnd (fun r => decide (r.2.2.Q.rows = 2 * 3 + 2 * r.1.sup.M ∧
        (r.1.solvers[r.2.1]?.map fun s => s.nbVar) ≠ some (2 * 3 + 2 * r.1.sup.M)))
        (w.prepare (fun _ => .ok demoRect) 1) = true ∧
      faultOf (w.solve (fun _ => .ok demoRect) oneOracle 1) = some .assertFail))
    (HWalkgen.make >>= fun w => w.run (fun _ => .ok demoRect) oneOracle demoSampleCalls) = true := by
  decide +kernel

/-- The hypotheses of `C42_violated_samples` hold for a user whose problem is well formed up to the
choice of the solver. -/
example : ∃ w w' idx qp, HumReaches (fun _ => .ok demoRect) oneOracle demoSampleCalls w ∧
    w.prepare (fun _ => .ok demoRect) 1 = .ok (w', idx, qp) ∧ qp.Q.rows = 2 * 3 + 2 * w'.sup.M ∧
    (w'.solvers[idx]?.map fun s => s.nbVar) ≠ some (2 * 3 + 2 * w'.sup.M) ∧
    w.solve (fun _ => .ok demoRect) oneOracle 1 = .error .assertFail := by
  obtain ⟨w, h, hc⟩ := okAnd_true sample_checks
  obtain ⟨w0, h0, hw⟩ := bind_eq_ok.1 h
  obtain ⟨c1, c2⟩ := of_decide_eq_true hc
  obtain ⟨⟨w', idx, qp⟩, hp, c1⟩ := okAnd_true c1
  obtain ⟨c3, c4⟩ := of_decide_eq_true c1
  exact ⟨w, w', idx, qp, ⟨w0, h0, hw⟩, hp, c3, c4, faultOf_some c2⟩

example : demoSampleCalls = [.setInitialDoubleSupportLength 1] ++ .setNbSamples 3 ::
    [.setStepPeriod 1, .setKin true demoRect, .setKin false demoRect, .setCop true demoRect,
      .setCop false demoRect, .setMove true] := rfl

/-- The hypotheses of `C42_matrices_partial` hold for the user of `demoWalkCalls`. -/
example : ∃ w w' idx qp, HumReaches (fun _ => .ok demoRect) (fun _ _ _ => (true, fun _ => 0)) demoWalkCalls w ∧
    w.prepare (fun _ => .ok demoRect) 1 = .ok (w', idx, qp) ∧ w'.sup.M = 2 := by
  obtain ⟨⟨w', idx, qp⟩, h, hp⟩ := okAnd_true demo_walk_checks
  obtain ⟨w, hw, h⟩ := bind_eq_ok.1 h
  obtain ⟨w0, h0, hw⟩ := bind_eq_ok.1 hw
  exact ⟨w, w', idx, qp, ⟨w0, h0, hw⟩, h, (of_decide_eq_true hp).1⟩

/-- A user of one sample walks. -/
def demoOneCalls : List (HCall ℚ) :=
  [.setInitialDoubleSupportLength 1, .setStepPeriod 1, .setKin true demoRect,
    .setKin false demoRect, .setCop true demoRect, .setCop false demoRect, .setMove true, .solve 1]

set_option maxRecDepth 100000 in
theorem plain_checks : okAnd (fun r => decide (r.2.1.sup.M = 1 ∧ r.2.1.lip.N = 1))
    (do
      let w ← HWalkgen.make >>= fun w => w.run (fun _ => .ok demoRect) oneOracle
        demoOneCalls
      let r ← w.prepare (fun _ => .ok demoRect) 1
      pure (w, r)) = true := by
  decide +kernel

/-- The hypotheses of `C42_solver_partial` hold for a user of one sample who walks. -/
example : ∃ w w' idx qp, HumReaches (fun _ => .ok demoRect) oneOracle
      demoOneCalls w ∧
    w.prepare (fun _ => .ok demoRect) 1 = .ok (w', idx, qp) ∧ w'.sup.M = 1 ∧ w'.lip.N = 1 := by
  obtain ⟨r, h, hp⟩ := okAnd_true plain_checks
  obtain ⟨w, hw, h⟩ := bind_eq_ok.1 h
  obtain ⟨⟨w', idx, qp⟩, h1, h⟩ := bind_eq_ok.1 h
  obtain ⟨w0, h0, hw⟩ := bind_eq_ok.1 hw
  obtain rfl := Except.ok.inj h
  obtain ⟨c1, c2⟩ := of_decide_eq_true hp
  exact ⟨w, w', idx, qp, ⟨w0, h0, hw⟩, h1, c1, c2⟩

end MPC
