import Verif.Props.Hold
import Verif.Props.CopWitness

/-! # Concrete runs for C73 -/

set_option linter.unusedSectionVars false

namespace MPC

theorem boxHull_points : Spec.HullOfPoints boxHull := by
  intro p p' h1 h2
  have e : (List.range p.size).map p.get = (List.range p'.size).map p'.get := by
    rw [← h1]
    exact List.map_congr_left fun i hi => h2 i (List.mem_range.1 hi)
  unfold boxHull
  rw [e]

/-! ### Starting to walk -/

/-- Three samples of one second, steps of `p` seconds, a double support of one second, all constraints. -/
def holdCalls (p : ℚ) : List (HCall ℚ) :=
  [.setInitialDoubleSupportLength 1, .setNbSamples 3, .setStepPeriod p, .setKin true demoRect, .setKin false demoRect,
    .setCop true demoRect, .setCop false demoRect, .setConfig true true, .setVelRef (Vec.const 6 0),
    .setComState .x ⟨3, fun i => [1, 1 / 2, 0].getD i 0⟩]

/-- A solver that moves the first footstep by `2 d` to the back and the second one by `2 d` to the front, in the first
cycle. -/
def holdOracle (d : ℚ) : Oracle ℚ := fun c _ _ => (true, fun i => if c = 0 then if i = 6 then -2 * d else
  if i = 7 then 2 * d else 0 else 0)

/-- What is evaluated about a new generator. -/
def holdStart (p : ℚ) (w : HWalkgen ℚ) : Bool :=
  decide (w.sup.N = 3 ∧ w.sup.T = 1 ∧ w.sup.stepPeriod = p ∧ w.sup.dsPeriod = 1 ∧
      0 < w.sup.left.kin.vertices.size ∧ 0 < w.sup.right.kin.vertices.size) &&
    decide ((w.sup.timeline.map fun p => (p.type, p.duration)) = [(.DS, 1)] ∧ w.sup.ttnp = 1 ∧ w.sup.M = 0 ∧
      w.sup.move = false ∧ w.X.size = 6) &&
    decide (w.sup.left.x.factor.size = 12 ∧ w.sup.left.y.factor.size = 12 ∧ w.sup.left.z.factor.size = 12) &&
    decide (w.sup.right.x.factor.size = 12 ∧ w.sup.right.y.factor.size = 12 ∧ w.sup.right.z.factor.size = 12)

theorem holdStart_ready {p : ℚ} {w : HWalkgen ℚ} (hp : p = 1 ∨ p = 2) (h : holdStart p w = true) :
    Ready (w.sup, w.X) ∧ Grid (1 / 2) w.sup ∧ w.sup.T = 1 ∧ w.sup.stepPeriod = p := by
  unfold holdStart at h
  simp only [Bool.and_eq_true, decide_eq_true_eq] at h
  obtain ⟨⟨⟨⟨c1, c2, c3, c4, c5, c6⟩, c7, c8, c9, c10, c11⟩, l⟩, r⟩ := h
  refine ⟨⟨by rw [c1]; omega, ?_, ?_, ?_, ⟨c5, c6⟩, ?_, ?_, c9, c10, by rw [c1]; exact c11, l, r⟩,
    ⟨?_, ⟨2, two_pos, ?_⟩, ?_, ⟨2, two_pos, ?_⟩, ?_⟩, c2, c3⟩
  · rw [c2]; norm_num [EPS]
  · rw [c3]; obtain rfl | rfl := hp <;> norm_num [EPS]
  · rw [c4]; norm_num [EPS]
  · dsimp only; rw [c4]; exact timeline_of_map c7
  · dsimp only; rw [c8, c4]
  · norm_num [EPS]
  · rw [c2]; norm_num
  · obtain rfl | rfl := hp
    · exact ⟨2, by omega, by rw [c3]; norm_num⟩
    · exact ⟨4, by omega, by rw [c3]; norm_num⟩
  · rw [c4]; norm_num
  · rw [c1, c2, c3]; obtain rfl | rfl := hp <;> norm_num

/-- Three cycles at the start of a walk, the last one up to its QP; then the rest of the plan is converted. -/
noncomputable def holdRun (w : HWalkgen ℚ) : Res (HWalkgen ℚ × ((HWalkgen ℚ × ℕ × QPMatrices ℚ) × (Bool × HWalkgen ℚ)) ×
    ((HWalkgen ℚ × ℕ × QPMatrices ℚ) × (Bool × HWalkgen ℚ)) × (HWalkgen ℚ × ℕ × QPMatrices ℚ) × Vec ℚ) := do
  let r ← (fitted w).answers boxHull (holdOracle 0) [.setMove true]
  let a ← cycleOf (holdOracle 0) (1 / 2) r.2
  let b ← cycleOf (holdOracle 0) (1 / 2) a.2.2
  let c ← b.2.2.prepare boxHull (1 / 2)
  let t ← HWalkgen.convert { c.1 with X := ⟨c.1.X.size, fun i => if i < 6 then b.2.2.X.get (i + 1) else c.1.X.get i⟩ }
  pure (r.2, a, b, c, t)

/-- What is evaluated about these cycles. -/
noncomputable def holdFacts (w : HWalkgen ℚ) : Bool :=
  okAnd (fun r =>
    cycleCheck (holdOracle 0) (1 / 2) 2 r.2.1.1.1 r.2.1.1.2.2 &&
    cycleCheck (holdOracle 0) (1 / 2) 1 r.2.2.1.1.1 r.2.2.1.1.2.2 &&
    decide (r.2.2.2.1.2.2.DimensionsAreConsistent (2 * r.2.2.2.1.1.lip.N + 2 * r.2.2.2.1.1.sup.M) 0) &&
    okAnd (fun m => decide (m = 2)) r.2.2.2.1.1.sup.nbCalls && exactCheck r.2.2.2.1.1 2 &&
    decide (r.2.1.1.1.sup.move = true ∧ r.2.2.1.1.1.sup.move = true ∧ r.2.2.1.1.1.lip.N = 3 ∧ r.2.2.1.1.1.lip.T = 1) &&
    decide (r.2.1.1.1.sup.M = 1 ∧ r.2.1.1.1.withFeet = true ∧ r.2.1.2.2.transformedX.get 0 ≠ 0 ∧
      r.2.2.1.2.2.transformedX.get 1 ≠ 0) &&
    okAnd (fun t => decide (0 < t.size)) (HWalkgen.convert { r.2.2.1.1.1 with X := r.2.2.1.1.1.X })) (holdRun w)

set_option maxRecDepth 100000 in
theorem hold_checks : okAnd (fun w => holdStart 2 w && holdFacts w)
    (HWalkgen.make >>= fun w => w.run boxHull zeroOracle (holdCalls 2)) = true := by
  decide +kernel

/-- A generator that was configured, ready to walk. -/
theorem holdStart_runs {p : ℚ} (hp : p = 1 ∨ p = 2) {wi w0 : HWalkgen ℚ} (ei : HWalkgen.make = .ok wi)
    (e : wi.run boxHull zeroOracle (holdCalls p) = .ok w0) (hs : holdStart p w0 = true) {o : Oracle ℚ} {w : HWalkgen ℚ}
    {fs : List Bool} (ew : (fitted w0).answers boxHull o [.setMove true] = .ok (fs, w)) :
    HumHistory boxHull w ∧ HumRuns boxHull o (· = 1 / 2) CanStop (fitted w0) w ∧ HumHistory boxHull (fitted w0) ∧
      Ready (w0.sup, w0.X) ∧ Grid (1 / 2) w0.sup ∧ w0.sup.T = 1 ∧ w0.sup.stepPeriod = p := by
  have hw : HumReaches boxHull zeroOracle (holdCalls p) w0 := ⟨wi, ei, e⟩
  have hH : HumHistory boxHull (fitted w0) := .solvers _ hw.history
  exact ⟨history_of_answers hH ew, runs_of_answers (cs := [.setMove true]) .refl ⟨Or.inl rfl, fun _ _ _ => trivial⟩ ew, hH,
    holdStart_ready hp hs⟩

/-- What these runs keep. -/
theorem hold_inv {o : Oracle ℚ} {w0 w : HWalkgen ℚ} (hH : HumHistory boxHull (fitted w0)) (hR : Ready (w0.sup, w0.X))
    (hG : Grid (1 / 2) w0.sup) (k : HumRuns boxHull o (· = 1 / 2) CanStop (fitted w0) w) :
    Reach (· = 1 / 2) CanStop (w.sup, w.X) ∧ Grid (1 / 2) w.sup ∧ w.sup.T = w0.sup.T ∧
      w.sup.stepPeriod = w0.sup.stepPeriod := by
  obtain ⟨-, i1, i2, i3, i4, i5⟩ := runs_inv (by norm_num) hH.inv hR k
  have i2 : w.sup.N = w0.sup.N := i2
  have i3 : w.sup.T = w0.sup.T := i3
  have i4 : w.sup.stepPeriod = w0.sup.stepPeriod := i4
  have i5 : w.sup.dsPeriod = w0.sup.dsPeriod := i5
  exact ⟨i1, ⟨hG.pos, by rw [i3]; exact hG.T, by rw [i4]; exact hG.step, by rw [i5]; exact hG.ds,
    by rw [i2, i3, i4]; exact hG.horizon⟩, i3, i4⟩

/-- Facts about the three cycles. -/
theorem hold_cycles : ∃ (o : Oracle ℚ) (w w' w2 v' v2 v'' : HWalkgen ℚ) (b b' : Bool) (qp qp' qp'' : QPMatrices ℚ)
    (t t' : Vec ℚ),
    (HumHistory boxHull w ∧ Reach (· = 1 / 2) CanStop (w.sup, w.X) ∧ Grid (1 / 2) w.sup ∧
      HumGives boxHull w (1 / 2) w' qp ∧ w.solve boxHull o (1 / 2) = .ok (b, w2) ∧ w'.sup.nbCalls = .ok 2 ∧
      HumGives boxHull w2 (1 / 2) v' qp' ∧ w'.lip.fb = 1 / 2 ∧ w'.ExactInverse 2 ∧ v'.ExactInverse 1 ∧
      HWalkgen.convert { v' with X := v'.X } = .ok t ∧ Spec.Feasible qp (o w'.calls qp 10000).2 ∧
      Spec.Feasible qp' (o v'.calls qp' 10000).2 ∧ w'.sup.move = true ∧ w'.withFeet = true ∧ w'.sup.M = 1 ∧
      w2.transformedX.get 0 ≠ 0) ∧
    (HumHistory boxHull w2 ∧ Reach (· = 1 / 2) CanStop (w2.sup, w2.X) ∧ Grid (1 / 2) w2.sup ∧
      w2.sup.T ≤ w2.sup.stepPeriod ∧ 1 / 2 < (w2.sup.stepPeriod - w2.sup.T) / 2 + EPS ∧
      w2.solve boxHull o (1 / 2) = .ok (b', v2) ∧ v'.sup.nbCalls = .ok 1 ∧ HumGives boxHull v2 (1 / 2) v'' qp'' ∧
      v'.sup.move = true ∧ v'.lip.fb = 1 / 2 ∧ v''.sup.nbCalls = .ok 2 ∧ v'.lip.T = 1 ∧ v'.lip.N = 3 ∧
      v''.ExactInverse 2 ∧ HWalkgen.convert { v'' with
        X := ⟨v''.X.size, fun i => if i < 6 then v2.X.get (i + 1) else v''.X.get i⟩ } = .ok t' ∧
      v2.transformedX.get 1 ≠ 0) := by
  obtain ⟨w0, e, h⟩ := okAnd_true hold_checks
  obtain ⟨wi, ei, e⟩ := bind_eq_ok.1 e
  simp only [Bool.and_eq_true] at h
  obtain ⟨hs, h⟩ := h
  obtain ⟨⟨w, ⟨⟨w', i, qp⟩, b, w2⟩, ⟨⟨v', i', qp'⟩, b', v2⟩, ⟨v'', i'', qp''⟩, t'⟩, er, h⟩ := okAnd_true h
  unfold holdRun at er
  obtain ⟨⟨fs, w1⟩, e1, er⟩ := bind_eq_ok.1 er
  obtain ⟨a, e2, er⟩ := bind_eq_ok.1 er
  obtain ⟨b1, e3, er⟩ := bind_eq_ok.1 er
  obtain ⟨c, e4, er⟩ := bind_eq_ok.1 er
  obtain ⟨t1, e5, er⟩ := bind_eq_ok.1 er
  simp only [pure, Except.pure, Except.ok.injEq, Prod.mk.injEq] at er
  obtain ⟨rfl, rfl, rfl, rfl, rfl⟩ := er
  simp only [Bool.and_eq_true, decide_eq_true_eq] at h
  obtain ⟨⟨⟨⟨⟨⟨⟨c1, c2⟩, c3⟩, c4⟩, c5⟩, c6, c7, c8, c9⟩, c10, c11, c12, c13⟩, c14⟩ := h
  obtain ⟨m, em, c4⟩ := okAnd_true c4
  rw [of_decide_eq_true c4] at em
  obtain ⟨t, et, -⟩ := okAnd_true c14
  obtain ⟨g1, g2, g3, g4, g5, g6, g7⟩ := cycleCheck_facts e2 c1
  obtain ⟨l1, l2, l3, l4, l5, l6, l7⟩ := cycleCheck_facts e3 c2
  obtain ⟨hh, hk, hH, hR, hG, hT, hS⟩ := holdStart_runs (.inr rfl) ei e hs e1
  obtain ⟨r1, r2, r3, r4⟩ := hold_inv hH hR hG hk
  have hk2 : HumRuns boxHull (holdOracle 0) (· = 1 / 2) CanStop (fitted w0) w2 := hk.call (c := .solve (1 / 2)) rfl g3
  obtain ⟨q1, q2, q3, q4⟩ := hold_inv hH hR hG hk2
  exact ⟨holdOracle 0, w1, w', w2, v', v2, v'', b, b', qp, qp', qp'', t, t1,
    ⟨hh, r1, r2, g1, g3, g5, l1, g6, g7, l7, et, g4, l4, c6, c11, c10, c12⟩,
    .call (c := .solve (1 / 2)) hh g3, q1, q2, by rw [q3, q4, hT, hS]; norm_num, by rw [q3, q4, hT, hS]; norm_num [EPS],
    l3, l5, ⟨_, _, _, e4, c3⟩, c7, l6, em, c9, c8, exactCheck_exact c5, e5, c13⟩

/-- The hypotheses of `C73_hold`, `C73_jerks_partial` and `C73_feasible_partial` are met when a walk starts, by a motion with jerks. -/
example : ∃ (o : Oracle ℚ) (w w' w2 w'' : HWalkgen ℚ) (b : Bool) (qp qp'' : QPMatrices ℚ) (t : Vec ℚ),
    HumHistory boxHull w ∧ Reach (· = 1 / 2) CanStop (w.sup, w.X) ∧ Grid (1 / 2) w.sup ∧
      HumGives boxHull w (1 / 2) w' qp ∧ w.solve boxHull o (1 / 2) = .ok (b, w2) ∧ w'.sup.nbCalls = .ok 2 ∧
      HumGives boxHull w2 (1 / 2) w'' qp'' ∧ w'.lip.fb = 1 / 2 ∧ w'.ExactInverse 2 ∧ w''.ExactInverse (2 - 1) ∧
      (∀ k < w2.X.size, w''.X.get k = w2.X.get k) ∧ HWalkgen.convert { w'' with X := w''.X } = .ok t ∧
      t.get 0 ≠ 0 ∧ Spec.HullOfPoints boxHull ∧ Spec.Feasible qp (o w'.calls qp 10000).2 ∧ w'.sup.move = true ∧
      w'.withFeet = true ∧ w'.sup.M = 1 := by
  obtain ⟨o, w, w', w2, v', v2, v'', b, b', qp, qp', qp'', t, t', ⟨h1, h2, h3, h4, h5, h6, h7, h8, h9, h10, h11, h12, -,
    h14, h15, h16, h17⟩, -⟩ := hold_cycles
  obtain ⟨-, -, -, hX⟩ := C73_hold boxHull o w w' w2 v' _ b qp qp' 2 h1 h2 h3 h4 h5 h6 le_rfl h7
  have hJ := C73_jerks_partial boxHull o w w' w2 v' _ b qp qp' 2 h1 h2 h3 h4 h5 h6 le_rfl h7 h8 h9 h10 v'.X t hX h11 0
    (h1.inv.prepare h4.choose_spec.choose_spec.choose_spec.1).1.fresh.N
  exact ⟨o, w, w', w2, v', b, qp, qp', t, h1, h2, h3, h4, h5, h6, h7, h8, h9, h10, hX, h11, by rw [hJ.1]; exact h17,
    boxHull_points, h12, h14, h15, h16⟩

/-- The hypotheses of `C73_next` and `C73_tail_partial` are met in the next cycle. -/
example : ∃ (o : Oracle ℚ) (w w' w2 w'' : HWalkgen ℚ) (b : Bool) (qp qp'' : QPMatrices ℚ) (X t : Vec ℚ),
    HumHistory boxHull w ∧ Reach (· = 1 / 2) CanStop (w.sup, w.X) ∧ Grid (1 / 2) w.sup ∧
      w.sup.T ≤ w.sup.stepPeriod ∧ 1 / 2 < (w.sup.stepPeriod - w.sup.T) / 2 + EPS ∧
      HumGives boxHull w (1 / 2) w' qp ∧ w.solve boxHull o (1 / 2) = .ok (b, w2) ∧ w'.sup.nbCalls = .ok 1 ∧
      HumGives boxHull w2 (1 / 2) w'' qp'' ∧ w'.sup.move = true ∧ w'.lip.fb = 1 / 2 ∧ w''.sup.nbCalls = .ok 2 ∧
      ((2 : ℤ) : ℚ) * (1 / 2) = w'.lip.T ∧ w'.ExactInverse 1 ∧ w''.ExactInverse 2 ∧
      (∀ i, i + 1 < w'.lip.N → X.get i = w2.X.get (i + 1) ∧ X.get (w'.lip.N + i) = w2.X.get (w'.lip.N + (i + 1))) ∧
      (∀ k, 2 * w'.lip.N ≤ k → X.get k = w''.X.get k) ∧ HWalkgen.convert { w'' with X := X } = .ok t ∧ t.get 0 ≠ 0 := by
  obtain ⟨o, w, w', w2, v', v2, v'', b, b', qp, qp', qp'', t, t', ⟨-, -, -, -, -, -, h7, -, -, h10, -⟩,
    k1, k2, k3, k4, k5, k6, k7, k8, k9, k10, k11, k12, k13, k14, k15, k16⟩ := hold_cycles
  have hX : ∀ i, i + 1 < v'.lip.N → (if i < 6 then v2.X.get (i + 1) else v''.X.get i) = v2.X.get (i + 1) ∧
      (if v'.lip.N + i < 6 then v2.X.get (v'.lip.N + i + 1) else v''.X.get (v'.lip.N + i))
        = v2.X.get (v'.lip.N + (i + 1)) := by
    intro i hi
    rw [k13] at hi ⊢
    rw [if_pos (by omega), if_pos (by omega)]
    exact ⟨rfl, rfl⟩
  have hX' : ∀ k, 2 * v'.lip.N ≤ k → (if k < 6 then v2.X.get (k + 1) else v''.X.get k) = v''.X.get k := by
    intro k hk
    rw [if_neg (by omega)]
  have hm : ((2 : ℤ) : ℚ) * (1 / 2) = v'.lip.T := by rw [k12]; norm_num
  have hJ := C73_tail_partial boxHull o w2 v' v2 v'' _ b' qp' qp'' k1 k2 k3 k4 k5 h7 k6 k7 k8 (.inl k9) k10 2 k11 hm h10
    k14 _ t' hX hX' k15 0 (by omega)
  exact ⟨o, w2, v', v2, v'', b', qp', qp'', _, t', k1, k2, k3, k4, k5, h7, k6, k7, k8, k9, k10, k11, hm, h10, k14, hX, hX',
    k15, by rw [hJ.1]; exact k16⟩

/-! ### Footsteps that move apart -/

/-- Two cycles, the last one up to its QP. -/
noncomputable def apartRun (w : HWalkgen ℚ) : Res (HWalkgen ℚ × ((HWalkgen ℚ × ℕ × QPMatrices ℚ) × (Bool × HWalkgen ℚ)) ×
    (HWalkgen ℚ × ℕ × QPMatrices ℚ)) := do
  let r ← (fitted w).answers boxHull (holdOracle 1) [.setMove true]
  let a ← cycleOf (holdOracle 1) (1 / 2) r.2
  let b ← a.2.2.prepare boxHull (1 / 2)
  pure (r.2, a, b)

/-- What is evaluated about these cycles. -/
noncomputable def apartFacts (w : HWalkgen ℚ) : Bool :=
  okAnd (fun r =>
    cycleCheck (holdOracle 1) (1 / 2) 2 r.2.1.1.1 r.2.1.1.2.2 &&
    decide (r.2.2.2.2.DimensionsAreConsistent (2 * r.2.2.1.lip.N + 2 * r.2.2.1.sup.M) 0) &&
    decide (r.2.1.1.1.sup.move = true ∧ ¬ Spec.Feasible r.2.2.2.2 (fun _ => 0))) (apartRun w)

set_option maxRecDepth 100000 in
theorem apart_checks : okAnd (fun w => holdStart 1 w && apartFacts w)
    (HWalkgen.make >>= fun w => w.run boxHull zeroOracle (holdCalls 1)) = true := by
  decide +kernel

/-- **C73 is violated**: inside of a sampling interval, a plan that is feasible in a cycle is not feasible in the next one. The
first footstep is moved to the back and the second one to the front; all the hypotheses of `C73_feasible_partial` are met. -/
theorem C73_violated : ∃ (o : Oracle ℚ) (w w' w2 w'' : HWalkgen ℚ) (b : Bool) (qp qp'' : QPMatrices ℚ),
    HumHistory boxHull w ∧ Reach (· = 1 / 2) CanStop (w.sup, w.X) ∧ Grid (1 / 2) w.sup ∧
      HumGives boxHull w (1 / 2) w' qp ∧ w.solve boxHull o (1 / 2) = .ok (b, w2) ∧
      Spec.Feasible qp (o w'.calls qp 10000).2 ∧ w'.sup.nbCalls = .ok 2 ∧ HumGives boxHull w2 (1 / 2) w'' qp'' ∧
      w'.sup.move = true ∧ ¬ Spec.Feasible qp'' (fun _ => 0) := by
  obtain ⟨w0, e, h⟩ := okAnd_true apart_checks
  obtain ⟨wi, ei, e⟩ := bind_eq_ok.1 e
  simp only [Bool.and_eq_true] at h
  obtain ⟨hs, h⟩ := h
  obtain ⟨⟨w, ⟨⟨w', i, qp⟩, b, w2⟩, ⟨w'', i'', qp''⟩⟩, er, h⟩ := okAnd_true h
  unfold apartRun at er
  obtain ⟨⟨fs, w1⟩, e1, er⟩ := bind_eq_ok.1 er
  obtain ⟨a, e2, er⟩ := bind_eq_ok.1 er
  obtain ⟨b1, e3, er⟩ := bind_eq_ok.1 er
  simp only [pure, Except.pure, Except.ok.injEq, Prod.mk.injEq] at er
  obtain ⟨rfl, rfl, rfl⟩ := er
  simp only [Bool.and_eq_true, decide_eq_true_eq] at h
  obtain ⟨⟨c1, c2⟩, c3, c4⟩ := h
  obtain ⟨g1, g2, g3, g4, g5, g6, g7⟩ := cycleCheck_facts e2 c1
  obtain ⟨hh, hk, hH, hR, hG, hT, hS⟩ := holdStart_runs (.inl rfl) ei e hs e1
  obtain ⟨r1, r2, -⟩ := hold_inv hH hR hG hk
  exact ⟨_, w1, w', w2, w'', b, qp, qp'', hh, r1, r2, g1, g3, g4, g5, ⟨_, _, _, e3, c2⟩, c3, c4⟩

/-! ### The end of a walk -/

/-- A solver that puts the local CoP at the back and at the right of its bounds, moves the first footstep when it is
planned (call number 2) and moves it again to the back one second before the end of the walk (call number 4). -/
def stopOracle : Oracle ℚ := fun c q _ =>
  (true, fun i => if i < 4 then q.xl.get i else if c = 2 then [3, 1].getD (i - 4) 0 else if c = 4 ∧ i = 4 then -4 else 0)

/-- The walk up to the last two cycles, the last one up to its QP. -/
noncomputable def stopRun (w : HWalkgen ℚ) : Res (HWalkgen ℚ × HWalkgen ℚ ×
    ((HWalkgen ℚ × ℕ × QPMatrices ℚ) × (Bool × HWalkgen ℚ)) × (HWalkgen ℚ × ℕ × QPMatrices ℚ)) := do
  let r1 ← (fitted w).answers boxHull stopOracle lastStart
  let r2 ← r1.2.answers boxHull stopOracle [.setMove false, .solve (1 / 2)]
  let a ← cycleOf stopOracle (1 / 2) r2.2
  let b ← a.2.2.prepare boxHull (1 / 2)
  pure (r1.2, r2.2, a, b)

/-- What is evaluated about these cycles. -/
noncomputable def stopFacts (w : HWalkgen ℚ) : Bool :=
  okAnd (fun r => decide (r.1.sup.timeline[0]?.map (·.type) = some .leftSS) &&
    cycleCheck stopOracle (1 / 2) 2 r.2.2.1.1.1 r.2.2.1.1.2.2 &&
    decide (r.2.2.2.2.2.DimensionsAreConsistent (2 * r.2.2.2.1.lip.N + 2 * r.2.2.2.1.sup.M) 0) &&
    decide (r.2.2.1.1.1.withFeet = false ∧ ¬ Spec.Feasible r.2.2.2.2.2 (fun _ => 0))) (stopRun w)

set_option maxRecDepth 100000 in
theorem stop_checks : okAnd (fun w => startCheck w && stopFacts w)
    (HWalkgen.make >>= fun w => w.run boxHull zeroOracle lastCalls) = true := by
  decide +kernel

/-- **C73 is violated at the end of a walk**: the last footstep is moved during the last single support, and the CoP planned
for the double support is not feasible in the next cycle, although there are no kinematic constraints. -/
theorem C73_violated_stop : ∃ (o : Oracle ℚ) (w w' w2 w'' : HWalkgen ℚ) (b : Bool) (qp qp'' : QPMatrices ℚ),
    HumHistory boxHull w ∧ Reach (· = 1 / 2) CanStop (w.sup, w.X) ∧ Grid (1 / 2) w.sup ∧
      HumGives boxHull w (1 / 2) w' qp ∧ w.solve boxHull o (1 / 2) = .ok (b, w2) ∧
      Spec.Feasible qp (o w'.calls qp 10000).2 ∧ w'.sup.nbCalls = .ok 2 ∧ HumGives boxHull w2 (1 / 2) w'' qp'' ∧
      w'.withFeet = false ∧ ¬ Spec.Feasible qp'' (fun _ => 0) := by
  obtain ⟨w0, e, h⟩ := okAnd_true stop_checks
  obtain ⟨wi, ei, e⟩ := bind_eq_ok.1 e
  simp only [Bool.and_eq_true] at h
  obtain ⟨hs, h⟩ := h
  obtain ⟨⟨w1, w, ⟨⟨w', i, qp⟩, b, w2⟩, ⟨w'', i'', qp''⟩⟩, er, h⟩ := okAnd_true h
  unfold stopRun at er
  obtain ⟨⟨f1, r1⟩, e1, er⟩ := bind_eq_ok.1 er
  obtain ⟨⟨f2, r2⟩, e2, er⟩ := bind_eq_ok.1 er
  obtain ⟨a, e3, er⟩ := bind_eq_ok.1 er
  obtain ⟨b1, e4, er⟩ := bind_eq_ok.1 er
  simp only [pure, Except.pure, Except.ok.injEq, Prod.mk.injEq] at er
  obtain ⟨rfl, rfl, rfl, rfl⟩ := er
  simp only [Bool.and_eq_true, decide_eq_true_eq] at h
  obtain ⟨⟨⟨h1, c1⟩, c2⟩, c3, c4⟩ := h
  obtain ⟨g1, g2, g3, g4, g5, g6, g7⟩ := cycleCheck_facts e3 c1
  obtain ⟨hR, hG, hT, hS⟩ := startCheck_ready hs
  have hw : HumReaches boxHull zeroOracle lastCalls w0 := ⟨wi, ei, e⟩
  have hH : HumHistory boxHull (fitted w0) := .solvers _ hw.history
  have k1 : HumRuns boxHull stopOracle (· = 1 / 2) CanStop (fitted w0) r1 :=
    runs_of_answers (cs := lastStart) .refl ⟨Or.inl rfl,
      fun _ _ _ => ⟨rfl, fun _ _ _ => ⟨rfl, fun _ _ _ => ⟨rfl, fun _ _ _ => trivial⟩⟩⟩⟩ e1
  obtain ⟨f, hf, hft⟩ := Option.map_eq_some_iff.1 h1
  have k2 : HumRuns boxHull stopOracle (· = 1 / 2) CanStop (fitted w0) r2 :=
    runs_of_answers (cs := [.setMove false, .solve (1 / 2)]) k1 ⟨Or.inr (Or.inl ⟨f, hf, by rw [hft]; simp⟩),
      fun _ _ _ => ⟨rfl, fun _ _ _ => trivial⟩⟩ e2
  obtain ⟨i1, i2, -⟩ := hold_inv hH hR hG k2
  exact ⟨_, r2, w', w2, w'', b, qp, qp'', history_of_answers (history_of_answers hH e1) e2, i1, i2, g1, g3, g4, g5,
    ⟨_, _, _, e4, c2⟩, c3, c4⟩

end MPC
