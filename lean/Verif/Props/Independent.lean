import Verif.Lemmas.QPExist
import Verif.Props.ZebCycle
import Verif.Props.Between

/-!
# Property C78: the motion does not depend on the solver
-/

set_option linter.unusedSectionVars false

namespace MPC

open Finset

/-- **C78, existence.** Over the real numbers, a QP of consistent dimensions that has a feasible point has a solution. -/
theorem C78_solution_exists (qp : QPMatrices ℝ) (n m : ℕ) (hm : qp.DimensionsAreConsistent n m) :
    (∃ d, Spec.Feasible qp d) ↔ ∃ d, Spec.IsSolution qp d :=
  ⟨solution_exists hm, fun ⟨d, hd⟩ => ⟨d, hd.1⟩⟩

/-- **C78, feasibility.** Over the real numbers, a solver that finds solutions finds feasible points: `C58_recursive_partial`
and `C77_recursive_partial` apply to it. -/
theorem C78_finds_feasible (o : Oracle ℝ) (ho : Spec.FindsSolution o) : Spec.FindsFeasible o :=
  fun n qp it ⟨_, _, hm⟩ hf => (ho n qp it (solution_exists hm hf)).1

theorem solveResult_congr {o o' : Oracle ℝ} {w : TrajWalkgen ℝ} {qp : QPMatrices ℝ} {fb : ℝ}
    (h : ∀ i < w.solver.nbVar, (o w.solver.calls qp 10000).2 i = (o' w.solver.calls qp 10000).2 i) :
    solveResult o w qp fb = solveResult o' w qp fb := by
  have : ∀ i, (if i < w.solver.nbVar then (o w.solver.calls qp 10000).2 i else w.dX.get i)
      = if i < w.solver.nbVar then (o' w.solver.calls qp 10000).2 i else w.dX.get i := by
    intro i
    split
    · exact h i ‹_›
    · rfl
  unfold solveResult
  simp only [this]

theorem zSolveResult_congr {o o' : Oracle ℝ} {N : ℕ} {w : Zeb ℝ} {qp : QPMatrices ℝ} {fb : ℝ}
    (h : ∀ i < w.solver.nbVar, (o w.solver.calls qp 10000).2 i = (o' w.solver.calls qp 10000).2 i) :
    zSolveResult o N w qp fb = zSolveResult o' N w qp fb := by
  have : ∀ i, (if i < w.solver.nbVar then (o w.solver.calls qp 10000).2 i else w.dX.get i)
      = if i < w.solver.nbVar then (o' w.solver.calls qp 10000).2 i else w.dX.get i := by
    intro i
    split
    · exact h i ‹_›
    · rfl
  unfold zSolveResult
  simp only [this]

/-- Along the calls `cs`, whenever the problem is solved the weighting of the jerks is positive, and the QP given to the
solver has a feasible point. -/
def TrajSolvable (o : Oracle ℝ) (cs : List (TrajCall ℝ)) : Prop :=
  ∀ cs₁ fb cs₂, cs = cs₁ ++ .solve fb :: cs₂ → 0 < (settingsOf cs₁).weighting.jerkMinimization ∧
    ∀ w qp, TrajReaches o cs₁ w → GivesToSolver w fb qp → ∃ d, Spec.Feasible qp d

/-- The same for `ZebulonWalkgen`. -/
def ZebSolvable (o : Oracle ℝ) (tr : Trig ℝ) (cx cy : ℝ) (cs : List (ZebCall ℝ)) : Prop :=
  ∀ cs₁ fb cs₂, cs = cs₁ ++ .solve fb :: cs₂ → 0 < (zebSettingsOf cx cy cs₁).weighting.jerkMinimization ∧
    ∀ w qp, ZebReaches o tr cx cy cs₁ w → ZebGives tr w fb qp → ∃ d, Spec.Feasible qp d

theorem trajReaches_snoc {o : Oracle ℝ} {cs : List (TrajCall ℝ)} {c : TrajCall ℝ} {w' : TrajWalkgen ℝ} :
    TrajReaches o (cs ++ [c]) w' ↔ ∃ w b, TrajReaches o cs w ∧ w.step o c = .ok (b, w') := by
  constructor
  · intro h
    unfold TrajReaches at h
    obtain ⟨w0, e0, h⟩ := bind_eq_ok.1 h
    rw [run_append] at h
    obtain ⟨w, e, h⟩ := bind_eq_ok.1 h
    obtain ⟨⟨b, w1⟩, e1, h⟩ := bind_eq_ok.1 h
    cases h
    exact ⟨w, b, by unfold TrajReaches; rw [e0, ok_bind, e], e1⟩
  · rintro ⟨w, b, hw, e⟩
    rw [reaches_append hw]
    simp [TrajWalkgen.run, e, ok_bind]

theorem zebReaches_snoc {o : Oracle ℝ} {tr : Trig ℝ} {cx cy : ℝ} {cs : List (ZebCall ℝ)} {c : ZebCall ℝ} {w' : Zeb ℝ} :
    ZebReaches o tr cx cy (cs ++ [c]) w' ↔ ∃ w b, ZebReaches o tr cx cy cs w ∧ w.step o tr c = .ok (b, w') := by
  constructor
  · intro h
    unfold ZebReaches at h
    obtain ⟨w0, e0, h⟩ := bind_eq_ok.1 h
    rw [zRun_append] at h
    obtain ⟨w, e, h⟩ := bind_eq_ok.1 h
    obtain ⟨⟨b, w1⟩, e1, h⟩ := bind_eq_ok.1 h
    cases h
    exact ⟨w, b, by unfold ZebReaches; rw [e0, ok_bind, e], e1⟩
  · rintro ⟨w, b, hw, e⟩
    rw [zReaches_append hw]
    simp [Zeb.run, e, ok_bind]

/-- A call has the same effect with both solvers. -/
theorem traj_step_eq {o o' : Oracle ℝ} (ho : Spec.FindsSolution o) (ho' : Spec.FindsSolution o')
    {s : Spec.TrajSettings ℝ} {w : TrajWalkgen ℝ} (h : TrajInv s w) (c : TrajCall ℝ)
    (hs : ∀ fb, c = .solve fb → 0 < s.weighting.jerkMinimization ∧
      ∀ qp, GivesToSolver w fb qp → ∃ d, Spec.Feasible qp d) {r : Bool × TrajWalkgen ℝ} (e : w.step o c = .ok r) :
    w.step o' c = .ok r := by
  cases c with
  | solve fb =>
    obtain ⟨hj, hf⟩ := hs fb rfl
    obtain ⟨hfb, hr⟩ := codePre_of_ok h _ (.solve fb) e
    obtain ⟨qp, hg, hq, hsol⟩ := givesToSolver_of_prepared h hr hfb
    have hex := solution_exists (hq.consistent h) (hf qp hg)
    have hu := prepared_unique h hq hj (ho w.solver.calls qp 10000 hex) (ho' w.solver.calls qp 10000 hex)
    have e1 := hsol o
    have e2 := hsol o'
    rw [solveResult_congr (o' := o') fun i hi => hu i (by rwa [h.nbVar] at hi)] at e1
    change w.solve o fb = .ok r at e
    rw [e1] at e
    cases e
    exact e2
  | _ => exact e

theorem zeb_step_eq {o o' : Oracle ℝ} (ho : Spec.FindsSolution o) (ho' : Spec.FindsSolution o') {tr : Trig ℝ}
    {cx cy : ℝ} {cs : List (ZebCall ℝ)} {w : Zeb ℝ} (hw : ZebReaches o tr cx cy cs w) (c : ZebCall ℝ)
    (hs : ∀ fb, c = .solve fb → 0 < (zebSettingsOf cx cy cs).weighting.jerkMinimization ∧
      ∀ qp, ZebGives tr w fb qp → ∃ d, Spec.Feasible qp d) {r : Bool × Zeb ℝ} (e : w.step o tr c = .ok r) :
    w.step o' tr c = .ok r := by
  have h := zReachable_inv hw
  cases c with
  | solve fb =>
    obtain ⟨hj, hf⟩ := hs fb rfl
    obtain ⟨hfb, hr⟩ := zCodePre_of_ok h _ (.solve fb) e
    obtain ⟨qp, u, ps, v, qs, hg, hq, hsol⟩ := zebGives_of_inv h hr hfb
    obtain ⟨qp', hg', -, -, -, -, hu⟩ := C57_convex hw hr hfb
    obtain rfl := hg.unique h hg'
    have hex := solution_exists (hq.consistent h) (hf qp hg)
    have hu := (hu hj).2 _ _ (ho w.solver.calls qp 10000 hex) (ho' w.solver.calls qp 10000 hex)
    have e1 := hsol o
    have e2 := hsol o'
    rw [zSolveResult_congr (o' := o') fun i hi => hu i (by rwa [h.qp.nbVar] at hi)] at e1
    change w.solve o tr fb = .ok r at e
    rw [e1] at e
    cases e
    exact e2
  | _ => exact e

/-- **C78, `TrajectoryWalkgen`.** Two solvers that find solutions lead to the same generator after any calls, as long as
the weighting of the jerks is positive and the QPs have feasible points. -/
theorem C78_trajectory (o o' : Oracle ℝ) (ho : Spec.FindsSolution o) (ho' : Spec.FindsSolution o')
    (cs : List (TrajCall ℝ)) (hs : TrajSolvable o cs) (w : TrajWalkgen ℝ) (hw : TrajReaches o cs w) :
    TrajReaches o' cs w := by
  induction cs using List.reverseRecOn generalizing w with
  | nil => exact hw
  | append_singleton cs c ih =>
    obtain ⟨w1, b, hw1, e⟩ := trajReaches_snoc.1 hw
    refine trajReaches_snoc.2 ⟨w1, b, ih (fun cs₁ fb cs₂ hc => hs cs₁ fb (cs₂ ++ [c]) (by simp [hc])) w1 hw1, ?_⟩
    refine traj_step_eq ho ho' (reachable_inv hw1) c (fun fb hc => ?_) e
    obtain ⟨h1, h2⟩ := hs cs fb [] (by rw [hc])
    exact ⟨h1, fun qp => h2 w1 qp hw1⟩

/-- **C78, `ZebulonWalkgen`.** The same for `ZebulonWalkgen`. -/
theorem C78_zebulon (o o' : Oracle ℝ) (ho : Spec.FindsSolution o) (ho' : Spec.FindsSolution o') (tr : Trig ℝ) (cx cy : ℝ)
    (cs : List (ZebCall ℝ)) (hs : ZebSolvable o tr cx cy cs) (w : Zeb ℝ) (hw : ZebReaches o tr cx cy cs w) :
    ZebReaches o' tr cx cy cs w := by
  induction cs using List.reverseRecOn generalizing w with
  | nil => exact hw
  | append_singleton cs c ih =>
    obtain ⟨w1, b, hw1, e⟩ := zebReaches_snoc.1 hw
    refine zebReaches_snoc.2 ⟨w1, b, ih (fun cs₁ fb cs₂ hc => hs cs₁ fb (cs₂ ++ [c]) (by simp [hc])) w1 hw1, ?_⟩
    refine zeb_step_eq ho ho' hw1 c (fun fb hc => ?_) e
    obtain ⟨h1, h2⟩ := hs cs fb [] (by rw [hc])
    exact ⟨h1, fun qp => h2 w1 qp hw1⟩

theorem trajSolvable_free (o : Oracle ℝ) {cs : List (TrajCall ℝ)} (hs : ∀ cs₁ fb cs₂, cs = cs₁ ++ .solve fb :: cs₂ →
    0 < (settingsOf cs₁).weighting.jerkMinimization ∧ (settingsOf cs₁).constrained = false) : TrajSolvable o cs := by
  intro cs₁ fb cs₂ hc
  obtain ⟨h1, h2⟩ := hs cs₁ fb cs₂ hc
  refine ⟨h1, fun w qp hw hg => ⟨fun _ => 0, ?_⟩⟩
  have h : TrajInv (settingsOf cs₁) w := reachable_inv hw
  obtain ⟨_, _, e, -⟩ := hg o
  obtain ⟨hfb, hr⟩ := codePre_of_ok h _ (.solve fb) e
  obtain ⟨qp', hg', hq, -⟩ := givesToSolver_of_prepared h hr hfb
  obtain rfl := hg.unique h hg'
  rw [prepared_free hq h2]
  intro i _
  rw [abs_zero]
  norm_num [MAXBOUND]

/-- **C78, without constraints.** When the motion constraints are off at every `solve`, only the weighting of the jerks
matters. -/
theorem C78_trajectory_free (o o' : Oracle ℝ) (ho : Spec.FindsSolution o) (ho' : Spec.FindsSolution o')
    (cs : List (TrajCall ℝ)) (hs : ∀ cs₁ fb cs₂, cs = cs₁ ++ .solve fb :: cs₂ →
      0 < (settingsOf cs₁).weighting.jerkMinimization ∧ (settingsOf cs₁).constrained = false) (w : TrajWalkgen ℝ) :
    TrajReaches o cs w ↔ TrajReaches o' cs w :=
  ⟨C78_trajectory o o' ho ho' cs (trajSolvable_free o hs) w, C78_trajectory o' o ho' ho cs (trajSolvable_free o' hs) w⟩

/-- **C78, tracking with constraints.** Under the conditions of `C58_recursive_partial`, the QPs have solutions at every
`solve`, and two solvers that find solutions lead to the same generator. -/
theorem C78_trajectory_tracking (o o' : Oracle ℝ) (ho : Spec.FindsSolution o) (ho' : Spec.FindsSolution o')
    (cs : List (TrajCall ℝ)) (w : TrajWalkgen ℝ) (hw : TrajReaches o cs w) (hw' : TrajReaches o' cs w)
    (hr : (settingsOf cs).RefsCurrent) (hc : (settingsOf cs).constrained = true)
    (hJ : 2 * (settingsOf cs).accLimit ≤ (settingsOf cs).jerkLimit * (settingsOf cs).period)
    (hx : Spec.StateWithin (settingsOf cs) w.getState) (cs' : List (TrajCall ℝ))
    (ht : ∀ c ∈ cs', Spec.Tracking (settingsOf cs) c)
    (hj : ∀ cs₁ fb cs₂, cs' = cs₁ ++ .solve fb :: cs₂ → 0 < (settingsOf (cs ++ cs₁)).weighting.jerkMinimization) :
    ∃ w', TrajReaches o (cs ++ cs') w' ∧ TrajReaches o' (cs ++ cs') w' := by
  have hrec := C58_recursive_partial o (C78_finds_feasible o ho) cs w hw hr hc hJ hx
  induction cs' using List.reverseRecOn with
  | nil => exact ⟨w, by simpa using hw, by simpa using hw'⟩
  | append_singleton cs' c ih =>
    obtain ⟨w1, h1, h1'⟩ := ih (fun d hd => ht d (by simp [hd]))
      (fun cs₁ fb cs₂ e => hj cs₁ fb (cs₂ ++ [c]) (by simp [e]))
    obtain ⟨w2, h2, -⟩ := hrec (cs' ++ [c]) ht
    rw [← List.append_assoc] at h2 ⊢
    obtain ⟨w1', b, h3, e⟩ := trajReaches_snoc.1 h2
    obtain rfl : w1 = w1' := Except.ok.inj (h1.symm.trans h3)
    refine ⟨w2, h2, trajReaches_snoc.2 ⟨w1, b, h1', traj_step_eq ho ho' (reachable_inv h1) c (fun fb hcs => ?_) e⟩⟩
    refine ⟨hj cs' fb [] (by rw [hcs]), fun qp hg => ?_⟩
    obtain ⟨w1', h4, -, qp', hg', hf⟩ := hrec cs' (fun d hd => ht d (by simp [hd]))
    obtain rfl : w1 = w1' := Except.ok.inj (h1.symm.trans h4)
    have hfb : fb = (settingsOf cs).period := by
      have := ht c (by simp)
      rw [hcs] at this
      exact this
    rw [hfb] at hg
    obtain rfl := hg.unique (reachable_inv h1) hg'
    exact hf

theorem zebSolvable_free (o : Oracle ℝ) (tr : Trig ℝ) {cx cy : ℝ} {cs : List (ZebCall ℝ)}
    (hs : ∀ cs₁ fb cs₂, cs = cs₁ ++ .solve fb :: cs₂ → 0 < (zebSettingsOf cx cy cs₁).weighting.jerkMinimization ∧
      (zebSettingsOf cx cy cs₁).config = ⟨false, false, false, false⟩) : ZebSolvable o tr cx cy cs := by
  intro cs₁ fb cs₂ hc
  obtain ⟨h1, h2⟩ := hs cs₁ fb cs₂ hc
  refine ⟨h1, fun w qp hw hg => ⟨fun _ => 0, ?_⟩⟩
  have h := zReachable_inv hw
  obtain ⟨_, _, e, -⟩ := hg o
  obtain ⟨hfb, hr⟩ := zCodePre_of_ok h _ (.solve fb) e
  obtain ⟨qp', _, _, _, _, hg', hq, -⟩ := zebGives_of_inv h hr hfb
  obtain rfl := hg.unique h hg'
  rw [zFeasible h.part.user.model.N_pos hq]
  unfold zebSettingsOf at h2
  rw [h2]
  simp [MAXBOUND]

/-- **C78, `ZebulonWalkgen` without constraints.** -/
theorem C78_zebulon_free (o o' : Oracle ℝ) (ho : Spec.FindsSolution o) (ho' : Spec.FindsSolution o') (tr : Trig ℝ)
    (cx cy : ℝ) (cs : List (ZebCall ℝ)) (hs : ∀ cs₁ fb cs₂, cs = cs₁ ++ .solve fb :: cs₂ →
      0 < (zebSettingsOf cx cy cs₁).weighting.jerkMinimization ∧
      (zebSettingsOf cx cy cs₁).config = ⟨false, false, false, false⟩) (w : Zeb ℝ) :
    ZebReaches o tr cx cy cs w ↔ ZebReaches o' tr cx cy cs w :=
  ⟨C78_zebulon o o' ho ho' tr cx cy cs (zebSolvable_free o tr hs) w,
    C78_zebulon o' o ho' ho tr cx cy cs (zebSolvable_free o' tr hs) w⟩

/-- **C78, tracking with the base constraint.** Under the conditions of `C77_recursive_partial`, the QPs have solutions at
every `solve`, and two solvers that find solutions lead to the same generator. -/
theorem C78_zebulon_tracking (o o' : Oracle ℝ) (ho : Spec.FindsSolution o) (ho' : Spec.FindsSolution o') (tr : Trig ℝ)
    (cx cy : ℝ) (cs : List (ZebCall ℝ)) (w : Zeb ℝ) (hw : ZebReaches o tr cx cy cs w) (hw' : ZebReaches o' tr cx cy cs w)
    (hr : (zebSettingsOf cx cy cs).RefsCurrent) (hc : (zebSettingsOf cx cy cs).config = ⟨false, false, true, false⟩)
    (hJ : 2 * (zebSettingsOf cx cy cs).accLimit ≤ (zebSettingsOf cx cy cs).jerkLimit * (zebSettingsOf cx cy cs).period)
    (hx : (zebSettingsOf cx cy cs).BaseWithin w.state) (cs' : List (ZebCall ℝ))
    (ht : ∀ c ∈ cs', Spec.ZebTracking (zebSettingsOf cx cy cs) c)
    (hj : ∀ cs₁ fb cs₂, cs' = cs₁ ++ .solve fb :: cs₂ →
      0 < (zebSettingsOf cx cy (cs ++ cs₁)).weighting.jerkMinimization) :
    ∃ w', ZebReaches o tr cx cy (cs ++ cs') w' ∧ ZebReaches o' tr cx cy (cs ++ cs') w' := by
  have hrec := C77_recursive_partial (C78_finds_feasible o ho) hw hr hc hJ hx
  induction cs' using List.reverseRecOn with
  | nil => exact ⟨w, by simpa using hw, by simpa using hw'⟩
  | append_singleton cs' c ih =>
    obtain ⟨w1, h1, h1'⟩ := ih (fun d hd => ht d (by simp [hd]))
      (fun cs₁ fb cs₂ e => hj cs₁ fb (cs₂ ++ [c]) (by simp [e]))
    obtain ⟨w2, h2, -⟩ := hrec (cs' ++ [c]) ht
    rw [← List.append_assoc] at h2 ⊢
    obtain ⟨w1', b, h3, e⟩ := zebReaches_snoc.1 h2
    obtain rfl : w1 = w1' := Except.ok.inj (h1.symm.trans h3)
    refine ⟨w2, h2, zebReaches_snoc.2 ⟨w1, b, h1', zeb_step_eq ho ho' h1 c (fun fb hcs => ?_) e⟩⟩
    refine ⟨hj cs' fb [] (by rw [hcs]), fun qp hg => ?_⟩
    obtain ⟨w1', h4, -, qp', hg', hf⟩ := hrec cs' (fun d hd => ht d (by simp [hd]))
    obtain rfl : w1 = w1' := Except.ok.inj (h1.symm.trans h4)
    have hfb : fb = (zebSettingsOf cx cy cs).period := by
      have := ht c (by simp)
      rw [hcs] at this
      exact this
    rw [hfb] at hg
    obtain rfl := hg.unique (zReachable_inv h1) hg'
    exact hf

/-- A solver that prefers the jerk increments `c` to any other solution. -/
noncomputable def preferring (c : ℝ) : Oracle ℝ := fun _ qp _ =>
  (true, open Classical in if Spec.IsSolution qp fun _ => c then fun _ => c
    else if h : ∃ d, Spec.IsSolution qp d then h.choose else fun _ => 0)

theorem preferring_finds (c : ℝ) : Spec.FindsSolution (preferring c) := by
  intro n qp it h
  unfold preferring
  by_cases hc : Spec.IsSolution qp fun _ => c
  · simp only [if_pos hc]; exact hc
  · simp only [if_neg hc, dif_pos h]; exact h.choose_spec

/-- **The weighting matters.** Without weighting of the jerks, the motion depends on the solver: after one `solve` two
solvers, which both find solutions, have moved the robot to different positions. -/
theorem C78_weighting_needed : ∃ (o o' : Oracle ℝ) (cs : List (TrajCall ℝ)) (w w' : TrajWalkgen ℝ),
    Spec.FindsSolution o ∧ Spec.FindsSolution o' ∧ TrajReaches o cs w ∧ TrajReaches o' cs w' ∧
    (settingsOf cs).weighting.jerkMinimization = 0 ∧ w.getState.p ≠ w'.getState.p := by
  set cs0 : List (TrajCall ℝ) := [.setVelRef (Vec.const 1 0), .setPosRef (Vec.const 1 0)] with hcs0
  obtain ⟨w, hw⟩ := C16_no_fault_partial (preferring 0) cs0
    (by simp [cs0, Spec.TrajSettings.Legal, Spec.TrajSettings.Pre, Spec.TrajSettings.apply, Spec.TrajSettings.init,
      Vec.const])
    (by simp [cs0, Spec.TrajSettings.RefsCurrentAtSolves])
  have h : TrajInv (settingsOf cs0) w := reachable_inv hw
  have hw' : TrajReaches (preferring 1) cs0 w := by
    refine (C78_trajectory_free (preferring 0) _ (preferring_finds 0) (preferring_finds 1) cs0 (fun cs₁ fb cs₂ e => ?_) w).1 hw
    have : TrajCall.solve fb ∈ cs0 := by rw [e]; simp
    simp [cs0] at this
  obtain ⟨qp, -, hq, hsol⟩ := givesToSolver_of_prepared h (⟨rfl, rfl⟩ : (settingsOf cs0).RefsCurrent) one_pos
  have hc : ∀ c : ℝ, |c| ≤ 1 → Spec.IsSolution qp fun _ => c := by
    intro c hc
    refine ⟨?_, fun y _ => le_of_eq ?_⟩
    · rw [prepared_free hq rfl]
      intro i _
      exact hc.trans (by norm_num [MAXBOUND])
    · rw [prepared_cost h hq, prepared_cost h hq]
      simp [Spec.trajCost, settingsOf, cs0, Spec.TrajSettings.after, Spec.TrajSettings.apply, Spec.TrajSettings.init]
  have hN : 0 < w.solver.nbVar := by rw [h.nbVar]; exact h.N_pos
  have key : ∀ c : ℝ, |c| ≤ 1 → (solveResult (preferring c) w qp 1).getState.p
      = (stateStep (w.X.get 0 + c) 1 w.model.state).p := by
    intro c hc1
    have : (preferring c w.solver.calls qp 10000).2 0 = c := by simp [preferring, hc c hc1]
    simp only [solveResult, TrajWalkgen.getState, hN, if_true, this]
  have h1 : TrajReaches (preferring 0) (cs0 ++ [.solve 1]) (solveResult (preferring 0) w qp 1) :=
    trajReaches_snoc.2 ⟨w, true, hw, hsol (preferring 0)⟩
  have h2 : TrajReaches (preferring 1) (cs0 ++ [.solve 1]) (solveResult (preferring 1) w qp 1) :=
    trajReaches_snoc.2 ⟨w, true, hw', hsol (preferring 1)⟩
  refine ⟨preferring 0, preferring 1, cs0 ++ [.solve 1], _, _, preferring_finds 0, preferring_finds 1, h1, h2, rfl, ?_⟩
  rw [key 0 (by simp), key 1 (by simp)]
  simp only [stateStep]
  intro e
  linarith

/-! ### The hypotheses are met -/

/-- A history with two calls of `solve` meets the hypotheses of `C78_trajectory`, with three samples and motion
constraints that are not in use. -/
example (o : Oracle ℝ) : ∃ (cs : List (TrajCall ℝ)) (w : TrajWalkgen ℝ), TrajReaches o cs w ∧ TrajSolvable o cs ∧
    cs = [.setNbSamples 3, .setWeightings ⟨1, 2, 1 / 100⟩, .setVelRef (Vec.const 3 1), .setPosRef (Vec.const 3 0),
      .solve 1, .solve (1 / 2)] := by
  obtain ⟨w, hw⟩ := C16_no_fault_partial o [.setNbSamples 3, .setWeightings ⟨1, 2, 1 / 100⟩, .setVelRef (Vec.const 3 1),
      .setPosRef (Vec.const 3 0), .solve 1, .solve (1 / 2)]
    (by simp [Spec.TrajSettings.Legal, Spec.TrajSettings.Pre, Spec.TrajSettings.apply, Spec.TrajSettings.init, Vec.const])
    (by simp [Spec.TrajSettings.RefsCurrentAtSolves, Spec.TrajSettings.RefsCurrent, Spec.TrajSettings.apply,
      Spec.TrajSettings.init, Vec.const])
  refine ⟨_, w, hw, trajSolvable_free o fun cs₁ fb cs₂ hc => ?_, rfl⟩
  rcases cs₁ with _ | ⟨_, _ | ⟨_, _ | ⟨_, _ | ⟨_, _ | ⟨_, _ | ⟨_, _⟩⟩⟩⟩⟩⟩ <;> simp at hc
  · obtain ⟨rfl, rfl, rfl, rfl, -⟩ := hc
    simp [settingsOf, Spec.TrajSettings.after, Spec.TrajSettings.apply, Spec.TrajSettings.init]
  · obtain ⟨rfl, rfl, rfl, rfl, rfl, -⟩ := hc
    simp [settingsOf, Spec.TrajSettings.after, Spec.TrajSettings.apply, Spec.TrajSettings.init]

/-- The hypotheses of `C78_trajectory_tracking` are met by a robot that moves at the limits. -/
example (o o' : Oracle ℝ) : ∃ (cs : List (TrajCall ℝ)) (w : TrajWalkgen ℝ), TrajReaches o cs w ∧ TrajReaches o' cs w ∧
    (settingsOf cs).RefsCurrent ∧ (settingsOf cs).constrained = true ∧
    2 * (settingsOf cs).accLimit ≤ (settingsOf cs).jerkLimit * (settingsOf cs).period ∧
    Spec.StateWithin (settingsOf cs) w.getState ∧ (∀ c ∈ [.setPosRef (Vec.const 1 5), .solve 1],
      Spec.Tracking (settingsOf cs) c) ∧ ∀ cs₁ fb cs₂, [.setPosRef (Vec.const 1 5), .solve 1] = cs₁ ++ .solve fb :: cs₂ →
      0 < (settingsOf (cs ++ cs₁)).weighting.jerkMinimization := by
  obtain ⟨w4, hw4⟩ := C16_no_fault_partial o
    ([.setJerkLimit 2, .setWeightings ⟨1, 2, 1 / 100⟩, .setConfig true])
    (by simp [Spec.TrajSettings.Legal, Spec.TrajSettings.Pre, Spec.TrajSettings.apply])
    (by simp [Spec.TrajSettings.RefsCurrentAtSolves])
  have h : TrajInv _ w4 := reachable_inv hw4
  obtain ⟨b, w, e, -⟩ := step_ok h o (.setState (Vec.const 3 1)) rfl
  have hw : TrajReaches o ([.setJerkLimit 2, .setWeightings ⟨1, 2, 1 / 100⟩, .setConfig true] ++ [.setState (Vec.const 3 1)])
      w := trajReaches_snoc.2 ⟨w4, b, hw4, e⟩
  have hx : w.getState = ⟨1, 1, 1⟩ := by
    simp only [TrajWalkgen.step, bind_eq_ok, res_pure, Except.ok.injEq, Prod.mk.injEq] at e
    obtain ⟨_, _, _, rfl⟩ := e
    rfl
  refine ⟨_, w, hw, hw, ⟨rfl, rfl⟩, rfl, ?_, ?_, ?_, fun cs₁ fb cs₂ hc => ?_⟩
  · simp [settingsOf, Spec.TrajSettings.after, Spec.TrajSettings.apply, Spec.TrajSettings.init]
  · rw [hx]; simp [settingsOf, Spec.TrajSettings.after, Spec.TrajSettings.apply, Spec.TrajSettings.init, Spec.StateWithin]
  · simp [settingsOf, Spec.TrajSettings.after, Spec.TrajSettings.apply, Spec.TrajSettings.init, Spec.Tracking, Vec.const]
  · rcases cs₁ with _ | ⟨_, _ | ⟨_, _⟩⟩ <;> simp at hc
    obtain ⟨rfl, -⟩ := hc
    simp [settingsOf, Spec.TrajSettings.after, Spec.TrajSettings.apply, Spec.TrajSettings.init]

/-- A history with two calls of `solve` meets the hypotheses of `C78_zebulon`. -/
example (o : Oracle ℝ) (tr : Trig ℝ) (cx cy : ℝ) : ∃ (cs : List (ZebCall ℝ)) (w : Zeb ℝ), ZebReaches o tr cx cy cs w ∧
    ZebSolvable o tr cx cy cs ∧ cs = [.setWeightings ⟨1, 0, 0, 1, 1, 0, 0⟩, .solve 1, .solve (1 / 2)] := by
  obtain ⟨w, hw⟩ := C54_no_fault_partial o tr cx cy [.setWeightings ⟨1, 0, 0, 1, 1, 0, 0⟩, .solve 1, .solve (1 / 2)]
    (by simp [Spec.ZebSettings.Legal, Spec.ZebSettings.Pre])
    (by simp [Spec.ZebSettings.RefsCurrentAtSolves, Spec.ZebSettings.RefsCurrent, Spec.ZebSettings.apply,
      Spec.ZebSettings.init, Vec.const])
  refine ⟨_, w, hw, zebSolvable_free o tr fun cs₁ fb cs₂ hc => ?_, rfl⟩
  rcases cs₁ with _ | ⟨_, _ | ⟨_, _ | ⟨_, _⟩⟩⟩ <;> simp at hc
  · obtain ⟨rfl, -⟩ := hc
    simp [zebSettingsOf, Spec.ZebSettings.after, Spec.ZebSettings.apply, Spec.ZebSettings.init]
  · obtain ⟨rfl, rfl, -⟩ := hc
    simp [zebSettingsOf, Spec.ZebSettings.after, Spec.ZebSettings.apply, Spec.ZebSettings.init]

end MPC
