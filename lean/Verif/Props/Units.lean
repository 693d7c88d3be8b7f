import Verif.Lemmas.Units
import Verif.Props.Independent
/-!
# C86: the motion of `TrajectoryWalkgen` does not depend on the units and on the direction of the axis

Statements: `Verif.Spec.Units`.
-/
set_option linter.unusedSectionVars false
namespace MPC
open Finset
variable {K : Type} [Field K] [LinearOrder K] [IsStrictOrderedRing K]

/-- **C86, one call.** Two generators that are in the same situation up to units, after whatever histories, and whose solvers
return solutions, give the same jerks and states up to units. -/
theorem C86_solve (u : Spec.Units K) (hu : u.Good) (o₁ o₂ o o' : Oracle K) (cs₁ cs₂ : List (TrajCall K))
    (w₁ w₂ : TrajWalkgen K) (hw₁ : TrajReaches o₁ cs₁ w₁) (hw₂ : TrajReaches o₂ cs₂ w₂)
    (hs : settingsOf cs₂ = u.settings (settingsOf cs₁)) (hx : w₂.getState = u.state w₁.getState)
    (hr : (settingsOf cs₁).RefsCurrent) (hj : 0 < (settingsOf cs₁).weighting.jerkMinimization)
    (hc : (settingsOf cs₁).constrained = true) (fb : K) (hfb : 0 < fb) :
    ∃ qp₁ qp₂, GivesToSolver w₁ fb qp₁ ∧ GivesToSolver w₂ (u.time * fb) qp₂ ∧
      ((∃ d, Spec.IsSolution qp₁ d) → ∃ d, Spec.IsSolution qp₂ d) ∧ ∀ b₁ b₂ w₁' w₂',
      Spec.IsSolution qp₁ (o w₁.solver.calls qp₁ 10000).2 → Spec.IsSolution qp₂ (o' w₂.solver.calls qp₂ 10000).2 →
      w₁.solve o fb = .ok (b₁, w₁') → w₂.solve o' (u.time * fb) = .ok (b₂, w₂') →
      (∀ i < (settingsOf cs₁).nbSamples, w₂'.X.get i = u.jerk (w₁'.X.get i)) ∧ w₂'.getState = u.state w₁'.getState := by
  have h₁ : TrajInv (settingsOf cs₁) w₁ := reachable_inv hw₁
  have h₂ : TrajInv (settingsOf cs₂) w₂ := reachable_inv hw₂
  rw [hs] at h₂
  generalize settingsOf cs₁ = s at *
  have hr₂ : (u.settings s).RefsCurrent := hr
  obtain ⟨qp₁, hg₁, hq₁, hs₁⟩ := givesToSolver_of_prepared h₁ hr hfb
  obtain ⟨qp₂, hg₂, hq₂, hs₂⟩ := givesToSolver_of_prepared h₂ hr₂ (mul_pos hu.time hfb)
  refine ⟨qp₁, qp₂, hg₁, hg₂, fun ⟨d, hd⟩ => ⟨_, units_solution hu h₁ h₂ hq₁ hq₂ hc hx hd⟩,
    fun b₁ b₂ w₁' w₂' hsol₁ hsol₂ e₁ e₂ => ?_⟩
  rw [hs₁ o] at e₁; cases e₁
  rw [hs₂ o'] at e₂; cases e₂
  have hd := units_solution hu h₁ h₂ hq₁ hq₂ hc hx hsol₁
  have hj₂ : 0 < (u.settings s).weighting.jerkMinimization := by
    have h1 := hu.time.ne'
    have h2 := hu.length
    have h3 := hu.scale
    change 0 < u.scale * (u.time ^ 3 / u.length) ^ 2 * _
    positivity
  have hX : ∀ i < s.nbSamples, (solveResult o' w₂ qp₂ (u.time * fb)).X.get i = u.jerk ((solveResult o w₁ qp₁ fb).X.get i) := by
    intro i hi
    have hu1 := prepared_unique h₂ hq₂ hj₂ hsol₂ hd i hi
    have hi₁ : i < w₁.solver.nbVar := by rw [h₁.nbVar]; exact hi
    have hi₂ : i < w₂.solver.nbVar := by rw [h₂.nbVar]; exact hi
    simp only [solveResult, hi₁, hi₂, if_true, hu1]
    ring
  refine ⟨hX, ?_⟩
  have g₁ : (solveResult o w₁ qp₁ fb).getState = stateStep ((solveResult o w₁ qp₁ fb).X.get 0) fb w₁.model.state := rfl
  have g₂ : (solveResult o' w₂ qp₂ (u.time * fb)).getState
      = stateStep ((solveResult o' w₂ qp₂ (u.time * fb)).X.get 0) (u.time * fb) w₂.model.state := rfl
  have hx' : w₂.model.state = u.state w₁.model.state := hx
  have sc : ∀ (j t : K) (z : State3 K), stateStep j t z = Spec.cubic z j t := fun j t z => by
    simp only [stateStep, Spec.cubic, State3.mk.injEq]
    exact ⟨by ring, by ring, trivial⟩
  rw [g₁, g₂, hX 0 h₁.N_pos, hx', sc, sc, units_cubic hu]

theorem trajReaches_append {o : Oracle K} {cs : List (TrajCall K)} {c : TrajCall K} {w' : TrajWalkgen K} :
    TrajReaches o (cs ++ [c]) w' ↔ ∃ w b, TrajReaches o cs w ∧ w.step o c = .ok (b, w') := by
  constructor
  · intro h
    unfold TrajReaches at h
    obtain ⟨w0, e0, h⟩ := bind_eq_ok.1 h
    rw [run_append] at h
    obtain ⟨w, e, h⟩ := bind_eq_ok.1 h
    obtain ⟨⟨b, w1⟩, e1, h⟩ := bind_eq_ok.1 h
    cases h
    exact ⟨w, b, by unfold TrajReaches; rw [e0, ok_bind, e], e1⟩
  · rintro ⟨w, b, hw, e⟩
    rw [reaches_append hw]
    simp [TrajWalkgen.run, e, ok_bind]

/-- **C86.** Two generators that are in the same situation up to units stay so during any calls, given to the second one in
its units, when both solvers find solutions; at each `solve` the weighting of the jerks has to be positive, the motion
constraints on, and the QP of the first generator solvable. -/
theorem C86_units (u : Spec.Units K) (hu : u.Good) (o o' : Oracle K) (ho : Spec.FindsSolution o)
    (ho' : Spec.FindsSolution o') (cs₁ cs₂ : List (TrajCall K)) (w₁ w₂ : TrajWalkgen K) (hw₁ : TrajReaches o cs₁ w₁)
    (hw₂ : TrajReaches o' cs₂ w₂) (hs : settingsOf cs₂ = u.settings (settingsOf cs₁))
    (hx : w₂.getState = u.state w₁.getState) (cs : List (TrajCall K))
    (hsol : ∀ ds fb es, cs = ds ++ .solve fb :: es → 0 < (settingsOf (cs₁ ++ ds)).weighting.jerkMinimization ∧
      (settingsOf (cs₁ ++ ds)).constrained = true ∧
      ∀ w qp, TrajReaches o (cs₁ ++ ds) w → GivesToSolver w fb qp → ∃ d, Spec.IsSolution qp d)
    (w₁' : TrajWalkgen K) (hw₁' : TrajReaches o (cs₁ ++ cs) w₁') :
    ∃ w₂', TrajReaches o' (cs₂ ++ cs.map u.call) w₂' ∧ w₂'.getState = u.state w₁'.getState ∧
      settingsOf (cs₂ ++ cs.map u.call) = u.settings (settingsOf (cs₁ ++ cs)) := by
  have happ : ∀ (as : List (TrajCall K)) c, settingsOf (as ++ [c]) = (settingsOf as).apply c := fun as c => by
    simp [settingsOf, Spec.TrajSettings.after]
  induction cs using List.reverseRecOn generalizing w₁' with
  | nil =>
    rw [List.append_nil] at hw₁'
    obtain rfl : w₁ = w₁' := Except.ok.inj (hw₁.symm.trans hw₁')
    exact ⟨w₂, by simpa using hw₂, hx, by simpa using hs⟩
  | append_singleton cs c ih =>
    rw [← List.append_assoc] at hw₁'
    obtain ⟨v₁, b, hv₁, e⟩ := trajReaches_append.1 hw₁'
    obtain ⟨v₂, hv₂, hst, hse⟩ := ih (fun ds fb es h => hsol ds fb (es ++ [c]) (by simp [h])) v₁ hv₁
    have i₁ : TrajInv (settingsOf (cs₁ ++ cs)) v₁ := reachable_inv hv₁
    have i₂ : TrajInv (settingsOf (cs₂ ++ cs.map u.call)) v₂ := reachable_inv hv₂
    have hp := codePre_of_ok i₁ o c e
    have hp₂ := units_codePre hu hp
    rw [← hse] at hp₂
    obtain ⟨b₂, v₂', e₂, -⟩ := step_ok i₂ o' (u.call c) hp₂
    refine ⟨v₂', ?_, ?_, ?_⟩
    · rw [List.map_append, ← List.append_assoc]
      exact trajReaches_append.2 ⟨v₂, b₂, hv₂, e₂⟩
    · cases c with
      | solve fb =>
        obtain ⟨hj, hc, hq⟩ := hsol cs fb [] rfl
        obtain ⟨qp₁, qp₂, g₁, g₂, hex, hmain⟩ := C86_solve u hu o o' o o' _ _ v₁ v₂ hv₁ hv₂ hse hst hp.2 hj hc fb hp.1
        have k₁ := hq v₁ qp₁ hv₁ g₁
        exact (hmain _ _ _ _ (ho _ _ _ k₁) (ho' _ _ _ (hex k₁)) e e₂).2
      | setState v =>
        rw [setter_state i₁ e, setter_state i₂ e₂]
        simp [Spec.Units.state]
      | _ => rw [setter_state i₁ e, setter_state i₂ e₂]; exact hst
    · rw [List.map_append, ← List.append_assoc, ← List.append_assoc, happ, List.map_singleton, happ, hse, units_apply]

/-- **C86, tracking.** Over the real numbers and under the conditions of `C58_recursive_partial` for the first generator,
nothing has to be assumed about the QPs. -/
theorem C86_tracking (u : Spec.Units ℝ) (hu : u.Good) (o o' : Oracle ℝ) (ho : Spec.FindsSolution o)
    (ho' : Spec.FindsSolution o') (cs₁ cs₂ : List (TrajCall ℝ)) (w₁ w₂ : TrajWalkgen ℝ) (hw₁ : TrajReaches o cs₁ w₁)
    (hw₂ : TrajReaches o' cs₂ w₂) (hs : settingsOf cs₂ = u.settings (settingsOf cs₁))
    (hx : w₂.getState = u.state w₁.getState) (hr : (settingsOf cs₁).RefsCurrent)
    (hc : (settingsOf cs₁).constrained = true)
    (hJ : 2 * (settingsOf cs₁).accLimit ≤ (settingsOf cs₁).jerkLimit * (settingsOf cs₁).period)
    (hin : Spec.StateWithin (settingsOf cs₁) w₁.getState) (cs : List (TrajCall ℝ))
    (ht : ∀ c ∈ cs, Spec.Tracking (settingsOf cs₁) c)
    (hj : ∀ ds fb es, cs = ds ++ .solve fb :: es → 0 < (settingsOf (cs₁ ++ ds)).weighting.jerkMinimization) :
    ∃ w₁' w₂', TrajReaches o (cs₁ ++ cs) w₁' ∧ TrajReaches o' (cs₂ ++ cs.map u.call) w₂' ∧
      w₂'.getState = u.state w₁'.getState := by
  have hrec := C58_recursive_partial o (C78_finds_feasible o ho) cs₁ w₁ hw₁ hr hc hJ hin
  obtain ⟨w₁', h₁', -⟩ := hrec cs ht
  have hcon : ∀ ds : List (TrajCall ℝ), (∀ c ∈ ds, Spec.Tracking (settingsOf cs₁) c) →
      (settingsOf (cs₁ ++ ds)).constrained = true := by
    intro ds
    induction ds using List.reverseRecOn with
    | nil => intro _; simpa using hc
    | append_singleton ds c ih =>
      intro h
      have h1 := ih fun d hd => h d (by simp [hd])
      have h2 : settingsOf (cs₁ ++ (ds ++ [c])) = (settingsOf (cs₁ ++ ds)).apply c := by
        simp [settingsOf, Spec.TrajSettings.after]
      have h3 := h c (by simp)
      rw [h2]
      cases c <;> first | exact h1 | exact absurd h3 (by simp [Spec.Tracking])
  obtain ⟨w₂', h₂', h3, -⟩ := C86_units u hu o o' ho ho' cs₁ cs₂ w₁ w₂ hw₁ hw₂ hs hx cs (fun ds fb es e => by
    have htd : ∀ c ∈ ds, Spec.Tracking (settingsOf cs₁) c := fun c hcd => ht c (by simp [e, hcd])
    refine ⟨hj ds fb es e, hcon ds htd, fun w qp hw hg => ?_⟩
    obtain ⟨w', h4, -, qp', hg', hf⟩ := hrec ds htd
    obtain rfl : w = w' := Except.ok.inj (hw.symm.trans h4)
    have hfb : fb = (settingsOf cs₁).period := by
      have := ht (.solve fb) (by simp [e])
      exact this
    rw [hfb] at hg
    obtain rfl := hg.unique (reachable_inv hw) hg'
    obtain ⟨qp2, hg2, hq2, -⟩ := givesToSolver_of_prepared (reachable_inv hw)
      (codePre_of_ok (reachable_inv hw) o (.solve _) (hg o).choose_spec.choose_spec.1).2
      (codePre_of_ok (reachable_inv hw) o (.solve _) (hg o).choose_spec.choose_spec.1).1
    obtain rfl := hg.unique (reachable_inv hw) hg2
    exact solution_exists (hq2.consistent (reachable_inv hw)) hf) w₁' h₁'
  exact ⟨w₁', w₂', h₁', h₂', h3⟩

/-! ### A generator in metres and seconds, and one in centimetres and milliseconds with a reversed axis -/

/-- Calls that set everything. -/
def configure (T lv la lj p v a vr pr : ℝ) (w : TrajWeighting ℝ) : List (TrajCall ℝ) :=
  [.setNbSamples 2, .setSamplingPeriod T, .setVelRef ⟨2, fun _ => vr⟩, .setPosRef ⟨2, fun _ => pr⟩, .setVelLimit lv,
    .setAccLimit la, .setJerkLimit lj, .setWeightings w, .setConfig true,
    .setState ⟨3, fun i => if i = 0 then p else if i = 1 then v else a⟩]

def demoUnits : Spec.Units ℝ := ⟨-100, 5, 1000, 7⟩

/-- The hypotheses of `C86_tracking` are met. -/
example (o : Oracle ℝ) (ho : Spec.FindsSolution o) : ∃ w₁ w₂ : TrajWalkgen ℝ,
    TrajReaches o (configure (1 / 10) 1 2 40 3 (1 / 2) (-1) 1 4 ⟨1, 1, 1 / 100⟩ ++ [.solve (1 / 10), .solve (1 / 10)]) w₁ ∧
    TrajReaches o ((configure (1 / 10) 1 2 40 3 (1 / 2) (-1) 1 4 ⟨1, 1, 1 / 100⟩).map demoUnits.call ++
      [.solve 100, .solve 100]) w₂ ∧ w₂.getState = demoUnits.state w₁.getState := by
  have hu : demoUnits.Good := ⟨by norm_num [demoUnits], by norm_num [demoUnits], by norm_num [demoUnits]⟩
  set L := configure (1 / 10) 1 2 40 3 (1 / 2) (-1) 1 4 ⟨1, 1, 1 / 100⟩ with hL
  have leg : ∀ cs : List (TrajCall ℝ), cs = L ∨ cs = L.map demoUnits.call → ∃ w, TrajReaches o cs w := by
    intro cs h
    refine C16_no_fault_partial o cs ?_ ?_
    · rcases h with rfl | rfl <;>
        norm_num [hL, configure, demoUnits, Spec.Units.call, Spec.Units.velRef, Spec.Units.posRef, Spec.Units.weighting,
          Spec.TrajSettings.Legal, Spec.TrajSettings.Pre, Spec.TrajSettings.apply]
    · rcases h with rfl | rfl <;> simp [hL, configure, Spec.Units.call, Spec.TrajSettings.RefsCurrentAtSolves]
  obtain ⟨w₁, h₁⟩ := leg L (Or.inl rfl)
  obtain ⟨w₂, h₂⟩ := leg _ (Or.inr rfl)
  have hset : settingsOf (L.map demoUnits.call) = demoUnits.settings (settingsOf L) := rfl
  have st : ∀ (cs : List (TrajCall ℝ)) (v : Vec ℝ) w, TrajReaches o (cs ++ [.setState v]) w →
      w.getState = ⟨v.get 0, v.get 1, v.get 2⟩ := by
    intro cs v w h
    obtain ⟨w', b, h', e⟩ := trajReaches_append.1 h
    exact setter_state (reachable_inv h') e
  have s₁ : w₁.getState = ⟨3, 1 / 2, -1⟩ := by
    have := st (L.take 9) _ w₁ h₁
    rw [this]; norm_num
  have s₂ : w₂.getState = demoUnits.state ⟨3, 1 / 2, -1⟩ := by
    have := st ((L.map demoUnits.call).take 9) _ w₂ h₂
    rw [this]; norm_num [demoUnits, Spec.Units.state]
  have e1 : settingsOf L = ⟨2, 1 / 10, ⟨2, fun _ => 1⟩, ⟨2, fun _ => 4⟩, 1, 2, 40, ⟨1, 1, 1 / 100⟩, true⟩ := rfl
  obtain ⟨w₁', w₂', a, b, c⟩ := C86_tracking demoUnits hu o o ho ho L (L.map demoUnits.call) w₁ w₂ h₁ h₂ hset (by rw [s₁, s₂])
    ⟨rfl, rfl⟩ rfl (by rw [e1]; norm_num) (by rw [e1, s₁]; norm_num [Spec.StateWithin, abs_le])
    [.solve (1 / 10), .solve (1 / 10)] (fun c hc => by
      have : c = .solve (1 / 10) := by simpa using hc
      subst this; exact rfl) (fun ds fb es e => by
      have : ds = [] ∨ ds = [.solve (1 / 10)] := by
        match ds, e with
        | [], _ => exact Or.inl rfl
        | [c], e => exact Or.inr (by rw [(List.cons.inj e).1])
        | [_, _], e => simp at e
        | _ :: _ :: _ :: _, e => simp at e
      rcases this with rfl | rfl
      · change (0 : ℝ) < 1 / 100; norm_num
      · change (0 : ℝ) < 1 / 100; norm_num)
  refine ⟨w₁', w₂', a, ?_, c⟩
  have : [TrajCall.solve (1 / 10), .solve (1 / 10)].map demoUnits.call = [.solve (100 : ℝ), .solve 100] := by
    norm_num [Spec.Units.call, demoUnits]
  rwa [this] at b

end MPC
