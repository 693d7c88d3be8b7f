import Verif.Lemmas.Superpose
import Verif.Props.Units
/-!
# C91: without motion constraints, the motion of `TrajectoryWalkgen` is linear in the states and references

Statements: `Verif.Spec.Superpose`.
-/
set_option linter.unusedSectionVars false
namespace MPC
open Finset
variable {K : Type} [Field K] [LinearOrder K] [IsStrictOrderedRing K]

/-- **C91, one call.** Three generators whose settings and states are superposed, after whatever histories, and whose solvers
return solutions, give superposed jerks and states if the jerks stay away from the bounds that the code sets to the QP. -/
theorem C91_solve (a b B : K) (o₁ o₂ o₃ : Oracle K) (cs₁ cs₂ cs₃ : List (TrajCall K)) (w₁ w₂ w₃ : TrajWalkgen K)
    (hw₁ : TrajReaches o₁ cs₁ w₁) (hw₂ : TrajReaches o₂ cs₂ w₂) (hw₃ : TrajReaches o₃ cs₃ w₃)
    (hs : Spec.SuperSettings a b (settingsOf cs₁) (settingsOf cs₂) (settingsOf cs₃))
    (hx : w₃.getState = Spec.superpose a b w₁.getState w₂.getState) (hr : (settingsOf cs₁).RefsCurrent)
    (hj : 0 < (settingsOf cs₁).weighting.jerkMinimization) (fb : K) (hfb : 0 < fb)
    (hB : 2 * B < MAXBOUND) (hB' : 2 * ((|a| + |b|) * B) ≤ MAXBOUND) (hX₁ : ∀ i < (settingsOf cs₁).nbSamples, |w₁.X.get i| ≤ B)
    (hX₂ : ∀ i < (settingsOf cs₁).nbSamples, |w₂.X.get i| ≤ B)
    (hX₃ : ∀ i < (settingsOf cs₁).nbSamples, |w₃.X.get i| ≤ (|a| + |b|) * B) :
    ∃ qp₁ qp₂ qp₃, GivesToSolver w₁ fb qp₁ ∧ GivesToSolver w₂ fb qp₂ ∧ GivesToSolver w₃ fb qp₃ ∧
      ∀ (p₁ p₂ p₃ : Oracle K) b₁ b₂ b₃ w₁' w₂' w₃',
      Spec.IsSolution qp₁ (p₁ w₁.solver.calls qp₁ 10000).2 → Spec.IsSolution qp₂ (p₂ w₂.solver.calls qp₂ 10000).2 →
      ((∃ d, Spec.IsSolution qp₃ d) → Spec.IsSolution qp₃ (p₃ w₃.solver.calls qp₃ 10000).2) →
      w₁.solve p₁ fb = .ok (b₁, w₁') → w₂.solve p₂ fb = .ok (b₂, w₂') → w₃.solve p₃ fb = .ok (b₃, w₃') →
      (∀ i < (settingsOf cs₁).nbSamples, |w₁'.X.get i| ≤ B) → (∀ i < (settingsOf cs₁).nbSamples, |w₂'.X.get i| ≤ B) →
      (∀ i < (settingsOf cs₁).nbSamples, w₃'.X.get i = a * w₁'.X.get i + b * w₂'.X.get i) ∧
      w₃'.getState = Spec.superpose a b w₁'.getState w₂'.getState := by
  have h₁ : TrajInv (settingsOf cs₁) w₁ := reachable_inv hw₁
  have h₂ : TrajInv (settingsOf cs₂) w₂ := reachable_inv hw₂
  have h₃ : TrajInv (settingsOf cs₃) w₃ := reachable_inv hw₃
  generalize settingsOf cs₁ = s₁ at *
  generalize settingsOf cs₂ = s₂ at *
  generalize settingsOf cs₃ = s₃ at *
  have hr₂ : s₂.RefsCurrent := ⟨by rw [hs.velRef.size₂, hs.N₂, hr.1], by rw [hs.posRef.size₂, hs.N₂, hr.2]⟩
  have hr₃ : s₃.RefsCurrent := ⟨by rw [hs.velRef.size₃, hs.N₃, hr.1], by rw [hs.posRef.size₃, hs.N₃, hr.2]⟩
  obtain ⟨qp₁, hg₁, hq₁, hs₁⟩ := givesToSolver_of_prepared h₁ hr hfb
  obtain ⟨qp₂, hg₂, hq₂, hs₂⟩ := givesToSolver_of_prepared h₂ hr₂ hfb
  obtain ⟨qp₃, hg₃, hq₃, hs₃⟩ := givesToSolver_of_prepared h₃ hr₃ hfb
  refine ⟨qp₁, qp₂, qp₃, hg₁, hg₂, hg₃, fun p₁ p₂ p₃ b₁ b₂ b₃ w₁' w₂' w₃' hp₁ hp₂ hp₃ e₁ e₂ e₃ hX₁' hX₂' => ?_⟩
  rw [hs₁ p₁] at e₁; cases e₁
  rw [hs₂ p₂] at e₂; cases e₂
  rw [hs₃ p₃] at e₃; cases e₃
  have hx' : w₃.model.state = Spec.superpose a b w₁.model.state w₂.model.state := hx
  have z₁ := solved_slope (fb := fb) h₁ hq₁ hs.free₁ hp₁ hB hX₁ hX₁'
  have z₂ := solved_slope (fb := fb) h₂ hq₂ hs.free₂ hp₂ hB (by rw [hs.N₂]; exact hX₂) (by rw [hs.N₂]; exact hX₂')
  set J₁ := (solveResult p₁ w₁ qp₁ fb).X.get
  set J₂ := (solveResult p₂ w₂ qp₂ fb).X.get
  have z₃ : ∀ d, trajSlope s₃ w₃.model.state (fun k => a * J₁ k + b * J₂ k) d = 0 := by
    intro d
    rw [hx', slope_combine hs hr, z₁, z₂, mul_zero, mul_zero, add_zero]
  have hfeas : Spec.Feasible qp₃ (fun i => (a * J₁ i + b * J₂ i) - w₃.X.get i) := by
    rw [prepared_free hq₃ hs.free₃, hs.N₃]
    intro i hi
    have k1 : |a * J₁ i| ≤ |a| * B := by rw [abs_mul]; exact mul_le_mul_of_nonneg_left (hX₁' i hi) (abs_nonneg _)
    have k2 : |b * J₂ i| ≤ |b| * B := by rw [abs_mul]; exact mul_le_mul_of_nonneg_left (hX₂' i hi) (abs_nonneg _)
    have k3 := hX₃ i hi
    rw [abs_le] at *
    constructor <;> linarith
  have hsol := isSolution_of_min h₃ hq₃ (fun i => a * J₁ i + b * J₂ i) hfeas fun d _ => trajCost_least z₃ _
  have hX : ∀ i < s₁.nbSamples, (solveResult p₃ w₃ qp₃ fb).X.get i = a * J₁ i + b * J₂ i := by
    rw [← hs.N₃]
    exact solve_unique p₃ h₃ fb (by rw [hs.weighting₃]; exact hj) hq₃ (hp₃ ⟨_, hsol⟩) _ hfeas fun d _ => trajCost_least z₃ _
  refine ⟨hX, ?_⟩
  have g₁ : (solveResult p₁ w₁ qp₁ fb).getState = stateStep (J₁ 0) fb w₁.model.state := rfl
  have g₂ : (solveResult p₂ w₂ qp₂ fb).getState = stateStep (J₂ 0) fb w₂.model.state := rfl
  have g₃ : (solveResult p₃ w₃ qp₃ fb).getState = stateStep ((solveResult p₃ w₃ qp₃ fb).X.get 0) fb w₃.model.state := rfl
  have sc : ∀ (j t : K) (z : State3 K), stateStep j t z = Spec.cubic z j t := fun j t z => by
    simp only [stateStep, Spec.cubic, State3.mk.injEq]
    exact ⟨by ring, by ring, trivial⟩
  rw [g₁, g₂, g₃, hX 0 h₁.N_pos, hx', sc, sc, sc, combine_cubic]

/-- **C91.** The same calls are made to three generators just constructed, without motion constraints, except that the states
and references given to the third one are `a` times those of the first one plus `b` times those of the second one. All solvers
find solutions, the jerks are weighted at each `solve`, and those of the first two generators stay away from the bounds
±`MAXBOUND` that the code sets to the QP. Then the calls of the third generator succeed if those of the others do, and its state
and planned jerks are `a` times those of the first one plus `b` times those of the second one, at all times (a time is the end
of a prefix of the calls, which is itself such a list of calls). -/
theorem C91_superposition (a b B : K) (hB : 2 * B < MAXBOUND) (hB' : 2 * ((|a| + |b|) * B) ≤ MAXBOUND) (o₁ o₂ o₃ : Oracle K)
    (ho₁ : Spec.FindsSolution o₁) (ho₂ : Spec.FindsSolution o₂) (ho₃ : Spec.FindsSolution o₃)
    (cs₁ cs₂ cs₃ : List (TrajCall K)) (hcs : Spec.SuperCalls a b cs₁ cs₂ cs₃) (w₁ w₂ : TrajWalkgen K)
    (hw₁ : TrajReaches o₁ cs₁ w₁) (hw₂ : TrajReaches o₂ cs₂ w₂)
    (hj : ∀ ds fb es, cs₁ = ds ++ .solve fb :: es → 0 < (settingsOf ds).weighting.jerkMinimization)
    (hsol₁ : ∀ ds fb es w qp, cs₁ = ds ++ .solve fb :: es → TrajReaches o₁ ds w → GivesToSolver w fb qp →
      ∃ d, Spec.IsSolution qp d)
    (hsol₂ : ∀ ds fb es w qp, cs₂ = ds ++ .solve fb :: es → TrajReaches o₂ ds w → GivesToSolver w fb qp →
      ∃ d, Spec.IsSolution qp d)
    (hX₁ : ∀ ds es w, cs₁ = ds ++ es → TrajReaches o₁ ds w → ∀ i < (settingsOf ds).nbSamples, |w.X.get i| ≤ B)
    (hX₂ : ∀ ds es w, cs₂ = ds ++ es → TrajReaches o₂ ds w → ∀ i < (settingsOf ds).nbSamples, |w.X.get i| ≤ B) :
    ∃ w₃, TrajReaches o₃ cs₃ w₃ ∧ w₃.getState = Spec.superpose a b w₁.getState w₂.getState ∧
      ∀ i < (settingsOf cs₁).nbSamples, w₃.X.get i = a * w₁.X.get i + b * w₂.X.get i := by
  have happ : ∀ (as : List (TrajCall K)) c, settingsOf (as ++ [c]) = (settingsOf as).apply c := fun as c => by
    simp [settingsOf, Spec.TrajSettings.after]
  -- a setter that treats the plans alike
  have setter : ∀ {cs₁ cs₂ cs₃ : List (TrajCall K)} (c₁ c₂ c₃ : TrajCall K) {w₁ w₂ : TrajWalkgen K},
      TrajReaches o₁ (cs₁ ++ [c₁]) w₁ → TrajReaches o₂ (cs₂ ++ [c₂]) w₂ →
      (∀ v₁ v₂, TrajReaches o₁ cs₁ v₁ → TrajReaches o₂ cs₂ v₂ → ∃ v₃, TrajReaches o₃ cs₃ v₃ ∧
        v₃.getState = Spec.superpose a b v₁.getState v₂.getState ∧
        ∀ i < (settingsOf cs₁).nbSamples, v₃.X.get i = a * v₁.X.get i + b * v₂.X.get i) →
      (CodePre (settingsOf cs₁) c₁ → CodePre (settingsOf cs₃) c₃) →
      ∃ v₁ v₂ v₃ w₃ b₁ b₂ b₃, TrajReaches o₁ cs₁ v₁ ∧ TrajReaches o₂ cs₂ v₂ ∧ TrajReaches o₃ cs₃ v₃ ∧
        v₁.step o₁ c₁ = .ok (b₁, w₁) ∧ v₂.step o₂ c₂ = .ok (b₂, w₂) ∧ v₃.step o₃ c₃ = .ok (b₃, w₃) ∧
        TrajReaches o₃ (cs₃ ++ [c₃]) w₃ ∧ v₃.getState = Spec.superpose a b v₁.getState v₂.getState ∧
        (∀ i < (settingsOf cs₁).nbSamples, v₃.X.get i = a * v₁.X.get i + b * v₂.X.get i) ∧ CodePre (settingsOf cs₁) c₁ := by
    intro cs₁ cs₂ cs₃ c₁ c₂ c₃ w₁ w₂ hw₁ hw₂ ih hp
    obtain ⟨v₁, b₁, hv₁, e₁⟩ := trajReaches_append.1 hw₁
    obtain ⟨v₂, b₂, hv₂, e₂⟩ := trajReaches_append.1 hw₂
    obtain ⟨v₃, hv₃, hst, hpl⟩ := ih v₁ v₂ hv₁ hv₂
    have hp₁ := codePre_of_ok (reachable_inv hv₁) o₁ c₁ e₁
    obtain ⟨b₃, w₃, e₃, -⟩ := step_ok (reachable_inv hv₃) o₃ c₃ (hp hp₁)
    exact ⟨v₁, v₂, v₃, w₃, b₁, b₂, b₃, hv₁, hv₂, hv₃, e₁, e₂, e₃, trajReaches_append.2 ⟨v₃, b₃, hv₃, e₃⟩, hst, hpl, hp₁⟩
  induction hcs generalizing w₁ w₂ with
  | nil =>
    obtain ⟨w₃, h₃, -⟩ := make_inv (K := K)
    have hw : ∀ {o : Oracle K} {w : TrajWalkgen K}, TrajReaches o [] w → TrajWalkgen.make = .ok w := by
      intro o w h
      unfold TrajReaches at h
      obtain ⟨w0, e0, h⟩ := bind_eq_ok.1 h
      cases h
      exact e0
    obtain rfl : w₁ = w₃ := Except.ok.inj ((hw hw₁).symm.trans h₃)
    obtain rfl : w₂ = w₁ := Except.ok.inj ((hw hw₂).symm.trans h₃)
    obtain ⟨k1, k2⟩ := make_rest h₃
    refine ⟨w₂, hw₁, ?_, ?_⟩
    · rw [k1]; simp [Spec.superpose]
    · rw [k2]; intro i _; simp [Vec.const]
  | @solve cs₁ cs₂ cs₃ fb hcs ih =>
    have hse := superSettings hcs
    obtain ⟨v₁, v₂, v₃, w₃, b₁, b₂, b₃, hv₁, hv₂, hv₃, e₁, e₂, e₃, h₃, hst, hpl, hp⟩ := setter (.solve fb) (.solve fb) (.solve fb)
      hw₁ hw₂ (fun v₁ v₂ hv₁ hv₂ => ih v₁ v₂ hv₁ hv₂ (fun ds f es e => hj ds f (es ++ [.solve fb]) (by simp [e]))
        (fun ds f es w qp e => hsol₁ ds f (es ++ [.solve fb]) w qp (by simp [e]))
        (fun ds f es w qp e => hsol₂ ds f (es ++ [.solve fb]) w qp (by simp [e]))
        (fun ds es w e => hX₁ ds (es ++ [.solve fb]) w (by simp [e])) (fun ds es w e => hX₂ ds (es ++ [.solve fb]) w (by simp [e])))
      (fun hp => ⟨hp.1, (hse.velRef.size₃.trans hp.2.1).trans hse.N₃.symm, (hse.posRef.size₃.trans hp.2.2).trans hse.N₃.symm⟩)
    have n₂ : (settingsOf cs₂).nbSamples = (settingsOf cs₁).nbSamples := hse.N₂
    have m₁ := hX₁ cs₁ [.solve fb] v₁ rfl hv₁
    have m₂ := hX₂ cs₂ [.solve fb] v₂ rfl hv₂
    rw [n₂] at m₂
    have m₁' := hX₁ (cs₁ ++ [.solve fb]) [] w₁ (by simp) hw₁
    have m₂' := hX₂ (cs₂ ++ [.solve fb]) [] w₂ (by simp) hw₂
    rw [happ] at m₁' m₂'
    change ∀ i < (settingsOf cs₁).nbSamples, _ at m₁'
    change ∀ i < (settingsOf cs₂).nbSamples, _ at m₂'
    rw [n₂] at m₂'
    obtain ⟨qp₁, qp₂, qp₃, g₁, g₂, g₃, hmain⟩ := C91_solve a b B o₁ o₂ o₃ cs₁ cs₂ cs₃ v₁ v₂ v₃ hv₁ hv₂ hv₃ hse hst hp.2
      (hj cs₁ fb [] rfl) fb hp.1 hB hB' m₁ m₂ (fun i hi => by
        rw [hpl i hi]
        refine (abs_add_le _ _).trans ?_
        rw [abs_mul, abs_mul, add_mul]
        exact add_le_add (mul_le_mul_of_nonneg_left (m₁ i hi) (abs_nonneg _)) (mul_le_mul_of_nonneg_left (m₂ i hi) (abs_nonneg _)))
    obtain ⟨r1, r2⟩ := hmain o₁ o₂ o₃ _ _ _ _ _ _ (ho₁ _ _ _ (hsol₁ cs₁ fb [] v₁ qp₁ rfl hv₁ g₁))
      (ho₂ _ _ _ (hsol₂ cs₂ fb [] v₂ qp₂ rfl hv₂ g₂)) (fun h => ho₃ _ _ _ h) e₁ e₂ e₃ m₁' m₂'
    refine ⟨w₃, h₃, r2, ?_⟩
    rw [happ]
    exact r1
  | @setNbSamples cs₁ cs₂ cs₃ n hcs ih =>
    obtain ⟨v₁, v₂, v₃, w₃, b₁, b₂, b₃, hv₁, hv₂, hv₃, e₁, e₂, e₃, h₃, hst, hpl, hp⟩ :=
      setter (.setNbSamples n) (.setNbSamples n) (.setNbSamples n)
      hw₁ hw₂ (fun v₁ v₂ hv₁ hv₂ => ih v₁ v₂ hv₁ hv₂ (fun ds f es e => hj ds f (es ++ [_]) (by simp [e]; rfl))
        (fun ds f es w qp e => hsol₁ ds f (es ++ [_]) w qp (by simp [e]; rfl))
        (fun ds f es w qp e => hsol₂ ds f (es ++ [_]) w qp (by simp [e]; rfl))
        (fun ds es w e => hX₁ ds (es ++ [_]) w (by simp [e]; rfl)) (fun ds es w e => hX₂ ds (es ++ [_]) w (by simp [e]; rfl)))
      (fun hp => hp)
    refine ⟨w₃, h₃, ?_, ?_⟩
    · rw [setter_state (reachable_inv hv₁) e₁, setter_state (reachable_inv hv₂) e₂, setter_state (reachable_inv hv₃) e₃, hst]
    · rw [setter_plan (reachable_inv hv₁) e₁, setter_plan (reachable_inv hv₂) e₂, setter_plan (reachable_inv hv₃) e₃]
      intro i _
      simp [Vec.const]
  | @setSamplingPeriod cs₁ cs₂ cs₃ T hcs ih =>
    have hse := superSettings hcs
    obtain ⟨v₁, v₂, v₃, w₃, b₁, b₂, b₃, hv₁, hv₂, hv₃, e₁, e₂, e₃, h₃, hst, hpl, hp⟩ :=
      setter (.setSamplingPeriod T) (.setSamplingPeriod T) (.setSamplingPeriod T) 
      hw₁ hw₂ (fun v₁ v₂ hv₁ hv₂ => ih v₁ v₂ hv₁ hv₂ (fun ds f es e => hj ds f (es ++ [_]) (by simp [e]; rfl))
        (fun ds f es w qp e => hsol₁ ds f (es ++ [_]) w qp (by simp [e]; rfl))
        (fun ds f es w qp e => hsol₂ ds f (es ++ [_]) w qp (by simp [e]; rfl))
        (fun ds es w e => hX₁ ds (es ++ [_]) w (by simp [e]; rfl)) (fun ds es w e => hX₂ ds (es ++ [_]) w (by simp [e]; rfl)))
      (fun hp => hp)
    refine ⟨w₃, h₃, ?_, ?_⟩
    · rw [setter_state (reachable_inv hv₁) e₁, setter_state (reachable_inv hv₂) e₂, setter_state (reachable_inv hv₃) e₃, hst]
    · rw [happ, setter_plan (reachable_inv hv₁) e₁, setter_plan (reachable_inv hv₂) e₂, setter_plan (reachable_inv hv₃) e₃]
      exact hpl
  | @setVelLimit cs₁ cs₂ cs₃ l hcs ih =>
    have hse := superSettings hcs
    obtain ⟨v₁, v₂, v₃, w₃, b₁, b₂, b₃, hv₁, hv₂, hv₃, e₁, e₂, e₃, h₃, hst, hpl, hp⟩ :=
      setter (.setVelLimit l) (.setVelLimit l) (.setVelLimit l) 
      hw₁ hw₂ (fun v₁ v₂ hv₁ hv₂ => ih v₁ v₂ hv₁ hv₂ (fun ds f es e => hj ds f (es ++ [_]) (by simp [e]; rfl))
        (fun ds f es w qp e => hsol₁ ds f (es ++ [_]) w qp (by simp [e]; rfl))
        (fun ds f es w qp e => hsol₂ ds f (es ++ [_]) w qp (by simp [e]; rfl))
        (fun ds es w e => hX₁ ds (es ++ [_]) w (by simp [e]; rfl)) (fun ds es w e => hX₂ ds (es ++ [_]) w (by simp [e]; rfl)))
      (fun hp => hp)
    refine ⟨w₃, h₃, ?_, ?_⟩
    · rw [setter_state (reachable_inv hv₁) e₁, setter_state (reachable_inv hv₂) e₂, setter_state (reachable_inv hv₃) e₃, hst]
    · rw [happ, setter_plan (reachable_inv hv₁) e₁, setter_plan (reachable_inv hv₂) e₂, setter_plan (reachable_inv hv₃) e₃]
      exact hpl
  | @setAccLimit cs₁ cs₂ cs₃ l hcs ih =>
    have hse := superSettings hcs
    obtain ⟨v₁, v₂, v₃, w₃, b₁, b₂, b₃, hv₁, hv₂, hv₃, e₁, e₂, e₃, h₃, hst, hpl, hp⟩ :=
      setter (.setAccLimit l) (.setAccLimit l) (.setAccLimit l) 
      hw₁ hw₂ (fun v₁ v₂ hv₁ hv₂ => ih v₁ v₂ hv₁ hv₂ (fun ds f es e => hj ds f (es ++ [_]) (by simp [e]; rfl))
        (fun ds f es w qp e => hsol₁ ds f (es ++ [_]) w qp (by simp [e]; rfl))
        (fun ds f es w qp e => hsol₂ ds f (es ++ [_]) w qp (by simp [e]; rfl))
        (fun ds es w e => hX₁ ds (es ++ [_]) w (by simp [e]; rfl)) (fun ds es w e => hX₂ ds (es ++ [_]) w (by simp [e]; rfl)))
      (fun hp => hp)
    refine ⟨w₃, h₃, ?_, ?_⟩
    · rw [setter_state (reachable_inv hv₁) e₁, setter_state (reachable_inv hv₂) e₂, setter_state (reachable_inv hv₃) e₃, hst]
    · rw [happ, setter_plan (reachable_inv hv₁) e₁, setter_plan (reachable_inv hv₂) e₂, setter_plan (reachable_inv hv₃) e₃]
      exact hpl
  | @setJerkLimit cs₁ cs₂ cs₃ l hcs ih =>
    have hse := superSettings hcs
    obtain ⟨v₁, v₂, v₃, w₃, b₁, b₂, b₃, hv₁, hv₂, hv₃, e₁, e₂, e₃, h₃, hst, hpl, hp⟩ :=
      setter (.setJerkLimit l) (.setJerkLimit l) (.setJerkLimit l) 
      hw₁ hw₂ (fun v₁ v₂ hv₁ hv₂ => ih v₁ v₂ hv₁ hv₂ (fun ds f es e => hj ds f (es ++ [_]) (by simp [e]; rfl))
        (fun ds f es w qp e => hsol₁ ds f (es ++ [_]) w qp (by simp [e]; rfl))
        (fun ds f es w qp e => hsol₂ ds f (es ++ [_]) w qp (by simp [e]; rfl))
        (fun ds es w e => hX₁ ds (es ++ [_]) w (by simp [e]; rfl)) (fun ds es w e => hX₂ ds (es ++ [_]) w (by simp [e]; rfl)))
      (fun hp => hp)
    refine ⟨w₃, h₃, ?_, ?_⟩
    · rw [setter_state (reachable_inv hv₁) e₁, setter_state (reachable_inv hv₂) e₂, setter_state (reachable_inv hv₃) e₃, hst]
    · rw [happ, setter_plan (reachable_inv hv₁) e₁, setter_plan (reachable_inv hv₂) e₂, setter_plan (reachable_inv hv₃) e₃]
      exact hpl
  | @setWeightings cs₁ cs₂ cs₃ wg hcs ih =>
    have hse := superSettings hcs
    obtain ⟨v₁, v₂, v₃, w₃, b₁, b₂, b₃, hv₁, hv₂, hv₃, e₁, e₂, e₃, h₃, hst, hpl, hp⟩ :=
      setter (.setWeightings wg) (.setWeightings wg) (.setWeightings wg) 
      hw₁ hw₂ (fun v₁ v₂ hv₁ hv₂ => ih v₁ v₂ hv₁ hv₂ (fun ds f es e => hj ds f (es ++ [_]) (by simp [e]; rfl))
        (fun ds f es w qp e => hsol₁ ds f (es ++ [_]) w qp (by simp [e]; rfl))
        (fun ds f es w qp e => hsol₂ ds f (es ++ [_]) w qp (by simp [e]; rfl))
        (fun ds es w e => hX₁ ds (es ++ [_]) w (by simp [e]; rfl)) (fun ds es w e => hX₂ ds (es ++ [_]) w (by simp [e]; rfl)))
      (fun hp => hp)
    refine ⟨w₃, h₃, ?_, ?_⟩
    · rw [setter_state (reachable_inv hv₁) e₁, setter_state (reachable_inv hv₂) e₂, setter_state (reachable_inv hv₃) e₃, hst]
    · rw [happ, setter_plan (reachable_inv hv₁) e₁, setter_plan (reachable_inv hv₂) e₂, setter_plan (reachable_inv hv₃) e₃]
      exact hpl
  | @setConfig cs₁ cs₂ cs₃ hcs ih =>
    have hse := superSettings hcs
    obtain ⟨v₁, v₂, v₃, w₃, b₁, b₂, b₃, hv₁, hv₂, hv₃, e₁, e₂, e₃, h₃, hst, hpl, hp⟩ :=
      setter (.setConfig false) (.setConfig false) (.setConfig false) 
      hw₁ hw₂ (fun v₁ v₂ hv₁ hv₂ => ih v₁ v₂ hv₁ hv₂ (fun ds f es e => hj ds f (es ++ [_]) (by simp [e]; rfl))
        (fun ds f es w qp e => hsol₁ ds f (es ++ [_]) w qp (by simp [e]; rfl))
        (fun ds f es w qp e => hsol₂ ds f (es ++ [_]) w qp (by simp [e]; rfl))
        (fun ds es w e => hX₁ ds (es ++ [_]) w (by simp [e]; rfl)) (fun ds es w e => hX₂ ds (es ++ [_]) w (by simp [e]; rfl)))
      (fun hp => hp)
    refine ⟨w₃, h₃, ?_, ?_⟩
    · rw [setter_state (reachable_inv hv₁) e₁, setter_state (reachable_inv hv₂) e₂, setter_state (reachable_inv hv₃) e₃, hst]
    · rw [happ, setter_plan (reachable_inv hv₁) e₁, setter_plan (reachable_inv hv₂) e₂, setter_plan (reachable_inv hv₃) e₃]
      exact hpl
  | @setVelRef cs₁ cs₂ cs₃ u₁ u₂ u₃ hu hcs ih =>
    have hse := superSettings hcs
    obtain ⟨v₁, v₂, v₃, w₃, b₁, b₂, b₃, hv₁, hv₂, hv₃, e₁, e₂, e₃, h₃, hst, hpl, hp⟩ :=
      setter (.setVelRef u₁) (.setVelRef u₂) (.setVelRef u₃)
      hw₁ hw₂ (fun v₁ v₂ hv₁ hv₂ => ih v₁ v₂ hv₁ hv₂ (fun ds f es e => hj ds f (es ++ [_]) (by simp [e]; rfl))
        (fun ds f es w qp e => hsol₁ ds f (es ++ [_]) w qp (by simp [e]; rfl))
        (fun ds f es w qp e => hsol₂ ds f (es ++ [_]) w qp (by simp [e]; rfl))
        (fun ds es w e => hX₁ ds (es ++ [_]) w (by simp [e]; rfl)) (fun ds es w e => hX₂ ds (es ++ [_]) w (by simp [e]; rfl)))
      (fun hp => (hu.size₃.trans hp).trans hse.N₃.symm)
    refine ⟨w₃, h₃, ?_, ?_⟩
    · rw [setter_state (reachable_inv hv₁) e₁, setter_state (reachable_inv hv₂) e₂, setter_state (reachable_inv hv₃) e₃, hst]
    · rw [happ, setter_plan (reachable_inv hv₁) e₁, setter_plan (reachable_inv hv₂) e₂, setter_plan (reachable_inv hv₃) e₃]
      exact hpl
  | @setPosRef cs₁ cs₂ cs₃ u₁ u₂ u₃ hu hcs ih =>
    have hse := superSettings hcs
    obtain ⟨v₁, v₂, v₃, w₃, b₁, b₂, b₃, hv₁, hv₂, hv₃, e₁, e₂, e₃, h₃, hst, hpl, hp⟩ :=
      setter (.setPosRef u₁) (.setPosRef u₂) (.setPosRef u₃)
      hw₁ hw₂ (fun v₁ v₂ hv₁ hv₂ => ih v₁ v₂ hv₁ hv₂ (fun ds f es e => hj ds f (es ++ [_]) (by simp [e]; rfl))
        (fun ds f es w qp e => hsol₁ ds f (es ++ [_]) w qp (by simp [e]; rfl))
        (fun ds f es w qp e => hsol₂ ds f (es ++ [_]) w qp (by simp [e]; rfl))
        (fun ds es w e => hX₁ ds (es ++ [_]) w (by simp [e]; rfl)) (fun ds es w e => hX₂ ds (es ++ [_]) w (by simp [e]; rfl)))
      (fun hp => (hu.size₃.trans hp).trans hse.N₃.symm)
    refine ⟨w₃, h₃, ?_, ?_⟩
    · rw [setter_state (reachable_inv hv₁) e₁, setter_state (reachable_inv hv₂) e₂, setter_state (reachable_inv hv₃) e₃, hst]
    · rw [happ, setter_plan (reachable_inv hv₁) e₁, setter_plan (reachable_inv hv₂) e₂, setter_plan (reachable_inv hv₃) e₃]
      exact hpl
  | @setState cs₁ cs₂ cs₃ u₁ u₂ u₃ hu hcs ih =>
    have hse := superSettings hcs
    obtain ⟨v₁, v₂, v₃, w₃, b₁, b₂, b₃, hv₁, hv₂, hv₃, e₁, e₂, e₃, h₃, hst, hpl, hp⟩ :=
      setter (.setState u₁) (.setState u₂) (.setState u₃)
      hw₁ hw₂ (fun v₁ v₂ hv₁ hv₂ => ih v₁ v₂ hv₁ hv₂ (fun ds f es e => hj ds f (es ++ [_]) (by simp [e]; rfl))
        (fun ds f es w qp e => hsol₁ ds f (es ++ [_]) w qp (by simp [e]; rfl))
        (fun ds f es w qp e => hsol₂ ds f (es ++ [_]) w qp (by simp [e]; rfl))
        (fun ds es w e => hX₁ ds (es ++ [_]) w (by simp [e]; rfl)) (fun ds es w e => hX₂ ds (es ++ [_]) w (by simp [e]; rfl)))
      (fun hp => hu.size₃.trans hp)
    refine ⟨w₃, h₃, ?_, ?_⟩
    · have k : u₁.size = 3 := hp
      rw [setter_state (reachable_inv hv₁) e₁, setter_state (reachable_inv hv₂) e₂, setter_state (reachable_inv hv₃) e₃]
      simp only [Spec.superpose, hu.get 0 (by omega), hu.get 1 (by omega), hu.get 2 (by omega)]
    · rw [happ, setter_plan (reachable_inv hv₁) e₁, setter_plan (reachable_inv hv₂) e₂, setter_plan (reachable_inv hv₃) e₃]
      exact hpl

/-- **C91, the jerks are bounded** by the cost of not using any: what makes the conditions of `C91_superposition` on the jerks
easy to meet (`MAXBOUND` is 10¹¹). -/
theorem C91_jerks_bounded (o o' : Oracle K) (cs : List (TrajCall K)) (w : TrajWalkgen K) (hw : TrajReaches o cs w)
    (hr : (settingsOf cs).RefsCurrent) (hc : (settingsOf cs).constrained = false) (fb : K) (hfb : 0 < fb)
    (hX : ∀ i < (settingsOf cs).nbSamples, |w.X.get i| ≤ MAXBOUND) :
    ∃ qp, GivesToSolver w fb qp ∧ (Spec.IsSolution qp (o' w.solver.calls qp 10000).2 → ∀ b w', w.solve o' fb = .ok (b, w') →
      ∀ i < (settingsOf cs).nbSamples, (settingsOf cs).weighting.jerkMinimization * w'.X.get i ^ 2
        ≤ 2 * Spec.trajCost (settingsOf cs) w.getState (fun _ => 0)) := by
  have h : TrajInv (settingsOf cs) w := reachable_inv hw
  generalize settingsOf cs = s at *
  obtain ⟨qp, hg, hq, hs⟩ := givesToSolver_of_prepared h hr hfb
  refine ⟨qp, hg, fun hsol b w' e i hi => ?_⟩
  rw [hs o'] at e; cases e
  have h1 := hsol.2 (fun i => - w.X.get i) ((prepared_free hq hc _).2 fun i hi => by rw [abs_neg]; exact hX i hi)
  rw [prepared_cost h hq, prepared_cost h hq] at h1
  have e1 : (fun i => w.X.get i + -w.X.get i) = fun _ => (0 : K) := by funext i; ring
  rw [e1] at h1
  have hi' : i < w.solver.nbVar := by rw [h.nbVar]; exact hi
  have e2 : (solveResult o' w qp fb).X.get i = w.X.get i + (o' w.solver.calls qp 10000).2 i := by
    simp only [solveResult, hi', if_true]
  have h2 : s.weighting.jerkMinimization * (solveResult o' w qp fb).X.get i ^ 2
      ≤ 2 * Spec.trajCost s w.model.state (fun i => w.X.get i + (o' w.solver.calls qp 10000).2 i) := by
    rw [e2]
    set J : ℕ → K := fun i => w.X.get i + (o' w.solver.calls qp 10000).2 i
    unfold Spec.trajCost
    have p1 := mul_nonneg (le_max_right s.weighting.velocityTracking 0)
      (sum_nonneg (s := range s.nbSamples) (f := fun i => ((Spec.jerkTrajectory s.period s.period w.model.state J i).v
        - s.velRef.get i) ^ 2) fun i _ => sq_nonneg _)
    have p2 := mul_nonneg (le_max_right s.weighting.positionTracking 0)
      (sum_nonneg (s := range s.nbSamples) (f := fun i => ((Spec.jerkTrajectory s.period s.period w.model.state J i).p
        - s.posRef.get i) ^ 2) fun i _ => sq_nonneg _)
    have p3 : J i ^ 2 ≤ ∑ i ∈ range s.nbSamples, J i ^ 2 :=
      single_le_sum (f := fun i => J i ^ 2) (fun i _ => sq_nonneg _) (mem_range.2 hi)
    have p4 : s.weighting.jerkMinimization * J i ^ 2 ≤ max s.weighting.jerkMinimization 0 * ∑ i ∈ range s.nbSamples, J i ^ 2 :=
      (mul_le_mul_of_nonneg_right (le_max_left _ _) (sq_nonneg _)).trans
        (mul_le_mul_of_nonneg_left p3 (le_max_right _ _))
    change s.weighting.jerkMinimization * J i ^ 2 ≤ _
    linarith
  change _ ≤ 2 * Spec.trajCost s w.model.state _
  linarith

/-- **C91 over the real numbers**, where the QPs have solutions. -/
theorem C91_real (a b B : ℝ) (hB : 2 * B < MAXBOUND) (hB' : 2 * ((|a| + |b|) * B) ≤ MAXBOUND) (o₁ o₂ o₃ : Oracle ℝ)
    (ho₁ : Spec.FindsSolution o₁) (ho₂ : Spec.FindsSolution o₂) (ho₃ : Spec.FindsSolution o₃)
    (cs₁ cs₂ cs₃ : List (TrajCall ℝ)) (hcs : Spec.SuperCalls a b cs₁ cs₂ cs₃) (w₁ w₂ : TrajWalkgen ℝ)
    (hw₁ : TrajReaches o₁ cs₁ w₁) (hw₂ : TrajReaches o₂ cs₂ w₂)
    (hj : ∀ ds fb es, cs₁ = ds ++ .solve fb :: es → 0 < (settingsOf ds).weighting.jerkMinimization)
    (hX₁ : ∀ ds es w, cs₁ = ds ++ es → TrajReaches o₁ ds w → ∀ i < (settingsOf ds).nbSamples, |w.X.get i| ≤ B)
    (hX₂ : ∀ ds es w, cs₂ = ds ++ es → TrajReaches o₂ ds w → ∀ i < (settingsOf ds).nbSamples, |w.X.get i| ≤ B) :
    ∃ w₃, TrajReaches o₃ cs₃ w₃ ∧ w₃.getState = Spec.superpose a b w₁.getState w₂.getState ∧
      ∀ i < (settingsOf cs₁).nbSamples, w₃.X.get i = a * w₁.X.get i + b * w₂.X.get i := by
  have hM : (0 : ℝ) ≤ MAXBOUND := by norm_num [MAXBOUND]
  have free : ∀ {cs₁ cs₂ cs₃ : List (TrajCall ℝ)}, Spec.SuperCalls a b cs₁ cs₂ cs₃ →
      (∀ c, .setConfig c ∈ cs₁ → c = false) ∧ ∀ c, .setConfig c ∈ cs₂ → c = false := by
    intro cs₁ cs₂ cs₃ h
    induction h <;> simp_all
  have cons : ∀ ds : List (TrajCall ℝ), (∀ c, .setConfig c ∈ ds → c = false) → (settingsOf ds).constrained = false := by
    intro ds
    induction ds using List.reverseRecOn with
    | nil => intro _; rfl
    | append_singleton ds c ih =>
      intro h
      have h1 := ih fun d hd => h d (by simp [hd])
      have h2 : settingsOf (ds ++ [c]) = (settingsOf ds).apply c := by simp [settingsOf, Spec.TrajSettings.after]
      rw [h2]
      cases c with
      | setConfig c => exact h c (by simp)
      | _ => exact h1
  have ex : ∀ (o : Oracle ℝ) (ds : List (TrajCall ℝ)) (fb : ℝ) w qp, (∀ c, .setConfig c ∈ ds → c = false) →
      TrajReaches o ds w → GivesToSolver w fb qp → ∃ d, Spec.IsSolution qp d := by
    intro o ds fb w qp hc hw hg
    have hp := codePre_of_ok (reachable_inv hw) o (.solve fb) (hg o).choose_spec.choose_spec.1
    obtain ⟨qp2, hg2, hq2, -⟩ := givesToSolver_of_prepared (reachable_inv hw) hp.2 hp.1
    obtain rfl := hg.unique (reachable_inv hw) hg2
    exact solution_exists (hq2.consistent (reachable_inv hw))
      ⟨fun _ => 0, (prepared_free hq2 (cons ds hc) _).2 fun i _ => by rw [abs_zero]; exact hM⟩
  exact C91_superposition a b B hB hB' o₁ o₂ o₃ ho₁ ho₂ ho₃ cs₁ cs₂ cs₃ hcs w₁ w₂ hw₁ hw₂ hj
    (fun ds fb es w qp e => ex o₁ ds fb w qp fun c hc => (free hcs).1 c (by simp [e, hc]))
    (fun ds fb es w qp e => ex o₂ ds fb w qp fun c hc => (free hcs).2 c (by simp [e, hc])) hX₁ hX₂

/-! ### A generator that goes on at its speed towards a position, another one that has to follow a speed, and a combination -/

/-- Calls that set everything but the limits, and solve. -/
noncomputable def prepareFree (p v vr pr : ℝ) : List (TrajCall ℝ) :=
  [] ++ [.setNbSamples 2] ++ [.setSamplingPeriod (1 / 10)] ++ [.setVelRef ⟨2, fun _ => vr⟩] ++ [.setPosRef ⟨2, fun _ => pr⟩] ++
    [.setWeightings ⟨1, 1, 1 / 100⟩] ++ [.setState ⟨3, fun i => if i = 0 then p else if i = 1 then v else 0⟩]

theorem plan_zero {o : Oracle K} {ds : List (TrajCall K)} : ∀ {w : TrajWalkgen K}, TrajReaches o ds w →
    (∀ fb, .solve fb ∉ ds) → ∀ i, w.X.get i = 0 := by
  induction ds using List.reverseRecOn with
  | nil =>
    intro w hw _ i
    unfold TrajReaches at hw
    obtain ⟨w0, e0, h⟩ := bind_eq_ok.1 hw
    cases h
    rw [(make_rest e0).2]; rfl
  | append_singleton ds c ih =>
    intro w hw hn i
    obtain ⟨v, b, hv, e⟩ := trajReaches_append.1 hw
    have h1 := ih hv (fun fb h => hn fb (by simp [h])) i
    cases c with
    | solve fb => exact absurd (by simp) (hn fb)
    | setNbSamples n => rw [setter_plan (reachable_inv hv) e]; rfl
    | _ => rw [setter_plan (reachable_inv hv) e]; exact h1

/-- The hypotheses of `C91_real` are met. -/
example (o : Oracle ℝ) (ho : Spec.FindsSolution o) : ∃ w₁ w₂ w₃ : TrajWalkgen ℝ,
    TrajReaches o (prepareFree 0 1 0 1 ++ [.solve (1 / 10)]) w₁ ∧ TrajReaches o (prepareFree 1 0 1 0 ++ [.solve (1 / 10)]) w₂ ∧
    TrajReaches o (prepareFree (-1) 2 (-1) 2 ++ [.solve (1 / 10)]) w₃ ∧
    w₃.getState = Spec.superpose 2 (-1) w₁.getState w₂.getState := by
  have leg : ∀ p v vr pr : ℝ, ∃ w, TrajReaches o (prepareFree p v vr pr ++ [.solve (1 / 10)]) w := by
    intro p v vr pr
    refine C16_no_fault_partial o _ ?_ ?_
    · norm_num [prepareFree, Spec.TrajSettings.Legal, Spec.TrajSettings.Pre, Spec.TrajSettings.apply]
    · simp [prepareFree, Spec.TrajSettings.RefsCurrentAtSolves, Spec.TrajSettings.RefsCurrent, Spec.TrajSettings.apply]
  have bnd : ∀ p v vr pr : ℝ, |p| ≤ 2 → |v| ≤ 2 → |vr| ≤ 2 → |pr| ≤ 2 → ∀ ds es w,
      prepareFree p v vr pr ++ [.solve (1 / 10)] = ds ++ es → TrajReaches o ds w →
      ∀ i < (settingsOf ds).nbSamples, |w.X.get i| ≤ 1000000 := by
    intro p v vr pr hp hv hvr hpr ds es w e hw i hi
    rcases List.eq_nil_or_concat es with rfl | ⟨es, c, rfl⟩
    · rw [List.append_nil] at e
      subst e
      obtain ⟨u, b, hu, hstep⟩ := trajReaches_append.1 hw
      have hst : u.getState = ⟨p, v, 0⟩ := by
        have h1 : prepareFree p v vr pr = (prepareFree p v vr pr).take 5 ++ [.setState ⟨3, fun i => if i = 0 then p else
          if i = 1 then v else 0⟩] := rfl
        rw [h1] at hu
        obtain ⟨u', b', hu', e'⟩ := trajReaches_append.1 hu
        rw [setter_state (reachable_inv hu') e']
        norm_num
      have hset : settingsOf (prepareFree p v vr pr) = ⟨2, 1 / 10, ⟨2, fun _ => vr⟩, ⟨2, fun _ => pr⟩, 1, 1, 1, ⟨1, 1, 1 / 100⟩,
        false⟩ := rfl
      obtain ⟨qp, hg, hb⟩ := C91_jerks_bounded o o _ u hu ⟨rfl, rfl⟩ rfl (1 / 10) (by norm_num) (fun i _ => by
        rw [plan_zero hu (fun fb => by simp [prepareFree]), abs_zero]; norm_num [MAXBOUND])
      have hp' := codePre_of_ok (reachable_inv hu) o (.solve (1 / 10)) hstep
      obtain ⟨qp2, hg2, hq2, -⟩ := givesToSolver_of_prepared (reachable_inv hu) hp'.2 hp'.1
      obtain rfl := hg.unique (reachable_inv hu) hg2
      have hsol := ho u.solver.calls qp 10000 (solution_exists (hq2.consistent (reachable_inv hu))
        ⟨fun _ => 0, (prepared_free hq2 rfl _).2 fun i _ => by rw [abs_zero]; norm_num [MAXBOUND]⟩)
      have h2 := hb hsol b w hstep i hi
      rw [hset, hst] at h2
      simp only [Spec.trajCost, Spec.jerkTrajectory, Spec.cubic, sum_range_succ, sum_range_zero] at h2
      rw [abs_le] at hp hv hvr hpr
      have q1 : (v - vr) ^ 2 ≤ 4 ^ 2 := sq_le_sq' (by linarith) (by linarith)
      have q2 : (p + 1 / 10 * v - pr) ^ 2 ≤ 5 ^ 2 := sq_le_sq' (by linarith) (by linarith)
      have q3 : (p + 2 / 10 * v - pr) ^ 2 ≤ 5 ^ 2 := sq_le_sq' (by linarith) (by linarith)
      refine abs_le_of_sq_le_sq ?_ (by norm_num)
      norm_num at h2
      ring_nf at h2 q1 q2 q3 ⊢
      linarith
    · rw [plan_zero hw (fun fb hmem => ?_), abs_zero]
      · norm_num
      · rw [List.concat_eq_append, ← List.append_assoc] at e
        have h1 := (List.append_inj' e rfl).1
        have : TrajCall.solve fb ∈ prepareFree p v vr pr := by rw [h1]; simp [hmem]
        simp [prepareFree] at this
  obtain ⟨w₁, h₁⟩ := leg 0 1 0 1
  obtain ⟨w₂, h₂⟩ := leg 1 0 1 0
  obtain ⟨w₃, h₃, hs, -⟩ := C91_real 2 (-1) 1000000 (by norm_num [MAXBOUND]) (by norm_num [MAXBOUND]) o o o ho ho ho _ _
    (prepareFree (-1) 2 (-1) 2 ++ [.solve (1 / 10)]) (by
      refine .solve _ (.setState ⟨rfl, rfl, fun i _ => ?_⟩ (.setWeightings _ (.setPosRef ⟨rfl, rfl, fun i _ => ?_⟩
        (.setVelRef ⟨rfl, rfl, fun i _ => ?_⟩ (.setSamplingPeriod _ (.setNbSamples _ .nil))))))
      · match i with
        | 0 => norm_num
        | 1 => norm_num
        | i + 2 => norm_num
      · norm_num
      · norm_num) w₁ w₂ h₁ h₂
    (fun ds fb es e => by
      have : ds = prepareFree 0 1 0 1 := by
        rcases List.eq_nil_or_concat es with rfl | ⟨es, c, rfl⟩
        · exact (List.append_inj' e rfl).1.symm
        · rw [List.concat_eq_append, ← List.cons_append, ← List.append_assoc] at e
          have h1 := (List.append_inj' e rfl).1
          have : TrajCall.solve fb ∈ prepareFree 0 1 0 1 := by rw [h1]; simp
          simp [prepareFree] at this
      rw [this]
      change (0 : ℝ) < 1 / 100
      norm_num)
    (bnd _ _ _ _ (by norm_num) (by norm_num) (by norm_num) (by norm_num))
    (bnd _ _ _ _ (by norm_num) (by norm_num) (by norm_num) (by norm_num))
  exact ⟨w₁, w₂, w₃, h₁, h₂, h₃, hs⟩

end MPC
