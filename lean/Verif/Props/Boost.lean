import Verif.Spec.Boost
import Verif.Props.Superpose
/-!
# C100: without motion constraints, `TrajectoryWalkgen` does the same in a frame that moves at a constant velocity

Statements: `Verif.Spec.Boost`.
-/
set_option linter.unusedSectionVars false
namespace MPC
open Finset
variable {K : Type} [Field K] [LinearOrder K] [IsStrictOrderedRing K]

theorem boost_cubic (u δ : K) (x : State3 K) (j t : K) :
    Spec.cubic (Spec.State3.boost u δ x) j t = Spec.State3.boost u (δ + u * t) (Spec.cubic x j t) := by
  simp only [Spec.State3.boost, Spec.cubic, State3.mk.injEq]
  exact ⟨by ring, by ring, trivial⟩

theorem boost_trajectory (u δ T : K) (x : State3 K) (J : ℕ → K) (i : ℕ) :
    Spec.jerkTrajectory T T (Spec.State3.boost u δ x) J i
      = Spec.State3.boost u (δ + u * ((i + 1) * T)) (Spec.jerkTrajectory T T x J i) := by
  induction i with
  | zero => simp only [Spec.jerkTrajectory, boost_cubic]; congr 1; push_cast; ring
  | succ i ih => simp only [Spec.jerkTrajectory, ih, boost_cubic]; congr 1; push_cast; ring

/-- The cost of jerks is the same in both frames. -/
theorem boost_cost {u δ : K} {s₁ s₂ : Spec.TrajSettings K} (hs : Spec.Boosted u δ s₁ s₂) (x : State3 K) (J : ℕ → K) :
    Spec.trajCost s₂ (Spec.State3.boost u δ x) J = Spec.trajCost s₁ x J := by
  simp only [Spec.trajCost, hs.N, hs.T, hs.weighting, hs.velRef, hs.posRef, boost_trajectory]
  simp only [Spec.State3.boost, Spec.boostVel, Spec.boostPos, add_assoc, add_sub_add_right_eq_sub]

/-- **C100, one call.** Two generators without motion constraints, after whatever histories, whose states and references are
those seen from two frames, one of which moves at a constant velocity with respect to the other, and whose planned jerks
are the same: if their solvers return solutions the jerks are again the same, and the states are again those seen from the two
frames. -/
theorem C100_solve (o₁ o₂ p₁ p₂ : Oracle K) (cs₁ cs₂ : List (TrajCall K)) (w₁ w₂ : TrajWalkgen K)
    (hw₁ : TrajReaches o₁ cs₁ w₁) (hw₂ : TrajReaches o₂ cs₂ w₂) (u δ : K)
    (hs : Spec.Boosted u δ (settingsOf cs₁) (settingsOf cs₂)) (hx : w₂.getState = Spec.State3.boost u δ w₁.getState)
    (hX : ∀ i < (settingsOf cs₁).nbSamples, w₂.X.get i = w₁.X.get i) (hr : (settingsOf cs₁).RefsCurrent)
    (hj : 0 < (settingsOf cs₁).weighting.jerkMinimization) (fb : K) (hfb : 0 < fb) :
    ∃ qp₁ qp₂, GivesToSolver w₁ fb qp₁ ∧ GivesToSolver w₂ fb qp₂ ∧ ∀ b₁ b₂ w₁' w₂',
      Spec.IsSolution qp₁ (p₁ w₁.solver.calls qp₁ 10000).2 →
      ((∃ d, Spec.IsSolution qp₂ d) → Spec.IsSolution qp₂ (p₂ w₂.solver.calls qp₂ 10000).2) →
      w₁.solve p₁ fb = .ok (b₁, w₁') → w₂.solve p₂ fb = .ok (b₂, w₂') →
      (∀ i < (settingsOf cs₁).nbSamples, w₂'.X.get i = w₁'.X.get i) ∧
      w₂'.getState = Spec.State3.boost u (δ + u * fb) w₁'.getState := by
  have h₁ : TrajInv (settingsOf cs₁) w₁ := reachable_inv hw₁
  have h₂ : TrajInv (settingsOf cs₂) w₂ := reachable_inv hw₂
  generalize settingsOf cs₁ = s₁ at *
  generalize settingsOf cs₂ = s₂ at *
  have hr₂ : s₂.RefsCurrent := ⟨by rw [hs.velRef, hs.N]; exact hr.1, by rw [hs.posRef, hs.N]; exact hr.2⟩
  obtain ⟨qp₁, hg₁, hq₁, hs₁⟩ := givesToSolver_of_prepared h₁ hr hfb
  obtain ⟨qp₂, hg₂, hq₂, hs₂⟩ := givesToSolver_of_prepared h₂ hr₂ hfb
  refine ⟨qp₁, qp₂, hg₁, hg₂, fun b₁ b₂ w₁' w₂' hsol₁ hsol₂ e₁ e₂ => ?_⟩
  rw [hs₁ p₁] at e₁; cases e₁
  rw [hs₂ p₂] at e₂; cases e₂
  have hx' : w₂.model.state = Spec.State3.boost u δ w₁.model.state := hx
  have hd' := solution_congr (hq₁.consistent h₁)
      (y := fun i => if i < w₁.solver.nbVar then (p₁ w₁.solver.calls qp₁ 10000).2 i else w₁.dX.get i)
      (fun i hi => by simp only [hi, if_true]) hsol₁
  have hfeas : Spec.Feasible qp₂ (fun i => (solveResult p₁ w₁ qp₁ fb).X.get i - w₂.X.get i) := by
    rw [prepared_free hq₂ hs.free₂, hs.N]
    intro i hi
    have h1 := (prepared_free hq₁ hs.free₁ _).1 hd'.1 i hi
    rw [hX i hi]
    have e : (solveResult p₁ w₁ qp₁ fb).X.get i - w₁.X.get i
        = if i < w₁.solver.nbVar then (p₁ w₁.solver.calls qp₁ 10000).2 i else w₁.dX.get i := by
      have e' : (solveResult p₁ w₁ qp₁ fb).X.get i = w₁.X.get i
        + if i < w₁.solver.nbVar then (p₁ w₁.solver.calls qp₁ 10000).2 i else w₁.dX.get i := rfl
      rw [e']; ring
    rw [e]; exact h1
  have hmin : ∀ d, Spec.Feasible qp₂ d → Spec.trajCost s₂ w₂.model.state (solveResult p₁ w₁ qp₁ fb).X.get
      ≤ Spec.trajCost s₂ w₂.model.state (fun i => w₂.X.get i + d i) := by
    intro d hd
    rw [hx', boost_cost hs, boost_cost hs]
    have hd2 := (prepared_free hq₂ hs.free₂ _).1 hd
    rw [hs.N] at hd2
    have hf : Spec.Feasible qp₁ (fun i => (w₂.X.get i + d i) - w₁.X.get i) := by
      rw [prepared_free hq₁ hs.free₁]
      intro i hi
      rw [hX i hi, add_sub_cancel_left]
      exact hd2 i hi
    have h3 := hd'.2 _ hf
    rw [prepared_cost h₁ hq₁, prepared_cost h₁ hq₁] at h3
    have e : (fun i => w₁.X.get i + (w₂.X.get i + d i - w₁.X.get i)) = fun i => w₂.X.get i + d i := by
      funext i; ring
    rw [e] at h3
    exact (sub_le_sub_iff_right _).1 h3
  have hsol := isSolution_of_min h₂ hq₂ _ hfeas hmin
  have hX' := solve_unique p₂ h₂ fb (by rw [hs.weighting]; exact hj) hq₂ (hsol₂ ⟨_, hsol⟩) _ hfeas hmin
  rw [hs.N] at hX'
  refine ⟨hX', ?_⟩
  have g₁ : (solveResult p₁ w₁ qp₁ fb).getState = stateStep ((solveResult p₁ w₁ qp₁ fb).X.get 0) fb w₁.model.state := rfl
  have g₂ : (solveResult p₂ w₂ qp₂ fb).getState = stateStep ((solveResult p₂ w₂ qp₂ fb).X.get 0) fb w₂.model.state := rfl
  have sc : ∀ (j t : K) (z : State3 K), stateStep j t z = Spec.cubic z j t := fun j t z => by
    simp only [stateStep, Spec.cubic, State3.mk.injEq]
    exact ⟨by ring, by ring, trivial⟩
  rw [g₁, g₂, hX' 0 h₁.N_pos, hx', sc, sc, boost_cubic]

/-- **C100.** Two generators without motion constraints, after whatever histories, with the same settings and planned
jerks, and with states that are those seen from two frames, one of which moves at a constant velocity with respect to the other.
New references are given before each call of `solve`, those seen from the two frames at that time. Then all calls
succeed, the planned jerks are the same and the states are those seen from the two frames, at all times, for all solvers that find
solutions. -/
theorem C100_frames (o₁ o₂ : Oracle ℝ) (ho₁ : Spec.FindsSolution o₁) (ho₂ : Spec.FindsSolution o₂)
    (cs₁ cs₂ : List (TrajCall ℝ)) (w₁ w₂ : TrajWalkgen ℝ) (hw₁ : TrajReaches o₁ cs₁ w₁) (hw₂ : TrajReaches o₂ cs₂ w₂)
    (u δ : ℝ) (hN : (settingsOf cs₂).nbSamples = (settingsOf cs₁).nbSamples) (hT : (settingsOf cs₂).period = (settingsOf cs₁).period)
    (hwt : (settingsOf cs₂).weighting = (settingsOf cs₁).weighting) (hc₁ : (settingsOf cs₁).constrained = false)
    (hc₂ : (settingsOf cs₂).constrained = false) (hj : 0 < (settingsOf cs₁).weighting.jerkMinimization)
    (hx : w₂.getState = Spec.State3.boost u δ w₁.getState)
    (hX : ∀ i < (settingsOf cs₁).nbSamples, w₂.X.get i = w₁.X.get i) (rs : List (Spec.Round ℝ))
    (hrs : ∀ r ∈ rs, r.velRef.size = (settingsOf cs₁).nbSamples ∧ r.posRef.size = (settingsOf cs₁).nbSamples ∧ 0 < r.period) :
    ∃ w₁' w₂', TrajReaches o₁ (cs₁ ++ Spec.roundCalls rs) w₁' ∧
      TrajReaches o₂ (cs₂ ++ Spec.roundCalls (Spec.boostRounds u (settingsOf cs₁).period δ rs)) w₂' ∧
      w₂'.getState = Spec.State3.boost u (δ + u * Spec.roundTime rs) w₁'.getState ∧
      ∀ i < (settingsOf cs₁).nbSamples, w₂'.X.get i = w₁'.X.get i := by
  have happ : ∀ (as : List (TrajCall ℝ)) c, settingsOf (as ++ [c]) = (settingsOf as).apply c := fun as c => by
    simp [settingsOf, Spec.TrajSettings.after]
  have hM : (0 : ℝ) ≤ MAXBOUND := by norm_num [MAXBOUND]
  induction rs generalizing cs₁ cs₂ w₁ w₂ δ with
  | nil =>
    refine ⟨w₁, w₂, by simpa [Spec.roundCalls] using hw₁, by simpa [Spec.roundCalls, Spec.boostRounds] using hw₂, ?_, hX⟩
    simpa [Spec.roundTime] using hx
  | cons r rs ih =>
    obtain ⟨hv, hp, hfb⟩ := hrs r (by simp)
    -- the references
    obtain ⟨a1, x1, f1, -⟩ := step_ok (reachable_inv hw₁) o₁ (.setVelRef r.velRef) hv
    obtain ⟨a2, x2, f2, -⟩ := step_ok (reachable_inv hw₂) o₂ (.setVelRef (Spec.boostVel u r.velRef)) (hv.trans hN.symm)
    have gx1 := trajReaches_append.2 ⟨w₁, a1, hw₁, f1⟩
    have gx2 := trajReaches_append.2 ⟨w₂, a2, hw₂, f2⟩
    obtain ⟨b1, y1, k1, -⟩ := step_ok (reachable_inv gx1) o₁ (.setPosRef r.posRef) (by
      have e := happ cs₁ (.setVelRef r.velRef)
      change _ = (settingsOf (cs₁ ++ _)).nbSamples
      rw [e]; exact hp)
    obtain ⟨b2, y2, k2, -⟩ := step_ok (reachable_inv gx2) o₂
      (.setPosRef (Spec.boostPos u δ (settingsOf cs₁).period r.posRef)) (by
      have e := happ cs₂ (.setVelRef (Spec.boostVel u r.velRef))
      change _ = (settingsOf (cs₂ ++ _)).nbSamples
      rw [e]; exact hp.trans hN.symm)
    have gy1 := trajReaches_append.2 ⟨x1, b1, gx1, k1⟩
    have gy2 := trajReaches_append.2 ⟨x2, b2, gx2, k2⟩
    have st1 : y1.getState = w₁.getState := by
      rw [setter_state (reachable_inv gx1) k1, setter_state (reachable_inv hw₁) f1]
    have st2 : y2.getState = w₂.getState := by
      rw [setter_state (reachable_inv gx2) k2, setter_state (reachable_inv hw₂) f2]
    have pl1 : y1.X = w₁.X := by rw [setter_plan (reachable_inv gx1) k1, setter_plan (reachable_inv hw₁) f1]
    have pl2 : y2.X = w₂.X := by rw [setter_plan (reachable_inv gx2) k2, setter_plan (reachable_inv hw₂) f2]
    set ds₁ := cs₁ ++ [TrajCall.setVelRef r.velRef] ++ [.setPosRef r.posRef] with hds₁
    set ds₂ := cs₂ ++ [TrajCall.setVelRef (Spec.boostVel u r.velRef)] ++
      [.setPosRef (Spec.boostPos u δ (settingsOf cs₁).period r.posRef)] with hds₂
    have q1 : settingsOf ds₁ = { settingsOf cs₁ with
        velRef := r.velRef, posRef := r.posRef } := by
      rw [hds₁, happ, happ]; rfl
    have q2 : settingsOf ds₂ = { settingsOf cs₂ with
        velRef := Spec.boostVel u r.velRef
        posRef := Spec.boostPos u δ (settingsOf cs₁).period r.posRef } := by
      rw [hds₂, happ, happ]; rfl
    have hbo : Spec.Boosted u δ (settingsOf ds₁) (settingsOf ds₂) := by
      rw [q1, q2]; exact ⟨hN, hT, hwt, hc₁, hc₂, rfl, rfl⟩
    have hr₁ : (settingsOf ds₁).RefsCurrent := by rw [q1]; exact ⟨hv, hp⟩
    have n1 : (settingsOf ds₁).nbSamples = (settingsOf cs₁).nbSamples := by rw [q1]
    -- the call
    obtain ⟨qp₁, qp₂, g₁, g₂, hmain⟩ := C100_solve o₁ o₂ o₁ o₂ ds₁ ds₂ y1 y2 gy1 gy2 u δ hbo (by rw [st1, st2, hx])
      (by rw [n1, pl1, pl2]; exact hX) hr₁ (by rw [q1]; exact hj) r.period hfb
    obtain ⟨c1, z1, m1, -⟩ := step_ok (reachable_inv gy1) o₁ (.solve r.period) ⟨hfb, hr₁⟩
    obtain ⟨c2, z2, m2, -⟩ := step_ok (reachable_inv gy2) o₂ (.solve r.period) ⟨hfb, by
      change (settingsOf ds₂).RefsCurrent
      rw [q2]; exact ⟨hv.trans hN.symm, hp.trans hN.symm⟩⟩
    have hex : ∃ d, Spec.IsSolution qp₁ d := by
      obtain ⟨qp', hg', hq', -⟩ := givesToSolver_of_prepared (reachable_inv gy1) hr₁ hfb
      obtain rfl := g₁.unique (reachable_inv gy1) hg'
      exact solution_exists (hq'.consistent (reachable_inv gy1))
        ⟨fun _ => 0, (prepared_free hq' hbo.free₁ _).2 fun i _ => by rw [abs_zero]; exact hM⟩
    obtain ⟨t1, t2⟩ := hmain _ _ _ _ (ho₁ _ _ _ hex) (fun h => ho₂ _ _ _ h) m1 m2
    have gz1 := trajReaches_append.2 ⟨y1, c1, gy1, m1⟩
    have gz2 := trajReaches_append.2 ⟨y2, c2, gy2, m2⟩
    have p1 : settingsOf (ds₁ ++ [.solve r.period]) = settingsOf ds₁ := by rw [happ]; rfl
    have p2 : settingsOf (ds₂ ++ [.solve r.period]) = settingsOf ds₂ := by rw [happ]; rfl
    have P1 := p1.trans q1
    have P2 := p2.trans q2
    obtain ⟨w₁', w₂', r1, r2, r3, r4⟩ := ih (ds₁ ++ [.solve r.period]) (ds₂ ++ [.solve r.period]) z1 z2 gz1 gz2 (δ + u * r.period)
      (by rw [P1, P2]; exact hN) (by rw [P1, P2]; exact hT) (by rw [P1, P2]; exact hwt) (by rw [P1]; exact hc₁)
      (by rw [P2]; exact hc₂) (by rw [P1]; exact hj) t2 (by rw [p1]; exact t1)
      (by rw [P1]; exact fun r' hr' => hrs r' (by simp [hr']))
    refine ⟨w₁', w₂', ?_, ?_, ?_, ?_⟩
    · simpa [Spec.roundCalls, hds₁] using r1
    · rw [P1] at r2
      simpa [Spec.roundCalls, Spec.boostRounds, hds₂] using r2
    · rw [r3]; congr 1; simp only [Spec.roundTime]; ring
    · rw [P1] at r4; exact r4

/-- The hypotheses of `C100_frames` are met: a robot at rest, and one that moves at the velocity 3. -/
example (o : Oracle ℝ) (ho : Spec.FindsSolution o) : ∃ w₁ w₂ : TrajWalkgen ℝ,
    TrajReaches o (prepareFree 0 0 0 0 ++ Spec.roundCalls (List.replicate 5 ⟨⟨2, fun _ => 1⟩, ⟨2, fun _ => 1⟩, 1 / 10⟩)) w₁ ∧
    TrajReaches o (prepareFree 7 3 0 0 ++ Spec.roundCalls (Spec.boostRounds 3 (1 / 10) 7
      (List.replicate 5 ⟨⟨2, fun _ => 1⟩, ⟨2, fun _ => 1⟩, 1 / 10⟩))) w₂ ∧
    w₂.getState = Spec.State3.boost 3 (7 + 3 * (1 / 2)) w₁.getState := by
  have leg : ∀ p v : ℝ, ∃ w, TrajReaches o (prepareFree p v 0 0) w ∧ w.getState = ⟨p, v, 0⟩ := by
    intro p v
    obtain ⟨w, hw⟩ := C16_no_fault_partial o (prepareFree p v 0 0)
      (by norm_num [prepareFree, Spec.TrajSettings.Legal, Spec.TrajSettings.Pre, Spec.TrajSettings.apply])
      (by simp [prepareFree, Spec.TrajSettings.RefsCurrentAtSolves, Spec.TrajSettings.RefsCurrent, Spec.TrajSettings.apply])
    refine ⟨w, hw, ?_⟩
    have h1 : prepareFree p v 0 0 = (prepareFree p v 0 0).take 5 ++ [.setState ⟨3, fun i => if i = 0 then p else
      if i = 1 then v else 0⟩] := rfl
    rw [h1] at hw
    obtain ⟨u', b', hu', e'⟩ := trajReaches_append.1 hw
    rw [setter_state (reachable_inv hu') e']
    norm_num
  obtain ⟨w₁, h1, s1⟩ := leg 0 0
  obtain ⟨w₂, h2, s2⟩ := leg 7 3
  have z : ∀ p v : ℝ, ∀ fb, .solve fb ∉ prepareFree p v 0 0 := by intro p v fb; simp [prepareFree]
  have st : ∀ p v : ℝ, (settingsOf (prepareFree p v 0 0)).nbSamples = 2 ∧ (settingsOf (prepareFree p v 0 0)).period = 1 / 10 ∧
      (settingsOf (prepareFree p v 0 0)).weighting = ⟨1, 1, 1 / 100⟩ ∧ (settingsOf (prepareFree p v 0 0)).constrained = false :=
    fun p v => ⟨rfl, rfl, rfl, rfl⟩
  obtain ⟨w₁', w₂', r1, r2, r3, -⟩ := C100_frames o o ho ho _ _ w₁ w₂ h1 h2 3 7 (by rw [(st _ _).1, (st _ _).1])
    (by rw [(st _ _).2.1, (st _ _).2.1]) (by rw [(st _ _).2.2.1, (st _ _).2.2.1]) (st _ _).2.2.2 (st _ _).2.2.2
    (by rw [(st _ _).2.2.1]; norm_num) (by rw [s1, s2]; simp [Spec.State3.boost])
    (fun i _ => by rw [plan_zero h1 (z _ _), plan_zero h2 (z _ _)])
    (List.replicate 5 ⟨⟨2, fun _ => 1⟩, ⟨2, fun _ => 1⟩, 1 / 10⟩) (by
      rw [(st _ _).1]; intro r hr; rw [List.eq_of_mem_replicate hr]; norm_num)
  refine ⟨w₁', w₂', r1, r2, ?_⟩
  rw [r3]
  norm_num [Spec.roundTime, List.replicate]

/-- **C100, limits.** The condition that the motion constraints are off is necessary: the limit of the velocity is one in a given
frame. With constraints on, two generators as in `C100_solve` do not have a common feasible point, hence do not plan the
same jerks within the limits, if the velocity of the frame exceeds twice the limit. -/
theorem C100_limits (o₁ o₂ : Oracle K) (cs₁ cs₂ : List (TrajCall K)) (w₁ w₂ : TrajWalkgen K)
    (hw₁ : TrajReaches o₁ cs₁ w₁) (hw₂ : TrajReaches o₂ cs₂ w₂) (u δ : K)
    (hN : (settingsOf cs₂).nbSamples = (settingsOf cs₁).nbSamples) (hT : (settingsOf cs₂).period = (settingsOf cs₁).period)
    (hl : (settingsOf cs₂).velLimit = (settingsOf cs₁).velLimit) (hc₁ : (settingsOf cs₁).constrained = true)
    (hc₂ : (settingsOf cs₂).constrained = true) (hx : w₂.getState = Spec.State3.boost u δ w₁.getState)
    (hX : ∀ i < (settingsOf cs₁).nbSamples, w₂.X.get i = w₁.X.get i) (hr₁ : (settingsOf cs₁).RefsCurrent)
    (hr₂ : (settingsOf cs₂).RefsCurrent) (fb : K) (hfb : 0 < fb) (hu : 2 * (settingsOf cs₁).velLimit < |u|) :
    ∃ qp₁ qp₂, GivesToSolver w₁ fb qp₁ ∧ GivesToSolver w₂ fb qp₂ ∧ ∀ d, ¬ (Spec.Feasible qp₁ d ∧ Spec.Feasible qp₂ d) := by
  have h0 := (reachable_inv hw₁).N_pos
  obtain ⟨qp₁, g₁, f₁⟩ := C18_constraints o₁ cs₁ w₁ hw₁ hr₁ hc₁ fb hfb
  obtain ⟨qp₂, g₂, f₂⟩ := C18_constraints o₂ cs₂ w₂ hw₂ hr₂ hc₂ fb hfb
  refine ⟨qp₁, qp₂, g₁, g₂, fun d ⟨hd₁, hd₂⟩ => ?_⟩
  have e₁ := (((f₁ d).1 hd₁) 0 h0).1
  have e₂ := (((f₂ d).1 hd₂) 0 (by rw [hN]; exact h0)).1
  rw [hx, hT, hl, boost_trajectory] at e₂
  simp only [Spec.jerkTrajectory, Spec.State3.boost, hX 0 h0] at e₁ e₂
  rw [abs_le] at e₁ e₂
  rcases lt_abs.1 hu with h | h <;> linarith [e₁.1, e₁.2, e₂.1, e₂.2]

/-- A robot with the velocity limit 1 that moves at the velocity `v`. -/
def limitedCalls (v : ℚ) : List (TrajCall ℚ) :=
  [.setVelLimit 1, .setConfig true, .setState ⟨3, fun i => if i = 1 then v else 0⟩]

/-- The hypotheses of `C100_limits` are met: a robot at rest, and one that moves at the velocity 3, with the limit 1. -/
example (o : Oracle ℚ) : ∃ w₁ w₂ qp₁ qp₂, TrajReaches o (limitedCalls 0) w₁ ∧ TrajReaches o (limitedCalls 3) w₂ ∧
    GivesToSolver w₁ (1 / 10) qp₁ ∧ GivesToSolver w₂ (1 / 10) qp₂ ∧ ∀ d, ¬ (Spec.Feasible qp₁ d ∧ Spec.Feasible qp₂ d) := by
  have leg : ∀ v : ℚ, ∃ w, TrajReaches o (limitedCalls v) w ∧ w.getState = ⟨0, v, 0⟩ := by
    intro v
    obtain ⟨w, hw⟩ := C16_no_fault_partial o (limitedCalls v)
      (by simp [limitedCalls, Spec.TrajSettings.Legal, Spec.TrajSettings.Pre, Spec.TrajSettings.apply])
      (by simp [limitedCalls, Spec.TrajSettings.RefsCurrentAtSolves])
    refine ⟨w, hw, ?_⟩
    have h1 : limitedCalls v = (limitedCalls v).take 2 ++ [.setState ⟨3, fun i => if i = 1 then v else 0⟩] := rfl
    rw [h1] at hw
    obtain ⟨u', b', hu', e'⟩ := trajReaches_append.1 hw
    rw [setter_state (reachable_inv hu') e']
    norm_num
  obtain ⟨w₁, h1, s1⟩ := leg 0
  obtain ⟨w₂, h2, s2⟩ := leg 3
  have z : ∀ v fb, .solve fb ∉ limitedCalls v := by intro v fb; simp [limitedCalls]
  obtain ⟨qp₁, qp₂, g₁, g₂, hd⟩ := C100_limits o o _ _ w₁ w₂ h1 h2 3 0 rfl rfl rfl rfl rfl
    (by rw [s1, s2]; simp [Spec.State3.boost]) (fun i _ => by rw [plan_zero h1 (z _), plan_zero h2 (z _)]) ⟨rfl, rfl⟩ ⟨rfl, rfl⟩
    (1 / 10) (by norm_num) (by change 2 * (1 : ℚ) < |3|; norm_num)
  exact ⟨w₁, w₂, qp₁, qp₂, h1, h2, g₁, g₂, hd⟩

end MPC
