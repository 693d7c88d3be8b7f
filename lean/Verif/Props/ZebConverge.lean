import Verif.Lemmas.ZebConverge
/-! # C87: does the motion of `ZebulonWalkgen` converge to its references?

`solve(fb)` is called again and again with the same settings, without constraints. Does the base reach its velocity
reference? Does the CoM reach its place above the base? Yes for the velocity of the base, when nothing else is weighted
but the jerks. No for the CoM, when nothing else is weighted but the jerks. -/
set_option linter.unusedSectionVars false
namespace MPC
open Finset Filter Topology

/-- **C87 (velocity, partial).** When only base velocity and jerks are weighted, without constraints, every state near
enough to the references (the distance `C` depends only on settings and feedback period, and comes from the numerical
bound `MAXBOUND`) converges: after any number of calls of `solve(fb)` nothing faults, the base velocities tend to the
references, the base accelerations to zero, and the CoM moves without jerk. For every horizon, sampling period, positive
weightings, and every feedback period up to the sampling period. Missing: references that are far away, longer feedback
periods, other objectives (false for CoM centering, `C87_centering_violated`). -/
theorem C87_velocity_partial (s : Spec.ZebSettings ℝ) (hT : 0 < s.period) (hN : 0 < s.nbSamples)
    (hv : 0 < s.weighting.velocityTracking) (hp : s.weighting.positionTracking ≤ 0)
    (hcop : s.weighting.copCentering ≤ 0) (hcom : s.weighting.comCentering ≤ 0)
    (hj : 0 < s.weighting.jerkMinimization) (ht : s.weighting.tiltMinimization ≤ 0)
    (ht' : s.weighting.tiltVelMinimization ≤ 0) (hc : s.config = ⟨false, false, false, false⟩) (hr : s.RefsCurrent)
    (vx vy : ℝ) (href : ∀ i < s.nbSamples, s.velRef.get i = vx ∧ s.velRef.get (s.nbSamples + i) = vy)
    (fb : ℝ) (hfb : 0 < fb) (hfT : fb ≤ s.period) :
    ∃ C : ℝ, 0 < C ∧ ∀ (o : Oracle ℝ) (tr : Trig ℝ) (cx cy : ℝ) (cs : List (ZebCall ℝ)) (w : Zeb ℝ),
      Spec.FindsSolution o → ZebReaches o tr cx cy cs w → zebSettingsOf cx cy cs = s →
      (∀ i < 4 * s.nbSamples, |w.X.get i| ≤ MAXBOUND / 2) →
      |w.state.bx.v - vx| ≤ C → |w.state.bx.a| ≤ C → |w.state.by_.v - vy| ≤ C → |w.state.by_.a| ≤ C →
      ∃ W : ℕ → Zeb ℝ, (∀ n, ZebReaches o tr cx cy (cs ++ List.replicate n (.solve fb)) (W n)) ∧ W 0 = w ∧
        Tendsto (fun n => (W n).state.bx.v) atTop (𝓝 vx) ∧ Tendsto (fun n => (W n).state.bx.a) atTop (𝓝 0) ∧
        Tendsto (fun n => (W n).state.by_.v) atTop (𝓝 vy) ∧ Tendsto (fun n => (W n).state.by_.a) atTop (𝓝 0) ∧
        ∀ n : ℕ, (W n).state.cx = Spec.cubic w.state.cx 0 (n * fb) ∧ (W n).state.cy = Spec.cubic w.state.cy 0 (n * fb) := by
  obtain ⟨m, hm⟩ : ∃ m, s.nbSamples = m + 1 := ⟨s.nbSamples - 1, by omega⟩
  obtain ⟨Lx, hLx, hax⟩ := velCost_attained hT hv hj vx s.nbSamples
  obtain ⟨Ly, hLy, hay⟩ := velCost_attained hT hv hj vy s.nbSamples
  obtain ⟨h1, h2, h3⟩ := gains hT hv hj m
  set g1 := gain1 s.period s.weighting.velocityTracking s.weighting.jerkMinimization m
  set g2 := gain2 s.period s.weighting.velocityTracking s.weighting.jerkMinimization m
  have hM : (0 : ℝ) < MAXBOUND / 2 := by unfold MAXBOUND; norm_num
  obtain ⟨Cx, hCx, kx⟩ := track_converges h1 h2 h3 hLx hM hfb hfT vx
  obtain ⟨Cy, hCy, ky⟩ := track_converges h1 h2 h3 hLy hM hfb hfT vy
  refine ⟨min Cx Cy, lt_min hCx hCy, ?_⟩
  intro o tr cx cy cs w ho hw hs hX b1 b2 b3 b4
  obtain ⟨kx1, kx2, kx3⟩ := kx w.state.bx (b1.trans (min_le_left _ _)) (b2.trans (min_le_left _ _))
  obtain ⟨ky1, ky2, ky3⟩ := ky w.state.by_ (b3.trans (min_le_right _ _)) (b4.trans (min_le_right _ _))
  have hex : ∀ n : ℕ, ∃ w', ZebReaches o tr cx cy (cs ++ List.replicate n (.solve fb)) w' ∧
      w'.state = ⟨Spec.cubic w.state.cx 0 (n * fb), Spec.cubic w.state.cy 0 (n * fb),
        (track g1 g2 fb vx)^[n] w.state.bx, (track g1 g2 fb vy)^[n] w.state.by_⟩ ∧
      (∀ i < 4 * s.nbSamples, |w'.X.get i| ≤ MAXBOUND / 2) ∧
      zebSettingsOf cx cy (cs ++ List.replicate n (.solve fb)) = s := by
    intro n
    induction n with
    | zero =>
      refine ⟨w, by simpa using hw, ?_, hX, by simpa using hs⟩
      simp [Spec.cubic]
    | succ n ih =>
      obtain ⟨w1, r1, e1, x1, s1⟩ := ih
      have ebx : w1.state.bx = (track g1 g2 fb vx)^[n] w.state.bx := by rw [e1]
      have eby : w1.state.by_ = (track g1 g2 fb vy)^[n] w.state.by_ := by rw [e1]
      have ecx : w1.state.cx = Spec.cubic w.state.cx 0 (n * fb) := by rw [e1]
      have ecy : w1.state.cy = Spec.cubic w.state.cy 0 (n * fb) := by rw [e1]
      obtain ⟨Jx, eJx, hJx0, hJx⟩ := hax w1.state.bx
      obtain ⟨Jy, eJy, hJy0, hJy⟩ := hay w1.state.by_
      set N := s.nbSamples
      set J : ℕ → ℝ := fun i => if i < 2 * N then 0 else if i < 3 * N then Jx (i - 2 * N) else Jy (i - 3 * N) with hJ
      have jx : ∀ i < N, J (2 * N + i) = Jx i := by
        intro i hi
        simp only [hJ]
        rw [if_neg (by omega), if_pos (by omega), show 2 * N + i - 2 * N = i by omega]
      have jy : ∀ i < N, J (3 * N + i) = Jy i := by
        intro i hi
        simp only [hJ]
        rw [if_neg (by omega), if_neg (by omega), show 3 * N + i - 3 * N = i by omega]
      have jc : ∀ i < 2 * N, J i = 0 := by
        intro i hi
        simp only [hJ]
        rw [if_pos hi]
      have cBx : velCost s.period s.weighting.velocityTracking s.weighting.jerkMinimization vx N w1.state.bx
          (Spec.jerkBX N J) = velCost s.period s.weighting.velocityTracking s.weighting.jerkMinimization vx N
            w1.state.bx Jx := by
        unfold velCost
        refine sum_congr rfl fun i hi => ?_
        have hi := mem_range.1 hi
        rw [jerkTrajectory_agree (J := Spec.jerkBX N J) (J' := Jx) (i := i) _ _ _ (fun k hk => jx k (by omega))]
        show _ + _ * (J (2 * N + i)) ^ 2 = _
        rw [jx i hi]
      have cBy : velCost s.period s.weighting.velocityTracking s.weighting.jerkMinimization vy N w1.state.by_
          (Spec.jerkBY N J) = velCost s.period s.weighting.velocityTracking s.weighting.jerkMinimization vy N
            w1.state.by_ Jy := by
        unfold velCost
        refine sum_congr rfl fun i hi => ?_
        have hi := mem_range.1 hi
        rw [jerkTrajectory_agree (J := Spec.jerkBY N J) (J' := Jy) (i := i) _ _ _ (fun k hk => jy k (by omega))]
        show _ + _ * (J (3 * N + i)) ^ 2 = _
        rw [jy i hi]
      have c0 : ∑ i ∈ range (2 * N), J i ^ 2 = 0 := sum_eq_zero fun i hi => by rw [jc i (mem_range.1 hi)]; ring
      have hJb : ∀ i < 4 * N, |J i| ≤ MAXBOUND / 2 := by
        intro i hi
        rcases lt_or_ge i (2 * N) with c | c
        · rw [jc i c, abs_zero]; exact hM.le
        rcases lt_or_ge i (3 * N) with c' | c'
        · rw [show i = 2 * N + (i - 2 * N) by omega, jx _ (by omega)]
          refine (hJx _ (by omega)).trans ?_
          rw [ebx]; exact kx1 n
        · rw [show i = 3 * N + (i - 3 * N) by omega, jy _ (by omega)]
          refine (hJy _ (by omega)).trans ?_
          rw [eby]; exact ky1 n
      obtain ⟨w2, r2, e2, x2⟩ := zSolve_optimal ho r1 (by rw [s1]; exact hr) (by rw [s1]; exact hc)
        (by rw [s1]; exact hj) (by rw [s1]; exact ht) (by rw [s1]; exact ht') J
        (fun J' => by
          rw [s1, totalCost_vel hv.le hp hcop hcom hj.le href, totalCost_vel hv.le hp hcop hcom hj.le href, cBx, cBy, c0,
            eJx, eJy]
          have a1 := velCost_ge hT hv hj vx N w1.state.bx (Spec.jerkBX N J')
          have a2 := velCost_ge hT hv hj vy N w1.state.by_ (Spec.jerkBY N J')
          have a3 : 0 ≤ s.weighting.jerkMinimization * ∑ i ∈ range (2 * N), J' i ^ 2 :=
            mul_nonneg hj.le (sum_nonneg fun i _ => sq_nonneg _)
          linarith) (by rw [s1]; exact x1) (by rw [s1]; exact hJb) hfb
      have el : cs ++ List.replicate n (ZebCall.solve fb) ++ [.solve fb] = cs ++ List.replicate (n + 1) (.solve fb) := by
        rw [List.replicate_succ', List.append_assoc]
      rw [el] at r2
      rw [s1] at e2 x2
      refine ⟨w2, r2, ?_, fun i hi => by rw [x2 i hi]; exact hJb i hi, by rw [← el, zebSettingsOf_solve, s1]⟩
      rw [e2, show J 0 = 0 from jc 0 (by omega), show J N = 0 from jc N (by omega),
        show J (2 * N) = Jx 0 from jx 0 hN, show J (3 * N) = Jy 0 from jy 0 hN, hJx0 m hm, hJy0 m hm]
      simp only [Spec.ZebState.driven, Function.iterate_succ_apply']
      rw [← ebx, ← eby, ecx, ecy]
      simp only [track, Spec.ZebState.mk.injEq]
      refine ⟨?_, ?_, rfl, rfl⟩ <;>
      · simp only [Spec.cubic, State3.mk.injEq]
        push_cast
        refine ⟨by ring, by ring, by ring⟩
  choose W hW using hex
  refine ⟨W, fun n => (hW n).1, ?_, ?_, ?_, ?_, ?_, fun n => ?_⟩
  · have h0 := (hW 0).1
    simp only [List.replicate_zero, List.append_nil] at h0
    have := h0.symm.trans hw
    simpa using this
  · exact kx2.congr fun n => by rw [(hW n).2.1]
  · exact kx3.congr fun n => by rw [(hW n).2.1]
  · exact ky2.congr fun n => by rw [(hW n).2.1]
  · exact ky3.congr fun n => by rw [(hW n).2.1]
  · rw [(hW n).2.1]; exact ⟨rfl, rfl⟩

/-- The history of the example: only base velocity and jerks weighted, references `(1, 1)`. -/
noncomputable def zVelCalls : List (ZebCall ℝ) := [.setWeightings ⟨1, 0, 0, 0, 1 / 10, 0, 0⟩, .setVelRef (Vec.const 2 1)]

/-- The hypotheses of `C87_velocity_partial` are met; the base is not at its reference. -/
example (o : Oracle ℝ) (tr : Trig ℝ) (cx cy : ℝ) : ∃ s w, ZebReaches o tr cx cy zVelCalls w ∧
    zebSettingsOf cx cy zVelCalls = s ∧ 0 < s.period ∧ 0 < s.nbSamples ∧ 0 < s.weighting.velocityTracking ∧
    0 < s.weighting.jerkMinimization ∧ s.config = ⟨false, false, false, false⟩ ∧ s.RefsCurrent ∧
    (∀ i < s.nbSamples, s.velRef.get i = 1 ∧ s.velRef.get (s.nbSamples + i) = 1) ∧
    ∀ i < 4 * s.nbSamples, |w.X.get i| ≤ MAXBOUND / 2 := by
  obtain ⟨w, hw⟩ := C54_no_fault_partial o tr cx cy zVelCalls
    (by simp [zVelCalls, Spec.ZebSettings.Legal, Spec.ZebSettings.Pre, Spec.ZebSettings.apply, Spec.ZebSettings.init,
      Vec.const])
    (by simp [zVelCalls, Spec.ZebSettings.RefsCurrentAtSolves])
  refine ⟨_, w, hw, rfl, ?_, ?_, ?_, ?_, rfl, ⟨rfl, rfl, rfl⟩, fun i _ => ⟨rfl, rfl⟩, fun i _ => ?_⟩
  · exact one_pos
  · exact one_pos
  · exact one_pos
  · show (0 : ℝ) < 1 / 10
    norm_num
  · obtain ⟨w0, e0, e⟩ := bind_eq_ok.1 hw
    unfold zVelCalls Zeb.run at e
    obtain ⟨⟨b1, w1⟩, e1, e⟩ := bind_eq_ok.1 e
    unfold Zeb.run at e
    obtain ⟨⟨b2, w2⟩, e2, e⟩ := bind_eq_ok.1 e
    cases e
    obtain ⟨-, -, e2⟩ := bind_eq_ok.1 e2
    cases e2
    unfold Zeb.step at e1
    simp only [bind_eq_ok, res_pure, Except.ok.injEq, Prod.mk.injEq] at e1
    obtain ⟨-, -, -, -, -, -, -, -, -, -, -, -, w3, e3, -, rfl⟩ := e1
    show |w3.X.get i| ≤ _
    rw [zComputeConstantPart_X e3]
    show |w0.X.get i| ≤ _
    rw [zMake_X e0, abs_zero]
    unfold MAXBOUND; norm_num

/-! ### CoM centering -/

variable {K : Type} [Field K] [LinearOrder K] [IsStrictOrderedRing K] [FloorRing K]

/-- Settings of the violation: the CoM is to be above the base and is one metre ahead of it; one sample of one second. -/
def zCentreCalls : List (ZebCall K) :=
  [.setWeightings ⟨0, 0, 0, 1, 1 / 81, 0, 0⟩, .setComX ⟨3, fun i => if i = 0 then 1 else 0⟩]

/-- Half of the sum of squares of one coordinate, at least for these settings. -/
def centreCost (σ jc jb : K) : K :=
  11 / 648 * (jc - jb + 54 / 11 * σ) ^ 2 + 1 / 11 * σ ^ 2 + 1 / 324 * (jc + jb) ^ 2

theorem zCentre_cost (cx cy : K) (k : K × K) (hk : k = (0, 0)) (z : Spec.ZebState K) (X : ℕ → K) :
    (zebSettingsOf cx cy (zCentreCalls (K := K))).totalCost k 0 0 z X
      = centreCost ((z.cx.p - z.bx.p) + (z.cx.v - z.bx.v) + (z.cx.a - z.bx.a) / 2) (X 0) (X 2)
        + centreCost ((z.cy.p - z.by_.p) + (z.cy.v - z.by_.v) + (z.cy.a - z.by_.a) / 2) (X 1) (X 3) := by
  have h1 : max (1 / 81 : K) 0 = 1 / 81 := max_eq_left (by norm_num)
  have h2 : (⌊(1 + EPS : K) / 1⌋ : ℤ) = 1 := by
    rw [Int.floor_eq_iff]; unfold EPS; norm_num
  subst hk
  simp only [zebSettingsOf, zCentreCalls, Spec.ZebSettings.after, Spec.ZebSettings.apply, Spec.ZebSettings.init, List.foldl,
    Spec.ZebSettings.totalCost, max_self, h1, max_eq_left (zero_le_one : (0 : K) ≤ 1), Spec.ZebSettings.comCost,
    Spec.ZebSettings.jerkCost, Spec.ZebSettings.comRelX, Spec.ZebSettings.comRelY, Spec.ZebSettings.comX,
    Spec.ZebSettings.comY, Spec.ZebSettings.baseX, Spec.ZebSettings.baseY, Spec.comFirst, h2, Int.cast_one, mul_one,
    Spec.jerkTrajectory, Spec.cubic, Vec.const, Spec.jerkCX, Spec.jerkCY, Spec.jerkBX, Spec.jerkBY,
    sum_range_succ, sum_range_zero, centreCost]
  field_simp
  ring

theorem zCentre_reaches (o : Oracle ℚ) : ∃ w, ZebReaches o trigZero 0 0 zCentreCalls w ∧
    w.state = ⟨⟨1, 0, 0⟩, ⟨0, 0, 0⟩, ⟨0, 0, 0⟩, ⟨0, 0, 0⟩⟩ ∧ ∀ i < 4, w.X.get i = 0 := by
  have h : okAnd (fun w : Zeb ℚ => decide (w.lip.x.p = 1 ∧ w.lip.x.v = 0 ∧ w.lip.x.a = 0) &&
        decide (w.lip.y.p = 0 ∧ w.lip.y.v = 0 ∧ w.lip.y.a = 0) && decide (w.base.x.p = 0 ∧ w.base.x.v = 0 ∧ w.base.x.a = 0) &&
        decide (w.base.y.p = 0 ∧ w.base.y.v = 0 ∧ w.base.y.a = 0) && zNoJerk w)
      (do Zeb.run (fun _ _ _ => (true, fun _ => 0)) trigZero (← Zeb.make trigZero (some 0, some 0)) zCentreCalls)
      = true := by
    decide +kernel
  obtain ⟨w, e, hc⟩ := okAnd_true h
  simp only [Bool.and_eq_true, decide_eq_true_eq] at hc
  obtain ⟨⟨⟨⟨⟨a1, a2, a3⟩, b1, b2, b3⟩, c1, c2, c3⟩, d1, d2, d3⟩, hX⟩ := hc
  refine ⟨w, ?_, ?_, zNoJerk_get hX⟩
  · rw [zReaches_setters _ _ (by decide) o] at e
    exact e
  · have ext : ∀ {x : State3 ℚ} {p : ℚ}, x.p = p → x.v = 0 → x.a = 0 → x = ⟨p, 0, 0⟩ := by
      rintro ⟨_, _, _⟩ _ rfl rfl rfl; rfl
    unfold Zeb.state
    rw [ext a1 a2 a3, ext b1 b2 b3, ext c1 c2 c3, ext d1 d2 d3]

/-- **C87 (CoM centering, violated).** With only CoM centering and jerks weighted, a horizon of one sample, a sampling
period of one second, a solver that finds solutions, and a robot at rest whose CoM is one metre ahead of the base,
`solve(1)` makes the distance between CoM and base grow: after `n ≤ 30` calls it is at least `2ⁿ / 3 - 4 / 3` metres, though
the CoM reference is the base and each QP is solved exactly. -/
theorem C87_centering_violated (o : Oracle ℚ) (ho : Spec.FindsSolution o) :
    ∃ w0 : Zeb ℚ, ZebReaches o trigZero 0 0 zCentreCalls w0 ∧
      w0.state = ⟨⟨1, 0, 0⟩, ⟨0, 0, 0⟩, ⟨0, 0, 0⟩, ⟨0, 0, 0⟩⟩ ∧
      (∀ i, (zebSettingsOf 0 0 (zCentreCalls (K := ℚ))).comRef.get i = 0) ∧
      ∀ n ≤ 30, ∃ w, ZebReaches o trigZero 0 0 (zCentreCalls ++ List.replicate n (.solve 1)) w ∧
        2 ^ n / 3 - 4 / 3 ≤ |w.state.cx.p - w.state.bx.p| := by
  obtain ⟨w0, hw0, hx0, hX0⟩ := zCentre_reaches o
  refine ⟨w0, hw0, hx0, fun i => rfl, ?_⟩
  have hN : (zebSettingsOf (0 : ℚ) 0 zCentreCalls).nbSamples = 1 := rfl
  -- the motion of the CoM relative to the base is the growing mode plus a bounded part
  have key : ∀ n ≤ 30, ∃ w, ZebReaches o trigZero 0 0 (zCentreCalls ++ List.replicate n (.solve 1)) w ∧
      zebSettingsOf 0 0 (zCentreCalls ++ List.replicate n (.solve 1)) = zebSettingsOf (0 : ℚ) 0 zCentreCalls ∧
      (Spec.ZebSettings.init (0 : ℚ) 0).usedShift (0, 0) (zCentreCalls ++ List.replicate n (.solve 1)) = (0, 0) ∧
      (∀ i < 4, |w.X.get i| ≤ MAXBOUND / 2) ∧ w.state.cy = ⟨0, 0, 0⟩ ∧ w.state.by_ = ⟨0, 0, 0⟩ ∧
      ∃ p v : ℚ, |p| ≤ 4 / 3 ∧ |v| ≤ 4 / 3 ∧ w.state.cx.p - w.state.bx.p = (-2) ^ n * (-1 / 3) + p ∧
        w.state.cx.v - w.state.bx.v = (-2) ^ n + v ∧ w.state.cx.a - w.state.bx.a = 6 * (-2) ^ n - 9 * p - 6 * v := by
    intro n
    induction n with
    | zero =>
      intro _
      refine ⟨w0, by simpa using hw0, by simp, rfl, fun i hi => ?_, by rw [hx0], by rw [hx0], 4 / 3, -1, ?_, ?_, ?_, ?_, ?_⟩
      · rw [hX0 i hi, abs_zero]; unfold MAXBOUND; norm_num
      · rw [abs_of_pos (by norm_num)]
      · rw [abs_neg, abs_one]; norm_num
      all_goals rw [hx0]; norm_num
    | succ n ih =>
      intro hn
      obtain ⟨w, hw, hs, hk, hX, hcy, hby, p, v, hp, hv, h1, h2, h3⟩ := ih (by omega)
      have hp' := abs_le.1 hp
      have hv' := abs_le.1 hv
      have hpow : |((-2 : ℚ)) ^ n| ≤ 2 ^ 30 := by
        rw [abs_pow, abs_neg, abs_two]
        exact pow_le_pow_right₀ (by norm_num) (by omega)
      have hpow' := abs_le.1 hpow
      have eσ : (w.state.cx.p - w.state.bx.p) + (w.state.cx.v - w.state.bx.v) + (w.state.cx.a - w.state.bx.a) / 2
          = 11 / 3 * (-2) ^ n - 7 / 2 * p - 2 * v := by
        rw [h1, h2, h3]; ring
      set j : ℚ := -(27 / 11 * (11 / 3 * (-2) ^ n - 7 / 2 * p - 2 * v)) with hj
      have hjb : |j| ≤ MAXBOUND / 2 := by
        rw [hj, abs_le]
        unfold MAXBOUND
        norm_num at hpow' ⊢
        constructor <;> linarith [hp'.1, hp'.2, hv'.1, hv'.2, hpow'.1, hpow'.2]
      set J : ℕ → ℚ := fun i => if i = 0 then j else if i = 2 then -j else 0 with hJ
      obtain ⟨w', hw', hx', hX'⟩ := zSolve_optimal (fb := 1) ho hw (by rw [hs]; exact ⟨rfl, rfl, rfl⟩) (by rw [hs]; rfl)
        (by rw [hs]; show (0 : ℚ) < 1 / 81; norm_num) (by rw [hs]; exact le_rfl) (by rw [hs]; exact le_rfl) J
        (fun J' => by
          rw [hs, hk, zCentre_cost 0 0 _ rfl, zCentre_cost 0 0 _ rfl, eσ, hcy, hby]
          simp only [centreCost, hJ]
          norm_num
          have e0 : j + j + 54 / 11 * (11 / 3 * (-2) ^ n - 7 / 2 * p - 2 * v) = 0 := by rw [hj]; ring
          rw [e0]
          have a1 := sq_nonneg (J' 0 - J' 2 + 54 / 11 * (11 / 3 * (-2) ^ n - 7 / 2 * p - 2 * v))
          have a2 := sq_nonneg (J' 0 + J' 2)
          have a3 := sq_nonneg (J' 1 - J' 3)
          have a4 := sq_nonneg (J' 1 + J' 3)
          linarith)
        (fun i hi => by rw [hs, hN] at hi; exact hX i hi)
        (fun i hi => by
          simp only [hJ]
          split_ifs
          · exact hjb
          · rw [abs_neg]; exact hjb
          · rw [abs_zero]; unfold MAXBOUND; norm_num) one_pos
      have el : zCentreCalls ++ List.replicate n (ZebCall.solve (1 : ℚ)) ++ [.solve 1]
          = zCentreCalls ++ List.replicate (n + 1) (.solve 1) := by
        rw [List.replicate_succ', List.append_assoc]
      rw [hs, hN] at hx' hX'
      have J1 : J 1 = 0 := by simp [hJ]
      have J3 : J (3 * 1) = 0 := by simp [hJ]
      have J0 : J 0 = j := by simp [hJ]
      have J2 : J (2 * 1) = -j := by simp [hJ]
      rw [J0, J1, J2, J3] at hx'
      refine ⟨w', by rw [← el]; exact hw', by rw [← el, zebSettingsOf_solve, hs], ?_, ?_, ?_, ?_,
        (-7 * p - 4 * v) / 11, (-9 / 2 * p - v) / 11, ?_, ?_, ?_, ?_, ?_⟩
      · rw [← el, usedShift_append, hk]; rfl
      · intro i hi
        rw [hX' i hi]
        simp only [hJ]
        split_ifs
        · exact hjb
        · rw [abs_neg]; exact hjb
        · rw [abs_zero]; unfold MAXBOUND; norm_num
      · rw [hx', Spec.ZebState.driven, hcy]; simp [Spec.cubic]
      · rw [hx', Spec.ZebState.driven, hby]; simp [Spec.cubic]
      · rw [abs_le]; constructor <;> linarith [hp'.1, hp'.2, hv'.1, hv'.2]
      · rw [abs_le]; constructor <;> linarith [hp'.1, hp'.2, hv'.1, hv'.2]
      all_goals
        rw [hx']
        simp only [Spec.ZebState.driven, Spec.cubic, pow_succ]
        linarith
  intro n hn
  obtain ⟨w, hw, -, -, -, -, -, p, v, hp, -, hx, -, -⟩ := key n hn
  refine ⟨w, hw, ?_⟩
  rw [hx]
  have h1 : |(-2 : ℚ) ^ n * (-1 / 3)| = 2 ^ n / 3 := by
    rw [abs_mul, abs_pow, abs_neg, abs_two, abs_div, abs_neg, abs_one, abs_of_pos (by norm_num : (0 : ℚ) < 3)]; ring
  have h2 := abs_sub_abs_le_abs_sub ((-2 : ℚ) ^ n * (-1 / 3)) (-p)
  rw [h1, abs_neg, sub_neg_eq_add] at h2
  linarith

end MPC
