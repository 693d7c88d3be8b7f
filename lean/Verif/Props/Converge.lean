import Verif.Lemmas.Converge
/-! # C80: does the motion of `TrajectoryWalkgen` converge to its references?

`solve(fb)` is called again and again with the same settings, without limits. Does the state reach the references?
Yes when only the velocity is tracked, for every horizon, period, weightings and feedback period up to the sampling
period. No when only the position is tracked. -/
set_option linter.unusedSectionVars false
namespace MPC
open Finset Filter Topology

variable {K : Type} [Field K] [LinearOrder K] [IsStrictOrderedRing K]

/-- **C80 (first jerk).** When only the velocity is tracked, there are gains `g1`, `g2`, which depend only on the
settings, such that `solve` applies the jerk `-(g1 (v - v_ref) + g2 a)` whenever the optimal jerks are far from the
numerical bound. The gains are bounded: `0 < g1`, `g1 T / 2 < g2` and `g2 T < 2`. -/
theorem C80_feedback (s : Spec.TrajSettings K) (hN : 0 < s.nbSamples) (hT : 0 < s.period)
    (hv : 0 < s.weighting.velocityTracking) (hp : s.weighting.positionTracking ≤ 0)
    (hj : 0 < s.weighting.jerkMinimization) (hc : s.constrained = false) (hr : s.RefsCurrent) (vr : K)
    (href : ∀ i < s.nbSamples, s.velRef.get i = vr) :
    ∃ g1 g2 L : K, (0 < g1 ∧ g1 * s.period / 2 < g2 ∧ g2 * s.period < 2 ∧ 0 ≤ L) ∧
      ∀ (o : Oracle K) (cs : List (TrajCall K)) (w : TrajWalkgen K), Spec.FindsSolution o → TrajReaches o cs w →
        settingsOf cs = s → (∀ i < s.nbSamples, |w.X.get i| ≤ MAXBOUND / 2) →
        L * (|w.getState.v - vr| + |w.getState.a|) ≤ MAXBOUND / 2 → ∀ fb, 0 < fb →
        ∃ w', TrajReaches o (cs ++ [.solve fb]) w' ∧
          w'.getState = Spec.cubic w.getState (-(g1 * (w.getState.v - vr) + g2 * w.getState.a)) fb ∧
          ∀ i < s.nbSamples, |w'.X.get i| ≤ L * (|w.getState.v - vr| + |w.getState.a|) := by
  obtain ⟨n, hn⟩ : ∃ n, s.nbSamples = n + 1 := ⟨s.nbSamples - 1, by omega⟩
  obtain ⟨L, hL, hatt⟩ := velCost_attained hT hv hj vr s.nbSamples
  obtain ⟨h1, h2, h3⟩ := gains hT hv hj n
  refine ⟨gain1 s.period s.weighting.velocityTracking s.weighting.jerkMinimization n,
    gain2 s.period s.weighting.velocityTracking s.weighting.jerkMinimization n, L, ⟨h1, h2, h3, hL⟩, ?_⟩
  rintro o cs w ho hw rfl hX hb fb hfb
  obtain ⟨J, eJ, hJ0, hJ⟩ := hatt w.getState
  obtain ⟨w', hw', hst, hX'⟩ := solve_optimal ho hw hr hc hj J
    (fun J' => by
      rw [trajCost_vel hv.le hp hj.le href, trajCost_vel hv.le hp hj.le href, eJ]
      have := velCost_ge hT hv hj vr (settingsOf cs).nbSamples w.getState J'
      linarith) hX (fun i hi => (hJ i hi).trans hb) hfb
  refine ⟨w', hw', ?_, fun i hi => ?_⟩
  · rw [hst, hJ0 n hn]
  · rw [hX' i hi]; exact hJ i hi

/-- **C80 (velocity).** When only the velocity is tracked, without limits, every state near enough to the reference
(the distance `C` depends only on the settings and comes from the numerical bound `MAXBOUND`) converges: after any
number of calls of `solve(fb)` nothing faults, the velocity tends to the reference and the acceleration to zero. For
every horizon, sampling period, positive weightings, and every feedback period up to the sampling period. -/
theorem C80_velocity_partial (s : Spec.TrajSettings ℝ) (hN : 0 < s.nbSamples) (hT : 0 < s.period)
    (hv : 0 < s.weighting.velocityTracking) (hp : s.weighting.positionTracking ≤ 0)
    (hj : 0 < s.weighting.jerkMinimization) (hc : s.constrained = false) (hr : s.RefsCurrent) (vr : ℝ)
    (href : ∀ i < s.nbSamples, s.velRef.get i = vr) (fb : ℝ) (hfb : 0 < fb) (hfT : fb ≤ s.period) :
    ∃ C : ℝ, 0 < C ∧ ∀ (o : Oracle ℝ) (cs : List (TrajCall ℝ)) (w : TrajWalkgen ℝ), Spec.FindsSolution o →
      TrajReaches o cs w → settingsOf cs = s → (∀ i < s.nbSamples, |w.X.get i| ≤ MAXBOUND / 2) →
      |w.getState.v - vr| ≤ C → |w.getState.a| ≤ C →
      ∃ W : ℕ → TrajWalkgen ℝ, (∀ n, TrajReaches o (cs ++ List.replicate n (.solve fb)) (W n)) ∧ W 0 = w ∧
        Tendsto (fun n => (W n).getState.v) atTop (𝓝 vr) ∧ Tendsto (fun n => (W n).getState.a) atTop (𝓝 0) := by
  obtain ⟨g1, g2, L, ⟨h1, h2, h3, hL⟩, hstep⟩ := C80_feedback s hN hT hv hp hj hc hr vr href
  obtain ⟨ht, hd⟩ := track_stable h1 h2 h3 hfb hfT
  set t : ℝ := 2 - g1 * fb ^ 2 / 2 - g2 * fb
  set d : ℝ := 1 - g2 * fb + g1 * fb ^ 2 / 2
  have hc0 : 0 < 1 - (t / (1 + d)) ^ 2 := ratio_sq ht
  set c : ℝ := 1 - (t / (1 + d)) ^ 2
  set G : ℝ := |g1| + |g2|
  have hG : 0 ≤ G := by positivity
  -- all the states of the ideal motion are bounded by `B` times the first one
  set B : ℝ := (4 + fb + G * fb ^ 2 + 2 * G * fb) / c with hB
  have hB0 : 0 < B := by positivity
  have hM : (0 : ℝ) < MAXBOUND := by unfold MAXBOUND; norm_num
  refine ⟨MAXBOUND / (2 * (B * (L + 1))), by positivity, ?_⟩
  intro o cs w ho hw hs hX hev hea
  set z : ℕ → State3 ℝ := fun n => (track g1 g2 fb vr)^[n] w.getState with hz
  have hz1 : ∀ n, z (n + 1) = track g1 g2 fb vr (z n) := fun n => Function.iterate_succ_apply' _ _ _
  have rv : ∀ n, (z (n + 2)).v - vr = t * ((z (n + 1)).v - vr) - d * ((z n).v - vr) := fun n => by
    rw [hz1 (n + 1), hz1 n]; exact (track_recurrence g1 g2 fb vr (z n)).1
  have ra : ∀ n, (z (n + 2)).a = t * (z (n + 1)).a - d * (z n).a := fun n => by
    rw [hz1 (n + 1), hz1 n]; exact (track_recurrence g1 g2 fb vr (z n)).2
  set C : ℝ := MAXBOUND / (2 * (B * (L + 1))) with hC
  have hC0 : 0 < C := by positivity
  have hz0 : z 0 = w.getState := rfl
  have hjb : |-(g1 * (w.getState.v - vr) + g2 * w.getState.a)| ≤ G * C := by
    rw [abs_neg]
    refine (abs_add_le _ _).trans ?_
    rw [abs_mul, abs_mul]
    have := mul_le_mul_of_nonneg_left hev (abs_nonneg g1)
    have := mul_le_mul_of_nonneg_left hea (abs_nonneg g2)
    calc _ ≤ |g1| * C + |g2| * C := by linarith
      _ = G * C := by ring
  have hv1 : |(z 1).v - vr| ≤ C + C * fb + G * C * (fb ^ 2 / 2) := by
    have e : (z 1).v - vr = (w.getState.v - vr) + w.getState.a * fb
        + -(g1 * (w.getState.v - vr) + g2 * w.getState.a) * (fb ^ 2 / 2) := by
      rw [hz1 0, hz0]; simp only [track, Spec.cubic]; ring
    rw [e]
    refine (abs_add_le _ _).trans ?_
    rw [abs_mul (-_), abs_of_nonneg (show (0 : ℝ) ≤ fb ^ 2 / 2 by positivity)]
    gcongr
    refine (abs_add_le _ _).trans ?_
    rw [abs_mul, abs_of_pos hfb]
    gcongr
  have ha1 : |(z 1).a| ≤ C + G * C * fb := by
    have e : (z 1).a = w.getState.a + -(g1 * (w.getState.v - vr) + g2 * w.getState.a) * fb := by
      rw [hz1 0, hz0]; simp only [track, Spec.cubic]
    rw [e]
    refine (abs_add_le _ _).trans ?_
    rw [abs_mul (-_), abs_of_pos hfb]
    gcongr
  have hzb : ∀ n, |(z n).v - vr| + |(z n).a| ≤ B * C := by
    intro n
    have b1 := recurrence_bounded (y := fun n => (z n).v - vr) ht hd rv n
    have b2 := recurrence_bounded (y := fun n => (z n).a) ht hd ra n
    refine (add_le_add b1 b2).trans ?_
    rw [← add_div, hB, div_mul_eq_mul_div, div_le_div_iff_of_pos_right hc0]
    show |w.getState.v - vr| + |(z 1).v - vr| + (|w.getState.a| + |(z 1).a|) ≤ _
    have : 0 ≤ G * C * fb ^ 2 := by positivity
    have : 0 ≤ G * C * fb := by positivity
    nlinarith
  have hLb : ∀ n, L * (|(z n).v - vr| + |(z n).a|) ≤ MAXBOUND / 2 := by
    intro n
    calc L * (|(z n).v - vr| + |(z n).a|) ≤ (L + 1) * (B * C) := by
          have := hzb n
          have : 0 ≤ |(z n).v - vr| + |(z n).a| := by positivity
          nlinarith
      _ = MAXBOUND / 2 := by rw [hC]; field_simp
  -- the walking pattern generator follows the ideal motion
  have hex : ∀ n, ∃ w', TrajReaches o (cs ++ List.replicate n (.solve fb)) w' ∧ w'.getState = z n ∧
      (∀ i < s.nbSamples, |w'.X.get i| ≤ MAXBOUND / 2) ∧ settingsOf (cs ++ List.replicate n (.solve fb)) = s := by
    intro n
    induction n with
    | zero => exact ⟨w, by simpa using hw, rfl, hX, by simpa using hs⟩
    | succ n ih =>
      obtain ⟨w1, r1, e1, x1, s1⟩ := ih
      obtain ⟨w2, r2, e2, x2⟩ := hstep o _ w1 ho r1 s1 x1 (by rw [e1]; exact hLb n) fb hfb
      have el : cs ++ List.replicate n (TrajCall.solve fb) ++ [.solve fb] = cs ++ List.replicate (n + 1) (.solve fb) := by
        rw [List.replicate_succ', List.append_assoc]
      rw [el] at r2
      refine ⟨w2, r2, ?_, fun i hi => ?_, ?_⟩
      · rw [e2, e1, hz1]; rfl
      · refine (x2 i hi).trans ?_
        rw [e1]; exact hLb n
      · rw [← el, settingsOf_solve, s1]
  choose W hW using hex
  refine ⟨W, fun n => (hW n).1, ?_, ?_, ?_⟩
  · have h0 := (hW 0).1
    simp only [List.replicate_zero, List.append_nil] at h0
    have := h0.symm.trans hw
    simpa using this
  · have := recurrence_tendsto (y := fun n => (z n).v - vr) ht hd rv
    have := this.add_const vr
    rw [zero_add] at this
    refine this.congr fun n => ?_
    rw [(hW n).2.1]; ring
  · refine (recurrence_tendsto (y := fun n => (z n).a) ht hd ra).congr fun n => ?_
    rw [(hW n).2.1]

/-- The hypotheses of `C80_velocity_partial` are met: three samples of half a second, reference 1 m/s, `solve` every
fifth of a second, from rest. -/
example : ∃ cs : List (TrajCall ℝ), 0 < (settingsOf cs).nbSamples ∧ 0 < (settingsOf cs).period ∧
    0 < (settingsOf cs).weighting.velocityTracking ∧ (settingsOf cs).weighting.positionTracking ≤ 0 ∧
    0 < (settingsOf cs).weighting.jerkMinimization ∧ (settingsOf cs).constrained = false ∧ (settingsOf cs).RefsCurrent ∧
    (∀ i < (settingsOf cs).nbSamples, (settingsOf cs).velRef.get i = 1) ∧ (1 / 5 : ℝ) ≤ (settingsOf cs).period ∧
    ∀ o, ∃ w, TrajReaches o cs w ∧ ∀ i < (settingsOf cs).nbSamples, |w.X.get i| ≤ MAXBOUND / 2 := by
  refine ⟨[.setNbSamples 3, .setSamplingPeriod (1 / 2), .setWeightings ⟨1, 0, 1 / 10⟩, .setVelRef (Vec.const 3 1),
    .setPosRef (Vec.const 3 0)], ?_⟩
  simp only [settingsOf, Spec.TrajSettings.after, Spec.TrajSettings.apply, Spec.TrajSettings.init, List.foldl]
  refine ⟨by norm_num, by norm_num, by norm_num, by norm_num, by norm_num, trivial, ⟨rfl, rfl⟩, fun i _ => rfl,
    by norm_num, fun o => ?_⟩
  obtain ⟨w, hw⟩ := C16_no_fault_partial o
    ([.setNbSamples 3, .setSamplingPeriod (1 / 2), .setWeightings ⟨1, 0, 1 / 10⟩, .setVelRef (Vec.const 3 1),
      .setPosRef (Vec.const 3 0)] : List (TrajCall ℝ))
    (by simp [Spec.TrajSettings.Legal, Spec.TrajSettings.Pre, Spec.TrajSettings.apply, Vec.const])
    (by simp [Spec.TrajSettings.RefsCurrentAtSolves])
  refine ⟨w, hw, fun i _ => ?_⟩
  rw [reaches_X hw (by simp), abs_zero]
  unfold MAXBOUND; norm_num

/-! ### Tracking the position only -/

/-- Settings of the violation: only the position is tracked, one sample of one second. -/
def posCalls : List (TrajCall K) :=
  [.setWeightings ⟨0, 1, 1 / 162⟩, .setState ⟨3, fun i => if i = 0 then 1 else 0⟩]

/-- The documented cost of `posCalls`. -/
theorem posCalls_cost (x : State3 K) (J : ℕ → K) : Spec.trajCost (settingsOf (posCalls (K := K))) x J
    = 11 / 648 * (J 0 + 54 / 11 * (x.p + x.v + x.a / 2)) ^ 2 + 1 / 11 * (x.p + x.v + x.a / 2) ^ 2 := by
  have h1 : max (1 / 162 : K) 0 = 1 / 162 := max_eq_left (by norm_num)
  simp only [settingsOf, posCalls, Spec.TrajSettings.after, Spec.TrajSettings.apply, Spec.TrajSettings.init, List.foldl,
    Spec.trajCost, max_self, h1, sum_range_one, Spec.jerkTrajectory, Spec.cubic, Vec.const,
    max_eq_left (zero_le_one : (0 : K) ≤ 1)]
  field_simp
  ring

/-- **C80 (violated).** With only the position tracked, a horizon of one sample, a sampling period of one second, the
weightings 1 for the position and 1/162 for the jerk, a solver that finds solutions, and a start at rest one metre from
the reference, `solve(1)` makes the distance to the reference grow: after `n ≤ 30` calls it is at least
`2ⁿ / 3 - 4 / 3` metres, though each QP is solved exactly. -/
theorem C80_position_violated (o : Oracle K) (ho : Spec.FindsSolution o) :
    ∃ w0 : TrajWalkgen K, TrajReaches o posCalls w0 ∧ w0.getState = ⟨1, 0, 0⟩ ∧
      (∀ i, (settingsOf (posCalls (K := K))).posRef.get i = 0) ∧
      ∀ n ≤ 30, ∃ w, TrajReaches o (posCalls ++ List.replicate n (.solve 1)) w ∧ 2 ^ n / 3 - 4 / 3 ≤ |w.getState.p| := by
  obtain ⟨w0, hw0⟩ := C16_no_fault_partial o (posCalls (K := K))
    (by simp [posCalls, Spec.TrajSettings.Legal, Spec.TrajSettings.Pre, Spec.TrajSettings.apply])
    (by simp [posCalls, Spec.TrajSettings.RefsCurrentAtSolves])
  have hx0 : w0.getState = ⟨1, 0, 0⟩ := by
    obtain ⟨w1, hw1⟩ := C16_no_fault_partial o ([.setWeightings ⟨0, 1, 1 / 162⟩] : List (TrajCall K))
      (by simp [Spec.TrajSettings.Legal, Spec.TrajSettings.Pre])
      (by simp [Spec.TrajSettings.RefsCurrentAtSolves])
    have h5 : TrajReaches o (([.setWeightings ⟨0, 1, 1 / 162⟩])
      ++ [.setState ⟨3, fun i => if i = 0 then 1 else 0⟩]) w0 := hw0
    rw [reaches_append hw1] at h5
    simp only [TrajWalkgen.run, TrajWalkgen.step, bind_eq_ok, res_pure, Except.ok.injEq, Prod.mk.injEq, Prod.exists]
      at h5
    obtain ⟨_, _, ⟨_, _, _, rfl⟩, rfl⟩ := h5
    rfl
  refine ⟨w0, hw0, hx0, fun i => rfl, ?_⟩
  have hN : (settingsOf (posCalls (K := K))).nbSamples = 1 := rfl
  -- the state is the growing mode plus a bounded part
  have key : ∀ n ≤ 30, ∃ w, TrajReaches o (posCalls ++ List.replicate n (.solve 1)) w ∧
      settingsOf (posCalls ++ List.replicate n (.solve 1)) = settingsOf (posCalls (K := K)) ∧
      |w.X.get 0| ≤ MAXBOUND / 2 ∧ ∃ p v : K, |p| ≤ 4 / 3 ∧ |v| ≤ 4 / 3 ∧
        w.getState = ⟨(-2) ^ n * (-1 / 3) + p, (-2) ^ n + v, 6 * (-2) ^ n - 9 * p - 6 * v⟩ := by
    intro n
    induction n with
    | zero =>
      intro _
      refine ⟨w0, by simpa using hw0, by simp, ?_, 4 / 3, -1, ?_, ?_, ?_⟩
      · rw [reaches_X hw0 (by simp [posCalls]), abs_zero]; unfold MAXBOUND; norm_num
      · rw [abs_of_pos (by norm_num)]
      · rw [abs_neg, abs_one]; norm_num
      · rw [hx0]; simp only [pow_zero, State3.mk.injEq]; norm_num
    | succ n ih =>
      intro hn
      obtain ⟨w, hw, hs, hX, p, v, hp, hv, hx⟩ := ih (by omega)
      have hp' := abs_le.1 hp
      have hv' := abs_le.1 hv
      have hpow : |((-2 : K)) ^ n| ≤ 2 ^ 30 := by
        rw [abs_pow, abs_neg, abs_two]
        exact pow_le_pow_right₀ (by norm_num) (by omega)
      have hpow' := abs_le.1 hpow
      have eσ : w.getState.p + w.getState.v + w.getState.a / 2 = 11 / 3 * (-2) ^ n - 7 / 2 * p - 2 * v := by
        rw [hx]; ring
      set j : K := -(54 / 11 * (w.getState.p + w.getState.v + w.getState.a / 2)) with hj
      have hjb : |j| ≤ MAXBOUND / 2 := by
        rw [hj, eσ, abs_le]
        unfold MAXBOUND
        norm_num at hpow' ⊢
        constructor <;> linarith [hp'.1, hp'.2, hv'.1, hv'.2, hpow'.1, hpow'.2]
      obtain ⟨w', hw', hx', hX'⟩ := solve_optimal (fb := 1) ho hw (by rw [hs]; exact ⟨rfl, rfl⟩) (by rw [hs]; rfl)
        (by rw [hs]; simp [settingsOf, posCalls, Spec.TrajSettings.after, Spec.TrajSettings.apply, Spec.TrajSettings.init])
        (fun _ => j)
        (fun J' => by
          rw [hs, posCalls_cost, posCalls_cost]
          have e0 : j + 54 / 11 * (w.getState.p + w.getState.v + w.getState.a / 2) = 0 := by rw [hj]; ring
          rw [e0]
          have := sq_nonneg (J' 0 + 54 / 11 * (w.getState.p + w.getState.v + w.getState.a / 2))
          nlinarith)
        (fun i hi => by
          rw [hs, hN] at hi
          obtain rfl : i = 0 := by omega
          exact hX) (fun i _ => hjb) one_pos
      have el : posCalls ++ List.replicate n (TrajCall.solve (1 : K)) ++ [.solve 1]
          = posCalls ++ List.replicate (n + 1) (.solve 1) := by
        rw [List.replicate_succ', List.append_assoc]
      refine ⟨w', by rw [← el]; exact hw', by rw [← el, settingsOf_solve, hs], ?_,
        (-7 * p - 4 * v) / 11, (-9 / 2 * p - v) / 11, ?_, ?_, ?_⟩
      · rw [hX' 0 (by rw [hs, hN]; omega)]; exact hjb
      · rw [abs_le]; constructor <;> linarith [hp'.1, hp'.2, hv'.1, hv'.2]
      · rw [abs_le]; constructor <;> linarith [hp'.1, hp'.2, hv'.1, hv'.2]
      · have ej : j = -(54 / 11 * (11 / 3 * (-2) ^ n - 7 / 2 * p - 2 * v)) := by rw [hj, eσ]
        rw [hx', ej, hx]
        simp only [Spec.cubic, State3.mk.injEq, pow_succ]
        refine ⟨by ring, by ring, by ring⟩
  intro n hn
  obtain ⟨w, hw, -, -, p, v, hp, -, hx⟩ := key n hn
  refine ⟨w, hw, ?_⟩
  rw [hx]
  have h1 : |(-2 : K) ^ n * (-1 / 3)| = 2 ^ n / 3 := by
    rw [abs_mul, abs_pow, abs_neg, abs_two, abs_div, abs_neg, abs_one, abs_of_pos (by norm_num : (0 : K) < 3)]; ring
  have h2 := abs_sub_abs_le_abs_sub ((-2 : K) ^ n * (-1 / 3)) (-p)
  rw [h1, abs_neg, sub_neg_eq_add] at h2
  show _ ≤ |(-2 : K) ^ n * (-1 / 3) + p|
  linarith

/-- After thirty calls the distance is more than three hundred thousand kilometres. -/
theorem C80_position_far (o : Oracle K) (ho : Spec.FindsSolution o) :
    ∃ w : TrajWalkgen K, TrajReaches o (posCalls ++ List.replicate 30 (.solve 1)) w ∧ 3 * 10 ^ 8 ≤ |w.getState.p| := by
  obtain ⟨_, -, -, -, h⟩ := C80_position_violated o ho
  obtain ⟨w, hw, hp⟩ := h 30 le_rfl
  exact ⟨w, hw, le_trans (by norm_num) hp⟩

end MPC
