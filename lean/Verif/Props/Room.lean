import Verif.Lemmas.Room
import Verif.Props.Every
import Verif.Props.Rate

/-!
# C97: limits that leave room do not change where the robot settles, and it never settles at a velocity beyond its limit
-/

set_option linter.unusedSectionVars false

namespace MPC
open Finset Filter Topology

variable {vr pr fb : ℝ} {s : Spec.TrajSettings ℝ}

/-- **C97 (position).** For every horizon and all weights, with positive limits: the robot settles at a position reference with the limits
exactly when it does without. -/
theorem C97_rest (hT : 0 < s.period) (hj : 0 < s.weighting.jerkMinimization) (hr : s.RefsCurrent) (room : s.Room 0)
    (hp : ∀ i < s.nbSamples, s.posRef.get i = pr) (hv : ∀ i < s.nbSamples, s.velRef.get i = 0) (hfb : 0 < fb) :
    Spec.SettlesEvery fb (s.limited true) pr ↔ Spec.SettlesEvery fb (s.limited false) pr := by
  have le : ∀ i < s.nbSamples, (2 + s.period + s.period ^ 2) ^ (i + 1) ≤ (2 + s.period + s.period ^ 2) ^ s.nbSamples := fun i hi =>
    pow_le_pow_right₀ (by nlinarith) (by omega)
  set D : State3 ℝ → ℝ := fun x => |x.p - pr| + |x.v| + |x.a| with hD
  have bound : ∀ x, ∀ i < s.nbSamples, |(Spec.jerkTrajectory s.period s.period x (fun _ => 0) i).p - pr| +
      |(Spec.jerkTrajectory s.period s.period x (fun _ => 0) i).v| ≤ (2 + s.period + s.period ^ 2) ^ s.nbSamples * D x := by
    intro x i hi
    have h1 := horizon_rest hT pr x i
    have h2 := mul_le_mul_of_nonneg_right (le i hi) (by positivity : 0 ≤ |x.p - pr| + |x.v| + |x.a|)
    have h3 := abs_nonneg (Spec.jerkTrajectory s.period s.period x (fun _ => 0) i).a
    show _ ≤ _ * (|x.p - pr| + |x.v| + |x.a|)
    linarith
  have small : ∀ {a b c : ℝ}, 0 ≤ b → |a| + b ≤ c → a ^ 2 ≤ c ^ 2 := by
    intro a b c hb h
    exact sq_le_sq.2 ((by linarith : |a| ≤ c).trans (le_abs_self c))
  obtain ⟨r, hr0, F, hF⟩ := steps_alike (vr := 0) (Near := Spec.NearRest pr) (D := D) hT hj hr room
    (fun x => by rw [hD]; simp only [sub_zero]; linarith [abs_nonneg (x.p - pr)])
    (fun r x h => by have := h.1; have := h.2.1; have := h.2.2; simp only [hD]; linarith)
    (cost_near (fun x i hi => mul_le_mul_of_nonneg_left (by
        rw [hv i hi, sub_zero]
        exact small (abs_nonneg _) (by rw [add_comm]; exact bound x i hi)) (le_max_right _ _))
      (fun x i hi => mul_le_mul_of_nonneg_left (by
        rw [hp i hi]
        exact small (abs_nonneg _) (bound x i hi)) (le_max_right _ _))) hfb
  have mono : ∀ d e x, d ≤ e → Spec.NearRest pr d x → Spec.NearRest pr e x := fun d e x hde h =>
    ⟨h.1.trans hde, h.2.1.trans hde, h.2.2.trans hde⟩
  exact ⟨gen_transfer (Lim := fun z => Tendsto (fun n => (z n).p) atTop (𝓝 pr) ∧ Tendsto (fun n => (z n).v) atTop (𝓝 0) ∧
      Tendsto (fun n => (z n).a) atTop (𝓝 0)) hr0 mono hF true false,
    gen_transfer (Lim := fun z => Tendsto (fun n => (z n).p) atTop (𝓝 pr) ∧ Tendsto (fun n => (z n).v) atTop (𝓝 0) ∧
      Tendsto (fun n => (z n).a) atTop (𝓝 0)) hr0 mono hF false true⟩

/-- **C97 (velocity).** For every horizon and weights without position tracking, with limits beyond the reference: the robot settles at a
velocity reference with the limits exactly when it does without. -/
theorem C97_speed (hT : 0 < s.period) (hj : 0 < s.weighting.jerkMinimization) (hr : s.RefsCurrent) (room : s.Room vr)
    (hp : s.weighting.positionTracking ≤ 0) (hv : ∀ i < s.nbSamples, s.velRef.get i = vr) (hfb : 0 < fb) :
    Spec.SettlesSpeed fb (s.limited true) vr ↔ Spec.SettlesSpeed fb (s.limited false) vr := by
  have le : ∀ i < s.nbSamples, (2 + s.period + s.period ^ 2) ^ (i + 1) ≤ (2 + s.period + s.period ^ 2) ^ s.nbSamples := fun i hi =>
    pow_le_pow_right₀ (by nlinarith) (by omega)
  set D : State3 ℝ → ℝ := fun x => |x.v - vr| + |x.a| with hD
  have bound : ∀ x, ∀ i < s.nbSamples, |(Spec.jerkTrajectory s.period s.period x (fun _ => 0) i).v - vr| ≤
      (2 + s.period + s.period ^ 2) ^ s.nbSamples * D x := by
    intro x i hi
    have h1 := horizon_speed (J := fun _ => 0) (B := 0) hT vr x (N := s.nbSamples) (fun i _ => by simp) i hi
    have h2 := mul_le_mul_of_nonneg_right (le i hi) (by positivity : 0 ≤ |x.v - vr| + |x.a| + 0)
    have h3 := abs_nonneg (Spec.jerkTrajectory s.period s.period x (fun _ => 0) i).a
    show _ ≤ _ * (|x.v - vr| + |x.a|)
    rw [add_zero] at h2
    linarith
  obtain ⟨r, hr0, F, hF⟩ := steps_alike (vr := vr) (Near := Spec.NearSpeed vr) (D := D) hT hj hr room (fun x => le_rfl)
    (fun r x h => by
      have := h.1; have := h.2; have := abs_nonneg (x.v - vr)
      simp only [hD]; linarith)
    (cost_near (fun x i hi => mul_le_mul_of_nonneg_left (by
        rw [hv i hi]
        exact sq_le_sq.2 ((bound x i hi).trans (le_abs_self _))) (le_max_right _ _))
      (fun x i hi => by rw [max_eq_right hp, zero_mul, zero_mul])) hfb
  have mono : ∀ d e x, d ≤ e → Spec.NearSpeed vr d x → Spec.NearSpeed vr e x := fun d e x hde h => ⟨h.1.trans hde, h.2.trans hde⟩
  exact ⟨gen_transfer (Lim := fun z => Tendsto (fun n => (z n).v) atTop (𝓝 vr) ∧ Tendsto (fun n => (z n).a) atTop (𝓝 0)) hr0 mono hF true false,
    gen_transfer (Lim := fun z => Tendsto (fun n => (z n).v) atTop (𝓝 vr) ∧ Tendsto (fun n => (z n).a) atTop (𝓝 0)) hr0 mono hF false true⟩

/-- **C97 (longest period).** C96 with limits: the longest period of the calls is that of the robot without limits. -/
theorem C97_critical (hs : (s.limited false).TracksSpeed vr) (room : s.Room vr) :
    ∃ F > s.period, ∀ fb > 0, ∀ b, Spec.SettlesSpeed fb (s.limited b) vr ↔ fb < F := by
  obtain ⟨F, hF, h⟩ := C96_critical hs
  refine ⟨F, hF, fun fb hfb b => ?_⟩
  cases b with
  | false => exact h fb hfb
  | true => rw [C97_speed (s := s) hs.period hs.jerk hs.refs room hs.pos hs.ref hfb]; exact h fb hfb

/-- **C97 (balanced weights).** C94 with limits: with one sample and the default limits, the robot settles at a position exactly when the
weights are balanced for the period of the calls. -/
theorem C97_balanced {T : ℝ} {wt : TrajWeighting ℝ} (hT : 0 < T) (hfb : 0 < fb) (hv : 0 ≤ wt.velocityTracking)
    (hp : 0 < wt.positionTracking) (hj : 0 < wt.jerkMinimization) :
    Spec.SettlesEvery fb (settingsOf (gainCalls T wt pr ++ [.setConfig true])) pr ↔ Spec.BalancedEvery fb T wt := by
  rw [← C94_settles_iff (pr := pr) hT hfb hv hp hj]
  exact C97_rest (s := settingsOf (gainCalls T wt pr)) hT hj ⟨rfl, rfl⟩
    ⟨by show |(0 : ℝ)| < 1; norm_num, one_pos, one_pos⟩ (fun i _ => rfl) (fun i _ => rfl) hfb

/-- A solver that finds solutions, and answers one when there is none. -/
theorem one_oracle : ∃ o : Oracle ℝ, Spec.FindsSolution o ∧ ∀ n qp it, (¬ ∃ d, Spec.IsSolution qp d) → ∀ i, (o n qp it).2 i = 1 := by
  classical
  refine ⟨fun _ qp _ => if h : ∃ d, Spec.IsSolution qp d then (true, h.choose) else (false, fun _ => 1), ?_, ?_⟩
  · intro n qp it h
    simp only [h, dite_true]
    exact h.choose_spec
  · intro n qp it h i
    simp only [h, dite_false]

/-- **C97 (beyond the limit).** Whatever the weights and the horizon, the robot does not settle at a velocity beyond its limit: a solver that
finds all solutions is free in its answers, and `solve` goes on with them. -/
theorem C97_beyond (hT : 0 < s.period) (hr : s.RefsCurrent) (hc : s.constrained = true) (hv : s.velLimit < |vr|)
    (hcalls : ∃ cs : List (TrajCall ℝ), Spec.TrajSettings.init.Legal cs ∧ (∀ fb, TrajCall.solve fb ∉ cs) ∧ settingsOf cs = s)
    (hfb : 0 < fb) : ¬ Spec.SettlesSpeed fb s vr := by
  intro hset
  set T := s.period with hTs
  set g := |vr| - s.velLimit with hg
  have g0 : 0 < g := by rw [hg]; linarith
  set k := 1 + T + T ^ 2 / fb with hk
  have k0 : 0 < k := by positivity
  set e := g / (2 * k) with he
  have e0 : 0 < e := by positivity
  have ek : e * k = g / 2 := by rw [he]; field_simp
  obtain ⟨d, hd, h⟩ := hset e e0
  obtain ⟨o, ho, hone⟩ := one_oracle
  obtain ⟨cs0, hl, hns, hs0⟩ := hcalls
  have legal : ∀ (cs : List (TrajCall ℝ)) (s0 : Spec.TrajSettings ℝ) (c : TrajCall ℝ), s0.Legal cs → (∀ s' : Spec.TrajSettings ℝ, s'.Pre c) →
      s0.Legal (cs ++ [c]) := by
    intro cs
    induction cs with
    | nil => intro s0 c _ hc; exact ⟨hc _, trivial⟩
    | cons c' cs ih => intro s0 c hl hc; exact ⟨hl.1, ih _ c hl.2 hc⟩
  have current : ∀ (cs : List (TrajCall ℝ)) (s0 : Spec.TrajSettings ℝ), (∀ fb, TrajCall.solve fb ∉ cs) → s0.RefsCurrentAtSolves cs := by
    intro cs
    induction cs with
    | nil => intro s0 _; trivial
    | cons c cs ih =>
      intro s0 hn
      exact ⟨fun fb e => absurd (e ▸ List.mem_cons_self) (hn fb), ih _ fun fb hm => hn fb (List.mem_cons_of_mem _ hm)⟩
  set v : Vec ℝ := ⟨3, fun i => if i = 0 then 0 else if i = 1 then vr else 0⟩ with hv'
  set cs := cs0 ++ [.setState v] with hcs
  have hns' : ∀ fb, TrajCall.solve fb ∉ cs := by
    intro fb hm
    rcases List.mem_append.1 hm with hm | hm
    · exact hns fb hm
    · simp at hm
  obtain ⟨w, hw⟩ := C16_no_fault_partial o cs (legal _ _ _ hl fun s' => rfl) (current _ _ hns')
  have hst : w.getState = ⟨0, vr, 0⟩ := by
    obtain ⟨w1, b, e1, e⟩ := trajReaches_append.1 hw
    exact setter_state (reachable_inv e1) e
  have hset0 : settingsOf cs = s := by rw [hcs, settingsOf_append, hs0]; rfl
  have hX : ∀ i, w.X.get i = 0 := reaches_X hw hns'
  obtain ⟨W, hW, hn, -⟩ := h o cs w ho hw hset0 (fun i _ => by rw [hX, abs_zero]; exact hd.le)
    (by rw [hst]; simp [Spec.NearSpeed, hd.le])
  have unique : ∀ {cs' : List (TrajCall ℝ)} {w1 w2 : TrajWalkgen ℝ}, TrajReaches o cs' w1 → TrajReaches o cs' w2 → w1 = w2 := by
    intro cs' w1 w2 e1 e2
    unfold TrajReaches at e1 e2
    rw [e1] at e2
    exact Except.ok.inj e2
  have set : ∀ n, settingsOf (cs ++ List.replicate n (.solve fb)) = s := by
    intro n
    induction n with
    | zero => simpa using hset0
    | succ n ih => rw [← traj_snoc, settingsOf_solve]; exact ih
  have one : ∀ n, (W (n + 1)).X.get 0 = (W n).X.get 0 + 1 ∧ |(W (n + 1)).X.get 0| * fb ≤ 2 * e := by
    intro n
    have hi : TrajInv s (W n) := by rw [← set n]; exact reachable_inv (hW n)
    obtain ⟨qp, hgs, hq, hso⟩ := givesToSolver_of_prepared hi hr hfb
    have hnext : W (n + 1) = solveResult o (W n) qp fb := by
      refine unique (hW (n + 1)) ?_
      rw [← traj_snoc, reaches_append (hW n)]
      simp [TrajWalkgen.run, TrajWalkgen.step, hso o, ok_bind]
    obtain ⟨b, w', e1, -, e2⟩ := hgs o
    rw [hso o] at e1
    obtain rfl : solveResult o (W n) qp fb = w' := (Prod.mk.inj (Except.ok.inj e1)).2
    rw [← hnext] at e2
    have hsz : (W n).X.size = s.nbSamples := hi.X_size
    have ha : (W (n + 1)).getState.a = (W n).getState.a + (W (n + 1)).X.get 0 * fb := by
      rw [hnext]
      show (stateStep _ fb _).a = _
      simp only [stateStep]
      rfl
    have hjerk : |(W (n + 1)).X.get 0| * fb ≤ 2 * e := by
      have h1 := (hn n).2
      have h2 := (hn (n + 1)).2
      rw [ha] at h2
      have h3 := abs_sub ((W n).getState.a + (W (n + 1)).X.get 0 * fb) (W n).getState.a
      rw [add_sub_cancel_left, abs_mul, abs_of_pos hfb] at h3
      linarith
    refine ⟨?_, hjerk⟩
    by_cases hsol : ∃ d, Spec.IsSolution qp d
    · exfalso
      have hfeas := (ho (W n).solver.calls qp 10000 hsol).1
      rw [prepared_feasible hi hq hc] at hfeas
      have h1 := (hfeas 0 hi.N_pos).1
      simp only [Spec.jerkTrajectory] at h1
      rw [← e2 0 (by rw [hsz]; exact hi.N_pos)] at h1
      set x := (W n).getState with hx
      set j := (W (n + 1)).X.get 0 with hj
      have h2 : |x.v + x.a * T + j * T ^ 2 / 2| ≤ s.velLimit := h1
      have h3 := (hn n).1
      have h4 := (hn n).2
      have h5 : g ≤ |x.v - vr| + |x.a| * T + |j| * T ^ 2 / 2 := by
        have q1 : |vr| ≤ |x.v + x.a * T + j * T ^ 2 / 2| + |x.v - vr + x.a * T + j * T ^ 2 / 2| := by
          have := abs_sub (x.v + x.a * T + j * T ^ 2 / 2) (x.v - vr + x.a * T + j * T ^ 2 / 2)
          rwa [show x.v + x.a * T + j * T ^ 2 / 2 - (x.v - vr + x.a * T + j * T ^ 2 / 2) = vr by ring] at this
        have q2 := abs_add_three (x.v - vr) (x.a * T) (j * T ^ 2 / 2)
        rw [abs_mul, abs_div, abs_mul, abs_of_pos hT, abs_of_pos (show 0 < T ^ 2 by positivity), abs_of_pos (two_pos : (0 : ℝ) < 2)] at q2
        rw [hg]
        linarith
      have h6 : |j| ≤ 2 * e / fb := by rw [le_div_iff₀ hfb]; exact hjerk
      have h7 : |j| * T ^ 2 / 2 ≤ e * (T ^ 2 / fb) := by
        have := mul_le_mul_of_nonneg_right h6 (show 0 ≤ T ^ 2 / 2 by positivity)
        have q : 2 * e / fb * (T ^ 2 / 2) = e * (T ^ 2 / fb) := by field_simp
        linarith
      have h8 : |x.a| * T ≤ e * T := mul_le_mul_of_nonneg_right h4 hT.le
      have h9 : e * k = e + e * T + e * (T ^ 2 / fb) := by rw [hk]; ring
      linarith
    · rw [e2 0 (by rw [hsz]; exact hi.N_pos), hone _ _ _ hsol]
  have count : ∀ n : ℕ, (W n).X.get 0 = n := by
    intro n
    induction n with
    | zero => rw [unique (hW 0) (by simpa using hw), hX]; simp
    | succ n ih => rw [(one n).1, ih]; push_cast; ring
  obtain ⟨n, hn'⟩ := exists_nat_gt (2 * e / fb)
  have h1 := (one n).2
  rw [count, Nat.abs_cast, ← le_div_iff₀ hfb] at h1
  push_cast at h1
  linarith

/-- The hypotheses of the theorems are met: limits 3, 1, 1, velocity reference 2; and with the limits 1, 1, 1 the reference is beyond. -/
example : ((settingsOf (speedCalls ++ [.setVelLimit 3])).limited false).TracksSpeed 2 ∧ (settingsOf (speedCalls ++ [.setVelLimit 3])).Room 2 ∧
    ¬ Spec.SettlesSpeed 1 (settingsOf (speedCalls ++ [.setConfig true])) 2 := by
  refine ⟨⟨one_pos, one_pos, ?_, le_rfl, ?_, rfl, ⟨rfl, rfl⟩, fun i _ => rfl, speedCalls ++ [.setVelLimit 3], ?_, ?_, rfl⟩, ⟨?_, one_pos, one_pos⟩,
    C97_beyond one_pos ⟨rfl, rfl⟩ rfl ?_ ⟨speedCalls ++ [.setConfig true], ?_, ?_, rfl⟩ one_pos⟩
  · show (0 : ℝ) < 4; norm_num
  · show (0 : ℝ) < 1 / 2; norm_num
  · norm_num [speedCalls, Spec.TrajSettings.Legal, Spec.TrajSettings.Pre, Spec.TrajSettings.apply, Spec.TrajSettings.init, Vec.const]
  · simp [speedCalls]
  · show |(2 : ℝ)| < 3; norm_num
  · show (1 : ℝ) < |2|; norm_num
  · norm_num [speedCalls, Spec.TrajSettings.Legal, Spec.TrajSettings.Pre, Spec.TrajSettings.apply, Spec.TrajSettings.init, Vec.const]
  · simp [speedCalls]

/-! ### The base of a wheeled robot -/

/-- **C97 (base).** For every horizon and positive weights, with limits beyond the reference: the base settles at a velocity with the limits
enabled if and only if it does without them. -/
theorem C97_base_speed {z : Spec.ZebSettings ℝ} {vx vy : ℝ} (hs : (z.limited true).TracksSpeed vx vy) (hfb : 0 < fb) :
    Spec.BaseSettlesSpeed fb (z.limited true) vx vy ↔ Spec.BaseSettlesSpeed fb (z.limited false) vx vy := by
  obtain ⟨m, hm⟩ : ∃ m, z.nbSamples = m + 1 := ⟨z.nbSamples - 1, by have := hs.samples; simp only [Spec.ZebSettings.limited] at this; omega⟩
  have hs' : (z.limited false).TracksSpeed vx vy := by
    obtain ⟨k, cx, cy, cs, hl, hns, h0, hk⟩ := hs.calls
    refine ⟨hs.samples, hs.period, hs.vel, hs.pos, hs.cop, hs.com, hs.jerk, hs.tilt, hs.tiltVel, hs.config, fun h => absurd h (by simp [Spec.ZebSettings.limited]),
      hs.refs, hs.ref, k, cx, cy, cs ++ [.setConfig (z.limited false).config], ?_, ?_, ?_, ?_⟩
    · clear hns h0 hk
      generalize Spec.ZebSettings.init cx cy = s0 at hl
      induction cs generalizing s0 with
      | nil => exact ⟨trivial, trivial⟩
      | cons c cs ih => exact ⟨hl.1, ih _ hl.2⟩
    · intro fb hm
      rcases List.mem_append.1 hm with hm | hm
      · exact hns fb hm
      · simp at hm
    · unfold zebSettingsOf at h0 ⊢
      rw [after_append, h0]
      rfl
    · rw [usedShift_append, hk]
      rfl
  rw [C96_base_iff hs hm hfb, C96_base_iff hs' hm hfb]
  rfl

/-- A velocity that is near `vr`, with small acceleration and jerk, is beyond the limit after a sample if `vr` is. -/
theorem beyond_after {T e fb l vr j : ℝ} {x : State3 ℝ} (hT : 0 < T) (hfb : 0 < fb) (he : e * (1 + T + T ^ 2 / fb) < |vr| - l)
    (hn : Spec.NearSpeed vr e x) (hj : |j| * fb ≤ 2 * e) : l < |x.v + x.a * T + j * T ^ 2 / 2| := by
  have q1 : |vr| ≤ |x.v + x.a * T + j * T ^ 2 / 2| + |x.v - vr + x.a * T + j * T ^ 2 / 2| := by
    have := abs_sub (x.v + x.a * T + j * T ^ 2 / 2) (x.v - vr + x.a * T + j * T ^ 2 / 2)
    rwa [show x.v + x.a * T + j * T ^ 2 / 2 - (x.v - vr + x.a * T + j * T ^ 2 / 2) = vr by ring] at this
  have q2 := abs_add_three (x.v - vr) (x.a * T) (j * T ^ 2 / 2)
  rw [abs_mul, abs_div, abs_mul, abs_of_pos hT, abs_of_pos (show 0 < T ^ 2 by positivity), abs_of_pos (two_pos : (0 : ℝ) < 2)] at q2
  have h6 : |j| ≤ 2 * e / fb := by rw [le_div_iff₀ hfb]; exact hj
  have h7 : |j| * T ^ 2 / 2 ≤ e * (T ^ 2 / fb) := by
    have := mul_le_mul_of_nonneg_right h6 (show 0 ≤ T ^ 2 / 2 by positivity)
    have q : 2 * e / fb * (T ^ 2 / 2) = e * (T ^ 2 / fb) := by field_simp
    linarith
  have h8 : |x.a| * T ≤ e * T := mul_le_mul_of_nonneg_right hn.2 hT.le
  have h9 : e * (1 + T + T ^ 2 / fb) = e + e * T + e * (T ^ 2 / fb) := by ring
  have h3 := hn.1
  linarith

/-- **C97 (base, beyond the limit).** Whatever the weights, the horizon and the other constraints, the base of a wheeled robot with motion
limits does not settle at a velocity with a component beyond its limit. -/
theorem C97_base_beyond {z : Spec.ZebSettings ℝ} {vx vy : ℝ} {k : ℝ × ℝ} (hT : 0 < z.period) (hr : z.RefsCurrent) (hc : z.config.base = true)
    (hv : z.velLimit < |vx| ∨ z.velLimit < |vy|) (hcalls : Spec.Configured z k) (hfb : 0 < fb) : ¬ Spec.BaseSettlesSpeed fb z vx vy := by
  intro hset
  set c := 1 + z.period + z.period ^ 2 / fb with hcd
  have c0 : 0 < c := by positivity
  set g := max |vx| |vy| - z.velLimit with hg
  have g0 : 0 < g := by rw [hg, sub_pos, lt_max_iff]; exact hv
  set e := g / (2 * c) with he
  have e0 : 0 < e := by positivity
  have ec : e * c < g := by
    have : e * c = g / 2 := by rw [he]; field_simp
    linarith
  obtain ⟨d, hd, h⟩ := hset e e0
  obtain ⟨o, ho, hone⟩ := one_oracle
  obtain ⟨cx, cy, cs0, hl, hns, hs0, -⟩ := hcalls
  set tr : Trig ℝ := ⟨fun _ => 0, fun _ => 1⟩
  obtain ⟨w0, hw0⟩ := C54_no_fault_partial o tr cx cy cs0 hl (by
    clear hl hs0
    generalize Spec.ZebSettings.init cx cy = s0
    induction cs0 generalizing s0 with
    | nil => trivial
    | cons c cs ih =>
      exact ⟨fun fb e => absurd (e ▸ List.mem_cons_self) (hns fb), ih (fun fb hm => hns fb (List.mem_cons_of_mem _ hm)) _⟩)
  obtain ⟨w, hrun, hst⟩ := zPlace_run o tr w0 ⟨0, vx, 0⟩ ⟨0, vy, 0⟩ ⟨0, 0, 0⟩ ⟨0, 0, 0⟩
  set cs := cs0 ++ zPlaceCalls ⟨0, vx, 0⟩ ⟨0, vy, 0⟩ ⟨0, 0, 0⟩ ⟨0, 0, 0⟩ with hcs
  have hw : ZebReaches o tr cx cy cs w := (zReaches_append hw0).2 hrun
  have hset0 : zebSettingsOf cx cy cs = z := by rw [← hs0, hcs]; unfold zebSettingsOf; rw [after_append]; rfl
  have hX : ∀ i, w.X.get i = 0 := zReaches_X hw (by
    intro fb hm
    rcases List.mem_append.1 hm with hm | hm
    · exact hns fb hm
    · simp [zPlaceCalls] at hm)
  obtain ⟨W, hW, hn, -⟩ := h o tr cx cy cs w ho hw hset0 (fun i _ => by rw [hX, abs_zero]; exact hd.le)
    (by rw [hst]; simp [Spec.NearSpeed, hd.le]) (by rw [hst]; simp [Spec.NearSpeed, hd.le])
  have unique : ∀ {cs' : List (ZebCall ℝ)} {w1 w2 : Zeb ℝ}, ZebReaches o tr cx cy cs' w1 → ZebReaches o tr cx cy cs' w2 → w1 = w2 := by
    intro cs' w1 w2 e1 e2
    unfold ZebReaches at e1 e2
    rw [e1] at e2
    exact Except.ok.inj e2
  have set : ∀ n, zebSettingsOf cx cy (cs ++ List.replicate n (.solve fb)) = z := by
    intro n
    induction n with
    | zero => simpa using hset0
    | succ n ih => rw [← replicate_snoc, zebSettingsOf_solve]; exact ih
  have small : ∀ {x : State3 ℝ} {j vr : ℝ}, Spec.NearSpeed vr e x → Spec.NearSpeed vr e (Spec.cubic x j fb) → |j| * fb ≤ 2 * e := by
    intro x j vr h1 h2
    have h3 := abs_sub (x.a + j * fb) x.a
    rw [add_sub_cancel_left, abs_mul, abs_of_pos hfb] at h3
    have h4 : |x.a + j * fb| ≤ e := h2.2
    linarith [h1.2]
  have one : ∀ n, (W (n + 1)).X.get (2 * z.nbSamples) = (W n).X.get (2 * z.nbSamples) + 1 ∧
      |(W (n + 1)).X.get (2 * z.nbSamples)| * fb ≤ 2 * e := by
    intro n
    have hin := zReachable_inv (hW n)
    have hr' : (zebSettingsOf cx cy (cs ++ List.replicate n (.solve fb))).RefsCurrent := by rw [set n]; exact hr
    obtain ⟨qp, hgv, hadv⟩ := C66_advance (hW n) hr' hfb
    obtain ⟨qp1, hg1, hfeas⟩ := C57_constraints (hW n) hr' hfb
    obtain rfl := hgv.unique hin hg1
    have hN : 0 < z.nbSamples := by rw [← set n]; exact hin.part.user.model.N_pos
    obtain ⟨b, w', e1, -, -⟩ := hgv o
    obtain ⟨-, hX', hst', -⟩ := hadv o b w' e1
    obtain rfl : W (n + 1) = w' := by
      refine unique (hW (n + 1)) ?_
      rw [← replicate_snoc, zReaches_append (hW n)]
      simp [Zeb.run, Zeb.step, e1, ok_bind]
    rw [set n] at hX' hst'
    simp only [Spec.jerkBX, Spec.jerkBY, add_zero] at hst'
    have jx := small (hn n).1 (by have := (hn (n + 1)).1; rw [hst'] at this; exact this)
    have jy := small (hn n).2 (by have := (hn (n + 1)).2; rw [hst'] at this; exact this)
    refine ⟨?_, jx⟩
    rw [hX' _ (by omega)]
    by_cases hsol : ∃ d, Spec.IsSolution qp d
    · exfalso
      have hall := (hfeas _).1 (ho (W n).solver.calls qp 10000 hsol).1
      rw [set n] at hall
      obtain ⟨bx, by', -⟩ := hall.2.1 hc 0 hN
      simp only [Spec.ZebSettings.baseX, Spec.ZebSettings.baseY, Spec.jerkTrajectory, Spec.jerkBX, Spec.jerkBY, add_zero] at bx by'
      rw [← hX' _ (by omega)] at bx by'
      rcases max_cases |vx| |vy| with ⟨m, -⟩ | ⟨m, -⟩ <;> rw [hg, m] at ec
      · exact absurd bx (not_le.2 (beyond_after hT hfb ec (hn n).1 jx))
      · exact absurd by' (not_le.2 (beyond_after hT hfb ec (hn n).2 jy))
    · rw [hone _ _ _ hsol]
  have count : ∀ n : ℕ, (W n).X.get (2 * z.nbSamples) = n := by
    intro n
    induction n with
    | zero => rw [unique (hW 0) (by simpa using hw), hX]; simp
    | succ n ih => rw [(one n).1, ih]; push_cast; ring
  obtain ⟨n, hn'⟩ := exists_nat_gt (2 * e / fb)
  have h1 := (one n).2
  rw [count, Nat.abs_cast, ← le_div_iff₀ hfb] at h1
  push_cast at h1
  linarith

/-- The hypotheses of `C97_base_speed` are met: velocity reference `(1, 1)`, limit 2. -/
example : ((zebSettingsOf 0 0 (zVelCalls ++ [.setVelLimit 2])).limited true).TracksSpeed 1 1 := by
  refine ⟨one_pos, one_pos, one_pos, le_rfl, le_rfl, le_rfl, ?_, le_rfl, le_rfl, ⟨rfl, rfl, rfl⟩, fun _ => ⟨?_, ?_, one_pos, one_pos⟩,
    ⟨rfl, rfl, rfl⟩, fun i _ => ⟨rfl, rfl⟩, (0, 0), 0, 0, zVelCalls ++ [.setVelLimit 2, .setConfig ⟨false, false, true, false⟩], ?_,
    by simp [zVelCalls], rfl, rfl⟩
  · show (0 : ℝ) < 1 / 10
    norm_num
  · show |(1 : ℝ)| < 2
    norm_num
  · show |(1 : ℝ)| < 2
    norm_num
  · simp [zVelCalls, Spec.ZebSettings.Legal, Spec.ZebSettings.Pre, Spec.ZebSettings.apply, Spec.ZebSettings.init, Vec.const]

/-- The hypotheses of `C97_base_beyond` are met: velocity reference `(1, 1)`, limit 1/2, and also a constraint of the CoM. -/
example : ¬ Spec.BaseSettlesSpeed 1 (zebSettingsOf 0 0 (zVelCalls ++ [.setVelLimit (1 / 2), .setConfig ⟨false, true, true, false⟩])) 1 1 := by
  refine C97_base_beyond (k := (0, 0)) one_pos ⟨rfl, rfl, rfl⟩ rfl (Or.inl ?_) ⟨0, 0, _, ?_, by simp [zVelCalls], rfl, rfl⟩ one_pos
  · show (1 / 2 : ℝ) < |1|
    norm_num
  · simp [zVelCalls, Spec.ZebSettings.Legal, Spec.ZebSettings.Pre, Spec.ZebSettings.apply, Spec.ZebSettings.init, Vec.const]

end MPC
