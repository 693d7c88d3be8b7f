import Verif.Lemmas.Rate
import Verif.Props.Gains
import Verif.Props.ZebConverge

/-!
# C96: how rarely `solve` may be called for the robot to settle at a velocity

For every horizon there is a period `F`, longer than the sampling period, such that the robot settles exactly when `solve` is called
more often than every `F` seconds.
-/

set_option linter.unusedSectionVars false

namespace MPC
open Finset Filter Topology

variable {vr fb : ℝ} {s : Spec.TrajSettings ℝ}

/-- **C96 (gains).** The robot settles at its velocity reference exactly when the gains of the first optimal jerk are stable for the period of
the calls. -/
theorem C96_iff (hs : s.TracksSpeed vr) {m : ℕ} (hm : s.nbSamples = m + 1) (hfb : 0 < fb) : Spec.SettlesSpeed fb s vr ↔
    SpeedStable (gain1 s.period s.weighting.velocityTracking s.weighting.jerkMinimization m)
      (gain2 s.period s.weighting.velocityTracking s.weighting.jerkMinimization m) fb := by
  obtain ⟨L, hL, hstep⟩ := speed_feedback hs hm
  obtain ⟨h1, h2, h3⟩ := gains hs.period hs.vel hs.jerk m
  generalize gain1 s.period s.weighting.velocityTracking s.weighting.jerkMinimization m = g1 at *
  generalize gain2 s.period s.weighting.velocityTracking s.weighting.jerkMinimization m = g2 at *
  have hM : (0 : ℝ) < MAXBOUND := by norm_num [MAXBOUND]
  set E := MAXBOUND / (4 * (L + 1)) with hE
  have hE0 : 0 < E := by positivity
  have fine : ∀ {x : State3 ℝ} {e : ℝ}, e ≤ E → Spec.NearSpeed vr e x → L * (|x.v - vr| + |x.a|) ≤ MAXBOUND / 2 := by
    intro x e he hx
    have a1 := hx.1.trans he
    have a2 := hx.2.trans he
    have a3 : (L + 1) * (2 * E) = MAXBOUND / 2 := by rw [hE]; field_simp; ring
    have a4 : 0 ≤ |x.v - vr| + |x.a| := by positivity
    nlinarith
  constructor
  · intro hset
    by_contra hb
    obtain ⟨d, hd, h⟩ := hset E hE0
    obtain ⟨o, ho⟩ := finding_oracle
    obtain ⟨x, nx, hx⟩ := speed_leaves h1 hfb hb hd vr
    obtain ⟨cs0, hl, hns, hs0⟩ := hs.calls
    have legal : ∀ (cs : List (TrajCall ℝ)) (s0 : Spec.TrajSettings ℝ) (c : TrajCall ℝ), s0.Legal cs → (∀ s' : Spec.TrajSettings ℝ, s'.Pre c) →
        s0.Legal (cs ++ [c]) := by
      intro cs
      induction cs with
      | nil => intro s0 c _ hc; exact ⟨hc _, trivial⟩
      | cons c' cs ih => intro s0 c hl hc; exact ⟨hl.1, ih _ c hl.2 hc⟩
    have current : ∀ (cs : List (TrajCall ℝ)) (s0 : Spec.TrajSettings ℝ), (∀ fb, TrajCall.solve fb ∉ cs) → s0.RefsCurrentAtSolves cs := by
      intro cs
      induction cs with
      | nil => intro s0 _; trivial
      | cons c cs ih =>
        intro s0 hn
        exact ⟨fun fb e => absurd (e ▸ List.mem_cons_self) (hn fb), ih _ fun fb hm => hn fb (List.mem_cons_of_mem _ hm)⟩
    set v : Vec ℝ := ⟨3, fun i => if i = 0 then x.p else if i = 1 then x.v else x.a⟩ with hv
    set cs := cs0 ++ [.setState v] with hcs
    have hns' : ∀ fb, TrajCall.solve fb ∉ cs := by
      intro fb hm
      rcases List.mem_append.1 hm with hm | hm
      · exact hns fb hm
      · simp at hm
    obtain ⟨w, hw⟩ := C16_no_fault_partial o cs (legal _ _ _ hl fun s' => rfl) (current _ _ hns')
    have hst : w.getState = x := by
      obtain ⟨w1, b, e1, e⟩ := trajReaches_append.1 hw
      exact setter_state (reachable_inv e1) e
    have hset0 : settingsOf cs = s := by
      rw [← hs0, hcs]; unfold settingsOf Spec.TrajSettings.after; rw [List.foldl_append]; rfl
    have hX : ∀ i, w.X.get i = 0 := reaches_X hw hns'
    obtain ⟨W, hW, hn, -, la⟩ := h o cs w ho hw hset0 (fun i _ => by rw [hX, abs_zero]; exact hd.le) (by rw [hst]; exact nx)
    have unique : ∀ {cs' : List (TrajCall ℝ)} {w1 w2 : TrajWalkgen ℝ}, TrajReaches o cs' w1 → TrajReaches o cs' w2 → w1 = w2 := by
      intro cs' w1 w2 e1 e2
      unfold TrajReaches at e1 e2
      rw [e1] at e2
      exact Except.ok.inj e2
    have e0 : W 0 = w := unique (hW 0) (by simpa using hw)
    have set : ∀ n, settingsOf (cs ++ List.replicate n (.solve fb)) = s := by
      intro n
      induction n with
      | zero => simpa using hset0
      | succ n ih => rw [← traj_snoc, settingsOf_solve]; exact ih
    have one : ∀ n, (∀ i < s.nbSamples, |(W n).X.get i| ≤ MAXBOUND / 2) →
        (W (n + 1)).getState = track g1 g2 fb vr (W n).getState ∧ ∀ i < s.nbSamples, |(W (n + 1)).X.get i| ≤ MAXBOUND / 2 := by
      intro n hx'
      have hf := fine le_rfl (hn n)
      obtain ⟨w2, p1, p2, p3⟩ := hstep o _ (W n) ho (hW n) (set n) hx' hf fb hfb
      rw [traj_snoc] at p1
      rw [unique (hW (n + 1)) p1]
      exact ⟨p2, fun i hi => (p3 i hi).trans hf⟩
    have follow : ∀ n, ∀ i < s.nbSamples, |(W n).X.get i| ≤ MAXBOUND / 2 := by
      intro n
      induction n with
      | zero => intro i _; rw [e0, hX, abs_zero]; positivity
      | succ n ih => exact (one n ih).2
    exact hx (fun n => (W n).getState) (by rw [e0, hst]) (fun n => (one n (follow n)).1) la
  · intro hb e he
    obtain ⟨d, hd, hret⟩ := speed_returns h1 hfb hb (lt_min he hE0)
    refine ⟨min d (MAXBOUND / 2), lt_min hd (by positivity), ?_⟩
    intro o cs w ho hw hs0 hX hn
    obtain ⟨k1, k2, k3⟩ := hret vr w.getState ⟨hn.1.trans (min_le_left _ _), hn.2.trans (min_le_left _ _)⟩
    have hex : ∀ n, ∃ w', TrajReaches o (cs ++ List.replicate n (.solve fb)) w' ∧ w'.getState = (track g1 g2 fb vr)^[n] w.getState ∧
        (∀ i < s.nbSamples, |w'.X.get i| ≤ MAXBOUND / 2) ∧ settingsOf (cs ++ List.replicate n (.solve fb)) = s := by
      intro n
      induction n with
      | zero => exact ⟨w, by simpa using hw, rfl, fun i hi => (hX i hi).trans (min_le_right _ _), by simpa using hs0⟩
      | succ n ih =>
        obtain ⟨w1, q1, q2, q3, q4⟩ := ih
        have hf := fine (x := w1.getState) (min_le_right e E) (by rw [q2]; exact k1 n)
        obtain ⟨w2, p1, p2, p3⟩ := hstep o _ w1 ho q1 q4 q3 hf fb hfb
        rw [traj_snoc] at p1
        refine ⟨w2, p1, ?_, fun i hi => (p3 i hi).trans hf, ?_⟩
        · rw [p2, q2, Function.iterate_succ_apply']
        · rw [← traj_snoc, settingsOf_solve]; exact q4
    choose W hW using hex
    refine ⟨W, fun n => (hW n).1, fun n => ?_, ?_, ?_⟩
    · rw [(hW n).2.1]
      exact ⟨(k1 n).1.trans (min_le_left _ _), (k1 n).2.trans (min_le_left _ _)⟩
    · exact k2.congr fun n => by rw [(hW n).2.1]
    · exact k3.congr fun n => by rw [(hW n).2.1]

/-- **C96.** For every horizon, sampling period and positive weights there is a period `F`, longer than the sampling period, such that the
robot settles at its velocity reference exactly when the period of the calls is below `F`. -/
theorem C96_critical (hs : s.TracksSpeed vr) : ∃ F > s.period, ∀ fb > 0, Spec.SettlesSpeed fb s vr ↔ fb < F := by
  obtain ⟨m, hm⟩ : ∃ m, s.nbSamples = m + 1 := ⟨s.nbSamples - 1, by have := hs.samples; omega⟩
  obtain ⟨F, hF, h⟩ := speed_interval hs.period hs.vel hs.jerk m
  exact ⟨F, hF, fun fb hfb => by rw [C96_iff hs hm hfb, h fb]⟩

/-- **C96 (one sample).** With one sample of `T` seconds the robot settles exactly when the period of the calls is below `2 T` and below
`T + 4 wj / (wv T³)`. -/
theorem C96_one_sample (hs : s.TracksSpeed vr) (h1 : s.nbSamples = 1) (hfb : 0 < fb) : Spec.SettlesSpeed fb s vr ↔
    fb < 2 * s.period ∧ fb < s.period + 4 * s.weighting.jerkMinimization / (s.weighting.velocityTracking * s.period ^ 3) := by
  rw [C96_iff hs (m := 0) h1 hfb]
  have hT := hs.period
  have hv := hs.vel
  have hj := hs.jerk
  have hD : 0 < s.weighting.velocityTracking * s.period ^ 4 / 4 + s.weighting.jerkMinimization := by positivity
  have e1 : gain1 s.period s.weighting.velocityTracking s.weighting.jerkMinimization 0
      = s.weighting.velocityTracking * s.period ^ 2 / 2 / (s.weighting.velocityTracking * s.period ^ 4 / 4 + s.weighting.jerkMinimization) := by
    simp [gain1, cGo, Quad.addV, Quad.b1, Quad.den]
    ring
  have e2 : gain2 s.period s.weighting.velocityTracking s.weighting.jerkMinimization 0
      = s.weighting.velocityTracking * s.period ^ 3 / 2 / (s.weighting.velocityTracking * s.period ^ 4 / 4 + s.weighting.jerkMinimization) := by
    simp [gain2, cGo, Quad.addV, Quad.b2, Quad.den]
    ring
  rw [e1, e2]
  unfold SpeedStable
  generalize s.weighting.velocityTracking = wv at *
  generalize s.weighting.jerkMinimization = wj at *
  generalize s.period = T at *
  refine and_congr ?_ ?_
  · rw [div_mul_eq_mul_div, ← mul_div_assoc, div_lt_div_iff_of_pos_right hD,
      show wv * T ^ 2 / 2 * fb = wv * T ^ 2 / 2 * fb from rfl, show 2 * (wv * T ^ 3 / 2) = wv * T ^ 2 / 2 * (2 * T) by ring,
      mul_lt_mul_iff_right₀ (by positivity)]
  · rw [div_mul_eq_mul_div, div_lt_iff₀ hD,
      show 2 * (wv * T ^ 4 / 4 + wj) = wv * T ^ 3 / 2 * (T + 4 * wj / (wv * T ^ 3)) by field_simp; ring,
      mul_lt_mul_iff_right₀ (by positivity)]

/-- Calls for one sample of one second, velocity reference 2. -/
noncomputable def speedCalls : List (TrajCall ℝ) := [.setWeightings ⟨4, 0, 1 / 2⟩, .setVelRef (Vec.const 1 2)]

theorem speedCalls_tracks : (settingsOf speedCalls).TracksSpeed 2 := by
  refine ⟨one_pos, one_pos, ?_, le_rfl, ?_, rfl, ⟨rfl, rfl⟩, fun i _ => rfl, speedCalls, ?_, by simp [speedCalls], rfl⟩
  · show (0 : ℝ) < 4
    norm_num
  · show (0 : ℝ) < 1 / 2
    norm_num
  · simp [speedCalls, Spec.TrajSettings.Legal, Spec.TrajSettings.Pre, Spec.TrajSettings.apply, Vec.const, Spec.TrajSettings.init]

/-- **C96 (case).** A robot that settles when `solve` is called every 1.4 sampling periods does not when it is called every 1.5 sampling periods. -/
theorem C96_case : Spec.SettlesSpeed (7 / 5) (settingsOf speedCalls) 2 ∧ ¬ Spec.SettlesSpeed (3 / 2) (settingsOf speedCalls) 2 := by
  have e1 : (settingsOf speedCalls).period = 1 := rfl
  have e2 : (settingsOf speedCalls).weighting = ⟨4, 0, 1 / 2⟩ := rfl
  rw [C96_one_sample speedCalls_tracks rfl (by norm_num), C96_one_sample speedCalls_tracks rfl (by norm_num), e1, e2]
  norm_num

/-! ### The base of a wheeled robot -/

variable {vx vy : ℝ} {z : Spec.ZebSettings ℝ}

/-- **C96 (base, gains).** As `C96_iff`, for the base of `ZebulonWalkgen`. -/
theorem C96_base_iff (hs : z.TracksSpeed vx vy) {m : ℕ} (hm : z.nbSamples = m + 1) (hfb : 0 < fb) : Spec.BaseSettlesSpeed fb z vx vy ↔
    SpeedStable (gain1 z.period z.weighting.velocityTracking z.weighting.jerkMinimization m)
      (gain2 z.period z.weighting.velocityTracking z.weighting.jerkMinimization m) fb := by
  obtain ⟨E, hE0, hstep⟩ := base_speed_feedback hs hm
  obtain ⟨h1, h2, h3⟩ := gains hs.period hs.vel hs.jerk m
  generalize gain1 z.period z.weighting.velocityTracking z.weighting.jerkMinimization m = g1 at *
  generalize gain2 z.period z.weighting.velocityTracking z.weighting.jerkMinimization m = g2 at *
  have hM : (0 : ℝ) < MAXBOUND := by norm_num [MAXBOUND]
  have fine : ∀ {x : State3 ℝ} {vr e : ℝ}, e ≤ E → Spec.NearSpeed vr e x → Spec.NearSpeed vr E x := fun he hx =>
    ⟨hx.1.trans he, hx.2.trans he⟩
  constructor
  · intro hset
    by_contra hb
    obtain ⟨d, hd, h⟩ := hset E hE0
    obtain ⟨o, ho⟩ := finding_oracle
    obtain ⟨x, nx, hx⟩ := speed_leaves h1 hfb hb hd vx
    obtain ⟨k, cx, cy, cs0, hl, hns, hs0, -⟩ := hs.calls
    set tr : Trig ℝ := ⟨fun _ => 0, fun _ => 0⟩
    obtain ⟨w0, hw0⟩ := C54_no_fault_partial o tr cx cy cs0 hl (by
      clear hl hs0
      generalize Spec.ZebSettings.init cx cy = s0
      induction cs0 generalizing s0 with
      | nil => trivial
      | cons c cs ih =>
        exact ⟨fun fb e => absurd (e ▸ List.mem_cons_self) (hns fb), ih (fun fb hm => hns fb (List.mem_cons_of_mem _ hm)) _⟩)
    obtain ⟨w, hr, hst⟩ := zPlace_run o tr w0 x ⟨0, vy, 0⟩ ⟨0, 0, 0⟩ ⟨0, 0, 0⟩
    set cs := cs0 ++ zPlaceCalls x ⟨0, vy, 0⟩ ⟨0, 0, 0⟩ ⟨0, 0, 0⟩ with hcs
    have hw : ZebReaches o tr cx cy cs w := (zReaches_append hw0).2 hr
    have hset0 : zebSettingsOf cx cy cs = z := by rw [← hs0, hcs]; unfold zebSettingsOf; rw [after_append]; rfl
    have hX : ∀ i, w.X.get i = 0 := zReaches_X hw (by
      intro fb hm
      rcases List.mem_append.1 hm with hm | hm
      · exact hns fb hm
      · simp [zPlaceCalls] at hm)
    obtain ⟨W, hW, hn, ⟨-, la⟩, -⟩ := h o tr cx cy cs w ho hw hset0 (fun i _ => by rw [hX, abs_zero]; exact hd.le) (by rw [hst]; exact nx)
      (by rw [hst]; simp [Spec.NearSpeed, hd.le])
    have unique : ∀ {cs' : List (ZebCall ℝ)} {w1 w2 : Zeb ℝ}, ZebReaches o tr cx cy cs' w1 → ZebReaches o tr cx cy cs' w2 → w1 = w2 := by
      intro cs' w1 w2 e1 e2
      unfold ZebReaches at e1 e2
      rw [e1] at e2
      exact Except.ok.inj e2
    have e0 : W 0 = w := unique (hW 0) (by simpa using hw)
    have set : ∀ n, zebSettingsOf cx cy (cs ++ List.replicate n (.solve fb)) = z := by
      intro n
      induction n with
      | zero => simpa using hset0
      | succ n ih => rw [← replicate_snoc, zebSettingsOf_solve]; exact ih
    have one : ∀ n, (∀ i < 4 * z.nbSamples, |(W n).X.get i| ≤ MAXBOUND / 2) →
        (W (n + 1)).state.bx = track g1 g2 fb vx (W n).state.bx ∧ ∀ i < 4 * z.nbSamples, |(W (n + 1)).X.get i| ≤ MAXBOUND / 2 := by
      intro n hx'
      obtain ⟨w2, p1, p2, -, p3⟩ := hstep o tr cx cy _ (W n) ho (hW n) (set n) hx' (fine le_rfl (hn n).1) (fine le_rfl (hn n).2) fb hfb
      rw [replicate_snoc] at p1
      rw [unique (hW (n + 1)) p1]
      exact ⟨p2, p3⟩
    have follow : ∀ n, ∀ i < 4 * z.nbSamples, |(W n).X.get i| ≤ MAXBOUND / 2 := by
      intro n
      induction n with
      | zero => intro i _; rw [e0, hX, abs_zero]; positivity
      | succ n ih => exact (one n ih).2
    exact hx (fun n => (W n).state.bx) (by rw [e0, hst]) (fun n => (one n (follow n)).1) la
  · intro hb e he
    obtain ⟨d, hd, hret⟩ := speed_returns h1 hfb hb (lt_min he hE0)
    refine ⟨min d (MAXBOUND / 2), lt_min hd (by positivity), ?_⟩
    intro o tr cx cy cs w ho hw hs0 hX hnx hny
    obtain ⟨k1, k2, k3⟩ := hret vx w.state.bx ⟨hnx.1.trans (min_le_left _ _), hnx.2.trans (min_le_left _ _)⟩
    obtain ⟨l1, l2, l3⟩ := hret vy w.state.by_ ⟨hny.1.trans (min_le_left _ _), hny.2.trans (min_le_left _ _)⟩
    have hex : ∀ n, ∃ w', ZebReaches o tr cx cy (cs ++ List.replicate n (.solve fb)) w' ∧
        w'.state.bx = (track g1 g2 fb vx)^[n] w.state.bx ∧ w'.state.by_ = (track g1 g2 fb vy)^[n] w.state.by_ ∧
        (∀ i < 4 * z.nbSamples, |w'.X.get i| ≤ MAXBOUND / 2) ∧ zebSettingsOf cx cy (cs ++ List.replicate n (.solve fb)) = z := by
      intro n
      induction n with
      | zero => exact ⟨w, by simpa using hw, rfl, rfl, fun i hi => (hX i hi).trans (min_le_right _ _), by simpa using hs0⟩
      | succ n ih =>
        obtain ⟨w1, q1, q2, q3, q4, q5⟩ := ih
        have fx := fine (x := w1.state.bx) (min_le_right e E) (by rw [q2]; exact k1 n)
        have fy := fine (x := w1.state.by_) (min_le_right e E) (by rw [q3]; exact l1 n)
        obtain ⟨w2, p1, p2, p3, p4⟩ := hstep o tr cx cy _ w1 ho q1 q5 q4 fx fy fb hfb
        rw [replicate_snoc] at p1
        refine ⟨w2, p1, ?_, ?_, p4, ?_⟩
        · rw [p2, q2, Function.iterate_succ_apply']
        · rw [p3, q3, Function.iterate_succ_apply']
        · rw [← replicate_snoc, zebSettingsOf_solve]; exact q5
    choose W hW using hex
    refine ⟨W, fun n => (hW n).1, fun n => ⟨?_, ?_⟩, ⟨?_, ?_⟩, ?_, ?_⟩
    · rw [(hW n).2.1]
      exact ⟨(k1 n).1.trans (min_le_left _ _), (k1 n).2.trans (min_le_left _ _)⟩
    · rw [(hW n).2.2.1]
      exact ⟨(l1 n).1.trans (min_le_left _ _), (l1 n).2.trans (min_le_left _ _)⟩
    · exact k2.congr fun n => by rw [(hW n).2.1]
    · exact k3.congr fun n => by rw [(hW n).2.1]
    · exact l2.congr fun n => by rw [(hW n).2.2.1]
    · exact l3.congr fun n => by rw [(hW n).2.2.1]

/-- **C96 (base).** For every horizon, sampling period and positive weights there is a period `F`, longer than the sampling period, such that
the base settles at its velocity reference exactly when the period of the calls is below `F`. -/
theorem C96_base_critical (hs : z.TracksSpeed vx vy) : ∃ F > z.period, ∀ fb > 0, Spec.BaseSettlesSpeed fb z vx vy ↔ fb < F := by
  obtain ⟨m, hm⟩ : ∃ m, z.nbSamples = m + 1 := ⟨z.nbSamples - 1, by have := hs.samples; omega⟩
  obtain ⟨F, hF, h⟩ := speed_interval hs.period hs.vel hs.jerk m
  exact ⟨F, hF, fun fb hfb => by rw [C96_base_iff hs hm hfb, h fb]⟩

/-- The hypotheses of `C96_base_critical` are met, with and without limits of the base. -/
example (b : Bool) : (zebSettingsOf 0 0 (zVelCalls ++ [.setVelLimit 2, .setConfig ⟨false, false, b, false⟩])).TracksSpeed 1 1 := by
  refine ⟨one_pos, one_pos, one_pos, le_rfl, le_rfl, le_rfl, ?_, le_rfl, le_rfl, ⟨rfl, rfl, rfl⟩, fun _ => ⟨?_, ?_, one_pos, one_pos⟩,
    ⟨rfl, rfl, rfl⟩, fun i _ => ⟨rfl, rfl⟩, (0, 0), 0, 0, _, ?_, by simp [zVelCalls], rfl, rfl⟩
  · show (0 : ℝ) < 1 / 10
    norm_num
  · show |(1 : ℝ)| < 2
    norm_num
  · show |(1 : ℝ)| < 2
    norm_num
  · simp [zVelCalls, Spec.ZebSettings.Legal, Spec.ZebSettings.Pre, Spec.ZebSettings.apply, Spec.ZebSettings.init, Vec.const]

end MPC
