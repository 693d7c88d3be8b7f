import Verif.Spec.Every
import Verif.Lemmas.Integrator
import Verif.Props.Gains

/-!
# C94: with one sample, the robot settles exactly when the weights are balanced for the period of the calls
-/

set_option linter.unusedSectionVars false

namespace MPC
open Finset Filter Topology

/-- The state after the next call. -/
noncomputable def settleEvery (k l T fb pr : ℝ) (x : State3 ℝ) : State3 ℝ := Spec.cubic x (settleJerk k l T pr x) fb

theorem settleEvery_loop {k l T fb pr : ℝ} (hT : 0 < T) {z : ℕ → State3 ℝ} (hz : ∀ n, z (n + 1) = settleEvery k l T fb pr (z n)) :
    TripleLoop (6 * k * (fb / T) ^ 3) ((6 * k + 2 * l) * (fb / T) ^ 2) ((3 * k + 2 * l) * (fb / T)) (fun n => (z n).p - pr)
      (fun n => fb * (z n).v) (fun n => fb ^ 2 * (z n).a) := by
  intro n
  simp only [hz]
  generalize z n = x
  simp only [settleEvery, settleJerk, Spec.cubic]
  refine ⟨?_, ?_, ?_⟩ <;> field_simp <;> ring

/-- Stability in terms of the weights. -/
theorem every_shares {T fb : ℝ} {wt : TrajWeighting ℝ} (hT : 0 < T) (hfb : 0 < fb) (hv : 0 ≤ wt.velocityTracking)
    (hp : 0 < wt.positionTracking) (hj : 0 < wt.jerkMinimization) {k l : ℝ} (hk : k = wt.positionTracking * T ^ 6 / 36 / gainSum T wt)
    (hl : l = wt.velocityTracking * T ^ 4 / 4 / gainSum T wt) :
    TripleStable (6 * k * (fb / T) ^ 3) ((6 * k + 2 * l) * (fb / T) ^ 2) ((3 * k + 2 * l) * (fb / T)) ↔ Spec.BalancedEvery fb T wt := by
  unfold Spec.BalancedEvery TripleStable
  have hA : 0 < wt.positionTracking * T ^ 6 / 36 := by positivity
  have hB : 0 ≤ wt.velocityTracking * T ^ 4 / 4 := by positivity
  have hS : gainSum T wt = wt.positionTracking * T ^ 6 / 36 + wt.velocityTracking * T ^ 4 / 4 + wt.jerkMinimization := rfl
  have hS0 : 0 < gainSum T wt := by rw [hS]; positivity
  have hs : 0 < fb / T := by positivity
  simp only
  rw [← hS]
  generalize wt.positionTracking * T ^ 6 / 36 = X at *
  generalize wt.velocityTracking * T ^ 4 / 4 = Y at *
  generalize gainSum T wt = S at *
  generalize fb / T = s at *
  have hX : X = k * S := by rw [hk]; field_simp
  have hY : Y = l * S := by rw [hl]; field_simp
  have k0 : 0 < k := by rw [hk]; positivity
  clear hk hl hS
  subst hX hY
  have q1 : 6 * k * s ^ 3 < 2 * ((6 * k + 2 * l) * s ^ 2) ↔ 3 * (k * S) * s < 6 * (k * S) + 2 * (l * S) := by
    rw [show 6 * k * s ^ 3 = 2 * s ^ 2 * (3 * k * s) by ring, show 2 * ((6 * k + 2 * l) * s ^ 2) = 2 * s ^ 2 * (6 * k + 2 * l) by ring,
      show 3 * (k * S) * s = S * (3 * k * s) by ring, show 6 * (k * S) + 2 * (l * S) = S * (6 * k + 2 * l) by ring,
      mul_lt_mul_iff_right₀ (by positivity), mul_lt_mul_iff_right₀ hS0]
  have q2 : 12 * ((3 * k + 2 * l) * s) < 24 + 6 * k * s ^ 3 ↔ 2 * (3 * (k * S) + 2 * (l * S)) * s < 4 * S + k * S * s ^ 3 := by
    rw [show 12 * ((3 * k + 2 * l) * s) = 6 * (2 * (3 * k + 2 * l) * s) by ring, show 24 + 6 * k * s ^ 3 = 6 * (4 + k * s ^ 3) by ring,
      show 2 * (3 * (k * S) + 2 * (l * S)) * s = S * (2 * (3 * k + 2 * l) * s) by ring,
      show 4 * S + k * S * s ^ 3 = S * (4 + k * s ^ 3) by ring, mul_lt_mul_iff_right₀ (by positivity), mul_lt_mul_iff_right₀ hS0]
  have q3 : 2 * (6 * k * s ^ 3) < (6 * k + 2 * l) * s ^ 2 * (2 * ((3 * k + 2 * l) * s) - (6 * k + 2 * l) * s ^ 2 + 6 * k * s ^ 3 / 3) ↔
      3 * (k * S) * S < (3 * (k * S) + l * S) * (3 * (k * S) + 2 * (l * S) - (3 * (k * S) + l * S) * s + k * S * s ^ 2) := by
    rw [show 2 * (6 * k * s ^ 3) = 4 * s ^ 3 * (3 * k) by ring,
      show (6 * k + 2 * l) * s ^ 2 * (2 * ((3 * k + 2 * l) * s) - (6 * k + 2 * l) * s ^ 2 + 6 * k * s ^ 3 / 3)
        = 4 * s ^ 3 * ((3 * k + l) * (3 * k + 2 * l - (3 * k + l) * s + k * s ^ 2)) by ring,
      show 3 * (k * S) * S = S ^ 2 * (3 * k) by ring,
      show (3 * (k * S) + l * S) * (3 * (k * S) + 2 * (l * S) - (3 * (k * S) + l * S) * s + k * S * s ^ 2)
        = S ^ 2 * ((3 * k + l) * (3 * k + 2 * l - (3 * k + l) * s + k * s ^ 2)) by ring,
      mul_lt_mul_iff_right₀ (by positivity), mul_lt_mul_iff_right₀ (by positivity)]
  rw [q1, q2, q3]
  exact ⟨fun h => h.2, fun h => ⟨by positivity, h⟩⟩

/-- **C94 (balanced weights).** The robot settles at every position reference. -/
theorem C94_settles {T fb pr : ℝ} {wt : TrajWeighting ℝ} (hT : 0 < T) (hfb : 0 < fb) (hv : 0 ≤ wt.velocityTracking)
    (hp : 0 < wt.positionTracking) (hj : 0 < wt.jerkMinimization) (hb : Spec.BalancedEvery fb T wt) :
    Spec.SettlesEvery fb (settingsOf (gainCalls T wt pr)) pr := by
  have hst := (every_shares hT hfb hv hp hj rfl rfl).2 hb
  have hstep := fun {o} ho {cs w} => @settle_step_every T pr fb wt hT hfb hv hp.le hj o ho cs w
  generalize wt.positionTracking * T ^ 6 / 36 / gainSum T wt = k at *
  generalize wt.velocityTracking * T ^ 4 / 4 / gainSum T wt = l at *
  obtain ⟨B, hB0, hret⟩ := triple_returns hst
  set G := 6 / T ^ 3 + 8 / T ^ 2 + 5 / T with hG
  have hG0 : 0 < G := by positivity
  have hM : (0 : ℝ) < MAXBOUND := by norm_num [MAXBOUND]
  intro e he
  set e' := min e (MAXBOUND / (2 * G)) with he'
  have he0 : 0 < e' := lt_min he (by positivity)
  set m := min 1 (min fb (fb ^ 2)) with hm
  have hm0 : 0 < m := by rw [hm]; positivity
  set q := e' * m / B with hq
  have hq0 : 0 < q := by positivity
  have hBq : B * q = e' * m := by rw [hq]; field_simp
  have hG' : G * e' ≤ MAXBOUND / 2 := by
    calc G * e' ≤ G * (MAXBOUND / (2 * G)) := by gcongr; exact min_le_right _ _
      _ = MAXBOUND / 2 := by field_simp
  refine ⟨min (q / (1 + fb + fb ^ 2)) (MAXBOUND / 2), lt_min (by positivity) (by positivity), ?_⟩
  intro o cs w ho hw hs hX hn
  set z : ℕ → State3 ℝ := fun n => (settleEvery k l T fb pr)^[n] w.getState with hz
  have hz1 : ∀ n, z (n + 1) = settleEvery k l T fb pr (z n) := fun n => Function.iterate_succ_apply' _ _ _
  have hd : ∀ x, |x| ≤ min (q / (1 + fb + fb ^ 2)) (MAXBOUND / 2) → |x| ≤ q ∧ |fb * x| ≤ q ∧ |fb ^ 2 * x| ≤ q := by
    intro x hx
    have h1 := hx.trans (min_le_left _ _)
    rw [le_div_iff₀ (by positivity)] at h1
    have h2 : 0 ≤ |x| := abs_nonneg x
    have h3 := mul_nonneg hfb.le h2
    have h4 := mul_nonneg (sq_nonneg fb) h2
    rw [abs_mul, abs_mul, abs_of_pos hfb, abs_of_pos (show 0 < fb ^ 2 by positivity)]
    have h5 : |x| + fb * |x| + fb ^ 2 * |x| ≤ q := by linarith
    refine ⟨?_, ?_, ?_⟩ <;> linarith
  obtain ⟨⟨mp, lp⟩, ⟨mv, lv⟩, ma, la⟩ := hret q _ _ _ (settleEvery_loop hT hz1) (hd _ hn.1).1 (hd _ hn.2.1).2.1 (hd _ hn.2.2).2.2
  rw [hBq] at mp mv ma
  have near : ∀ n, Spec.NearRest pr e' (z n) := by
    intro n
    have u1 : e' * m ≤ e' * 1 := by gcongr; exact min_le_left _ _
    have u2 : e' * m ≤ e' * fb := by gcongr; exact (min_le_right _ _).trans (min_le_left _ _)
    have u3 : e' * m ≤ e' * fb ^ 2 := by gcongr; exact (min_le_right _ _).trans (min_le_right _ _)
    refine ⟨by linarith [mp n], ?_, ?_⟩
    · have := (mv n).trans u2
      rw [abs_mul, abs_of_pos hfb, mul_comm e'] at this
      exact le_of_mul_le_mul_left this hfb
    · have := (ma n).trans u3
      rw [abs_mul, abs_of_pos (show 0 < fb ^ 2 by positivity), mul_comm e'] at this
      exact le_of_mul_le_mul_left this (by positivity)
  have hex : ∀ n, ∃ w', TrajReaches o (cs ++ List.replicate n (.solve fb)) w' ∧ w'.getState = z n ∧ |w'.X.get 0| ≤ MAXBOUND / 2 ∧
      settingsOf (cs ++ List.replicate n (.solve fb)) = settingsOf (gainCalls T wt pr) := by
    intro n
    induction n with
    | zero => exact ⟨w, by simpa using hw, rfl, (hX 0 Nat.one_pos).trans (min_le_right _ _), by simpa using hs⟩
    | succ n ih =>
      obtain ⟨w1, q1, q2, q3, q4⟩ := ih
      obtain ⟨w2, p1, p2, p3⟩ := hstep ho q1 q4 q3 hG' (by rw [q2]; exact near n)
      have el : cs ++ List.replicate n (TrajCall.solve fb) ++ [.solve fb] = cs ++ List.replicate (n + 1) (.solve fb) := by
        rw [List.replicate_succ', List.append_assoc]
      rw [el] at p1
      exact ⟨w2, p1, by rw [p3, q2, hz1]; rfl, p2, by rw [← el, settingsOf_solve, q4]⟩
  choose W hW using hex
  refine ⟨W, fun n => (hW n).1, fun n => ?_, ?_, ?_, ?_⟩
  · rw [(hW n).2.1]
    have u : e' ≤ e := min_le_left _ _
    exact ⟨(near n).1.trans u, (near n).2.1.trans u, (near n).2.2.trans u⟩
  · have := lp.add_const pr
    rw [zero_add] at this
    refine this.congr fun n => ?_
    rw [(hW n).2.1]; ring
  · have := lv.const_mul (1 / fb)
    rw [mul_zero] at this
    refine this.congr fun n => ?_
    rw [(hW n).2.1]; field_simp
  · have := la.const_mul (1 / fb ^ 2)
    rw [mul_zero] at this
    refine this.congr fun n => ?_
    rw [(hW n).2.1]; field_simp

/-- **C94 (other weights).** The robot does not settle, at any position reference. -/
theorem C94_unbalanced {T fb pr : ℝ} {wt : TrajWeighting ℝ} (hT : 0 < T) (hfb : 0 < fb) (hv : 0 ≤ wt.velocityTracking)
    (hp : 0 < wt.positionTracking) (hj : 0 < wt.jerkMinimization) (hb : ¬ Spec.BalancedEvery fb T wt) :
    ¬ Spec.SettlesEvery fb (settingsOf (gainCalls T wt pr)) pr := by
  intro hset
  rw [← every_shares hT hfb hv hp hj rfl rfl] at hb
  have hstep := fun {o} ho {cs w} => @settle_step_every T pr fb wt hT hfb hv hp.le hj o ho cs w
  generalize wt.positionTracking * T ^ 6 / 36 / gainSum T wt = k at *
  generalize wt.velocityTracking * T ^ 4 / 4 / gainSum T wt = l at *
  obtain ⟨P, V, A, hun⟩ := triple_leaves hb
  set G := 6 / T ^ 3 + 8 / T ^ 2 + 5 / T with hG
  have hG0 : 0 < G := by positivity
  have hM : (0 : ℝ) < MAXBOUND := by norm_num [MAXBOUND]
  have hG' : G * (MAXBOUND / (2 * G)) ≤ MAXBOUND / 2 := le_of_eq (by field_simp)
  obtain ⟨d, hd, h⟩ := hset (MAXBOUND / (2 * G)) (by positivity)
  obtain ⟨o, ho⟩ := finding_oracle
  set M := 1 + |P| + |V / fb| + |A / fb ^ 2| with hM'
  have hM0 : 0 < M := by positivity
  set s := d / M with hs
  have hs0 : 0 < s := by positivity
  have hsM : s * M = d := by rw [hs]; field_simp
  set v : Vec ℝ := ⟨3, fun i => if i = 0 then pr + s * P else if i = 1 then s * V / fb else s * A / fb ^ 2⟩ with hv'
  set cs := gainCalls T wt pr ++ [.setState v] with hcs
  obtain ⟨w, hw⟩ := C16_no_fault_partial o cs
    (by simp [hcs, gainCalls, Spec.TrajSettings.Legal, Spec.TrajSettings.Pre, Spec.TrajSettings.apply, hT, hv', Vec.const,
          Spec.TrajSettings.init, hv, hp.le, hj.le])
    (by simp [hcs, gainCalls, Spec.TrajSettings.RefsCurrentAtSolves])
  have hst : w.getState = ⟨pr + s * P, s * V / fb, s * A / fb ^ 2⟩ := by
    obtain ⟨w1, b, h1, e⟩ := trajReaches_append.1 hw
    exact setter_state (reachable_inv h1) e
  have hX : ∀ i, w.X.get i = 0 := reaches_X hw (by simp [hcs, gainCalls])
  have small : ∀ a, |a| ≤ M → |s * a| ≤ d := by
    intro a ha
    rw [abs_mul, abs_of_pos hs0, ← hsM]; gcongr
  obtain ⟨W, hW, hn, lp, -, la⟩ := h o cs w ho hw rfl (fun i _ => by rw [hX, abs_zero]; exact hd.le) (by
    rw [hst]
    refine ⟨?_, ?_, ?_⟩
    · rw [show pr + s * P - pr = s * P by ring]
      exact small _ (by rw [hM']; linarith [abs_nonneg (V / fb), abs_nonneg (A / fb ^ 2)])
    · change |s * V / fb| ≤ d
      rw [mul_div_assoc]
      exact small _ (by rw [hM']; linarith [abs_nonneg P, abs_nonneg (A / fb ^ 2)])
    · change |s * A / fb ^ 2| ≤ d
      rw [mul_div_assoc]
      exact small _ (by rw [hM']; linarith [abs_nonneg P, abs_nonneg (V / fb)]))
  have unique : ∀ {cs' : List (TrajCall ℝ)} {w1 w2 : TrajWalkgen ℝ}, TrajReaches o cs' w1 → TrajReaches o cs' w2 → w1 = w2 := by
    intro cs' w1 w2 h1 h2
    unfold TrajReaches at h1 h2
    rw [h1] at h2
    exact Except.ok.inj h2
  have follow : ∀ n, |(W n).X.get 0| ≤ MAXBOUND / 2 ∧ settingsOf (cs ++ List.replicate n (.solve fb)) = settingsOf (gainCalls T wt pr) ∧
      (W (n + 1)).getState = settleEvery k l T fb pr (W n).getState ∧ |(W (n + 1)).X.get 0| ≤ MAXBOUND / 2 := by
    have one : ∀ n, |(W n).X.get 0| ≤ MAXBOUND / 2 → settingsOf (cs ++ List.replicate n (.solve fb)) = settingsOf (gainCalls T wt pr) →
        (W (n + 1)).getState = settleEvery k l T fb pr (W n).getState ∧ |(W (n + 1)).X.get 0| ≤ MAXBOUND / 2 := by
      intro n h1 h2
      obtain ⟨w2, p1, p2, p3⟩ := hstep ho (hW n) h2 h1 hG' (hn n)
      have el : cs ++ List.replicate n (TrajCall.solve fb) ++ [.solve fb] = cs ++ List.replicate (n + 1) (.solve fb) := by
        rw [List.replicate_succ', List.append_assoc]
      rw [el] at p1
      have := unique (hW (n + 1)) p1
      rw [this]
      exact ⟨p3, p2⟩
    intro n
    induction n with
    | zero =>
      have e0 : W 0 = w := unique (hW 0) (by simpa using hw)
      have a1 : |(W 0).X.get 0| ≤ MAXBOUND / 2 := by rw [e0, hX, abs_zero]; positivity
      have a2 : settingsOf (cs ++ List.replicate 0 (.solve fb)) = settingsOf (gainCalls T wt pr) := by
        simp only [List.replicate_zero, List.append_nil]
        rfl
      exact ⟨a1, a2, one 0 a1 a2⟩
    | succ n ih =>
      have a2 : settingsOf (cs ++ List.replicate (n + 1) (.solve fb)) = settingsOf (gainCalls T wt pr) := by
        rw [List.replicate_succ', ← List.append_assoc, settingsOf_solve, ih.2.1]
      exact ⟨ih.2.2.2, a2, one (n + 1) ih.2.2.2 a2⟩
  have w0 : (W 0).getState = ⟨pr + s * P, s * V / fb, s * A / fb ^ 2⟩ := by rw [unique (hW 0) (by simpa using hw)]; exact hst
  refine hun s hs0.ne' _ _ _ (settleEvery_loop (pr := pr) (z := fun n => (W n).getState) hT fun n => (follow n).2.2.1) ?_ ?_ ?_ ?_ ?_
  · rw [w0]; ring
  · rw [w0]; field_simp
  · rw [w0]; field_simp
  · have := lp.sub_const pr
    rwa [sub_self] at this
  · simpa using la.const_mul (fb ^ 2)

/-- **C94.** With one sample and a call of `solve` every `fb` seconds, the robot settles at a position reference exactly when the
weights are balanced for `fb`. -/
theorem C94_settles_iff {T fb pr : ℝ} {wt : TrajWeighting ℝ} (hT : 0 < T) (hfb : 0 < fb) (hv : 0 ≤ wt.velocityTracking)
    (hp : 0 < wt.positionTracking) (hj : 0 < wt.jerkMinimization) :
    Spec.SettlesEvery fb (settingsOf (gainCalls T wt pr)) pr ↔ Spec.BalancedEvery fb T wt :=
  ⟨fun h => by_contra fun hb => C94_unbalanced hT hfb hv hp hj hb h, C94_settles hT hfb hv hp hj⟩

/-- **C94 (more calls).** A robot that settles when `solve` is called every `fb` seconds, at most the sampling period, settles when
it is called more often. -/
theorem C94_faster {T fb fb' pr : ℝ} {wt : TrajWeighting ℝ} (hT : 0 < T) (hfb' : 0 < fb') (hle : fb' ≤ fb) (hfT : fb ≤ T)
    (hv : 0 ≤ wt.velocityTracking) (hp : 0 < wt.positionTracking) (hj : 0 < wt.jerkMinimization)
    (h : Spec.SettlesEvery fb (settingsOf (gainCalls T wt pr)) pr) : Spec.SettlesEvery fb' (settingsOf (gainCalls T wt pr)) pr := by
  have hfb : 0 < fb := lt_of_lt_of_le hfb' hle
  rw [C94_settles_iff hT hfb' hv hp hj]
  rw [C94_settles_iff hT hfb hv hp hj] at h
  unfold Spec.BalancedEvery at *
  have hA : 0 < wt.positionTracking * T ^ 6 / 36 := by positivity
  have hB : 0 ≤ wt.velocityTracking * T ^ 4 / 4 := by positivity
  generalize wt.positionTracking * T ^ 6 / 36 = X at *
  generalize wt.velocityTracking * T ^ 4 / 4 = Y at *
  have s1 : fb / T ≤ 1 := (div_le_one hT).2 hfT
  have s2 : fb' / T ≤ fb / T := div_le_div_of_nonneg_right hle hT.le
  have s3 : 0 < fb' / T := by positivity
  simp only at h ⊢
  generalize fb / T = s at *
  generalize fb' / T = u at *
  obtain ⟨h1, h2, h3⟩ := h
  have d0 : 0 ≤ s - u := by linarith
  refine ⟨?_, ?_, ?_⟩
  · nlinarith
  · have e : 2 * (3 * X + 2 * Y) * s - X * s ^ 3 - (2 * (3 * X + 2 * Y) * u - X * u ^ 3)
        = (s - u) * (X * (6 - s ^ 2 - s * u - u ^ 2) + 4 * Y) := by ring
    have e2 : 0 ≤ 6 - s ^ 2 - s * u - u ^ 2 := by nlinarith
    have : 0 ≤ (s - u) * (X * (6 - s ^ 2 - s * u - u ^ 2) + 4 * Y) := by positivity
    linarith
  · have e : (3 * X + 2 * Y - (3 * X + Y) * u + X * u ^ 2) - (3 * X + 2 * Y - (3 * X + Y) * s + X * s ^ 2)
        = (s - u) * (X * (3 - s - u) + Y) := by ring
    have e2 : 0 ≤ 3 - s - u := by linarith
    have e3 : 0 ≤ (s - u) * (X * (3 - s - u) + Y) := by positivity
    have e4 := mul_nonneg (by linarith : 0 ≤ 3 * X + Y) e3
    rw [← e] at e4
    linarith

/-- **C94 (fast calls).** If `3 X (X + Y + Z) < (3 X + Y) (3 X + 2 Y)`, the robot settles as soon as `solve` is called often enough. -/
theorem C94_fast {T pr : ℝ} {wt : TrajWeighting ℝ} (hT : 0 < T) (hv : 0 ≤ wt.velocityTracking)
    (hp : 0 < wt.positionTracking) (hj : 0 < wt.jerkMinimization)
    (h : 3 * (wt.positionTracking * T ^ 6 / 36) * (wt.positionTracking * T ^ 6 / 36 + wt.velocityTracking * T ^ 4 / 4 + wt.jerkMinimization)
      < (3 * (wt.positionTracking * T ^ 6 / 36) + wt.velocityTracking * T ^ 4 / 4) *
        (3 * (wt.positionTracking * T ^ 6 / 36) + 2 * (wt.velocityTracking * T ^ 4 / 4))) :
    ∃ f > 0, ∀ fb, 0 < fb → fb ≤ f → Spec.SettlesEvery fb (settingsOf (gainCalls T wt pr)) pr := by
  have key : ∃ s₀ > 0, ∀ fb, 0 < fb → fb / T ≤ s₀ → Spec.BalancedEvery fb T wt := by
    unfold Spec.BalancedEvery
    have hA : 0 < wt.positionTracking * T ^ 6 / 36 := by positivity
    have hB : 0 ≤ wt.velocityTracking * T ^ 4 / 4 := by positivity
    generalize wt.positionTracking * T ^ 6 / 36 = X at *
    generalize wt.velocityTracking * T ^ 4 / 4 = Y at *
    set g := (3 * X + Y) * (3 * X + 2 * Y) - 3 * X * (X + Y + wt.jerkMinimization) with hg
    have g0 : 0 < g := by rw [hg]; linarith
    refine ⟨min (1 / 2) (g / (2 * (3 * X + Y) ^ 2)), lt_min (by norm_num) (by positivity), fun fb hfb hle => ?_⟩
    have s0 : 0 < fb / T := by positivity
    have s1 := hle.trans (min_le_left _ _)
    have s2 := hle.trans (min_le_right _ _)
    simp only
    generalize fb / T = s at *
    rw [le_div_iff₀ (by positivity)] at s2
    refine ⟨by nlinarith, ?_, ?_⟩
    · have : 0 < X * s ^ 3 := by positivity
      nlinarith
    · have e : (3 * X + Y) * (3 * X + 2 * Y - (3 * X + Y) * s + X * s ^ 2)
          = (3 * X + Y) * (3 * X + 2 * Y) - s * (2 * (3 * X + Y) ^ 2) / 2 + (3 * X + Y) * (X * s ^ 2) := by ring
      have : 0 < (3 * X + Y) * (X * s ^ 2) := by positivity
      rw [e]
      linarith
  obtain ⟨s₀, h0, hs⟩ := key
  refine ⟨s₀ * T, by positivity, fun fb hfb hle => C94_settles hT hfb hv hp hj (hs fb hfb ?_)⟩
  rwa [div_le_iff₀ hT]

/-- **C94 (rare calls).** When `solve` is called too rarely, the robot does not settle, whatever the weight of the jerk. -/
theorem C94_rare {T fb pr : ℝ} {wt : TrajWeighting ℝ} (hT : 0 < T) (hfb : 0 < fb) (hv : 0 ≤ wt.velocityTracking)
    (hp : 0 < wt.positionTracking) (hj : 0 < wt.jerkMinimization)
    (h : 2 * T + 6 * (wt.velocityTracking / wt.positionTracking) / T ≤ fb) :
    ¬ Spec.SettlesEvery fb (settingsOf (gainCalls T wt pr)) pr := by
  refine C94_unbalanced hT hfb hv hp hj fun hb => ?_
  have h1 := hb.1
  have e : 6 * (wt.positionTracking * T ^ 6 / 36) + 2 * (wt.velocityTracking * T ^ 4 / 4)
      = 3 * (wt.positionTracking * T ^ 6 / 36) * ((2 * T + 6 * (wt.velocityTracking / wt.positionTracking) / T) / T) := by
    field_simp
    ring
  rw [e] at h1
  have := lt_of_mul_lt_mul_left h1 (by positivity)
  rw [div_lt_div_iff_of_pos_right hT] at this
  linarith

/-- C92 is the case of one call per sampling period. -/
theorem balancedEvery_period {T : ℝ} {wt : TrajWeighting ℝ} (hT : 0 < T) (hv : 0 ≤ wt.velocityTracking)
    (hp : 0 < wt.positionTracking) : Spec.BalancedEvery T T wt ↔ Spec.Balanced T wt := by
  unfold Spec.BalancedEvery Spec.Balanced
  have hA : 0 < wt.positionTracking * T ^ 6 / 36 := by positivity
  have hB : 0 ≤ wt.velocityTracking * T ^ 4 / 4 := by positivity
  rw [div_self hT.ne']
  generalize wt.positionTracking * T ^ 6 / 36 = X at *
  generalize wt.velocityTracking * T ^ 4 / 4 = Y at *
  constructor
  · rintro ⟨-, h2, h3⟩
    exact ⟨by linarith, by linarith⟩
  · rintro ⟨h2, h3⟩
    exact ⟨by linarith, by linarith, by linarith⟩

/-- **C94 (position only).** A robot that never settles when `solve` is called once per sampling period settles with ten calls per
period. -/
theorem C94_position_only : ¬ Spec.SettlesEvery 1 (settingsOf (gainCalls 1 ⟨0, 36, 1⟩ 2)) 2 ∧
    Spec.SettlesEvery (1 / 10) (settingsOf (gainCalls 1 ⟨0, 36, 1⟩ 2)) 2 := by
  refine ⟨C94_unbalanced one_pos one_pos le_rfl (by norm_num) (by norm_num) ?_,
    C94_settles one_pos (by norm_num) le_rfl (by norm_num) (by norm_num) ?_⟩ <;> norm_num [Spec.BalancedEvery]

/-- The hypotheses of `C94_fast` and `C94_rare` are met. -/
example : (∃ f > 0, ∀ fb, 0 < fb → fb ≤ f → Spec.SettlesEvery fb (settingsOf (gainCalls 1 ⟨0, 36, 1⟩ 2)) 2) ∧
    ¬ Spec.SettlesEvery 4 (settingsOf (gainCalls 1 ⟨12, 36, 1⟩ 2)) 2 :=
  ⟨C94_fast one_pos le_rfl (by norm_num) (by norm_num) (by norm_num),
    C94_rare one_pos (by norm_num) (by norm_num) (by norm_num) (by norm_num) (by norm_num)⟩

end MPC
