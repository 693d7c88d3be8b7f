import Verif.Spec.Rate
import Verif.Props.Converge
import Verif.Lemmas.ZebConverge
import Verif.Lemmas.ZebEvery
import Verif.Lemmas.Integrator

/-! # Lemmas for C96: feedback of velocity and acceleration, applied every `fb` seconds -/

set_option linter.unusedSectionVars false

namespace MPC
open Finset Filter Topology

variable {g1 g2 fb vr : ℝ}

/-- The feedback is stable for this period of the calls. -/
def SpeedStable (g1 g2 fb : ℝ) : Prop := g1 * fb < 2 * g2 ∧ g2 * fb < 2

theorem speed_returns (h1 : 0 < g1) (hfb : 0 < fb) (hs : SpeedStable g1 g2 fb) {e : ℝ} (he : 0 < e) :
    ∃ d > 0, ∀ (vr : ℝ) (x : State3 ℝ), Spec.NearSpeed vr d x →
      (∀ n, Spec.NearSpeed vr e ((track g1 g2 fb vr)^[n] x)) ∧
      Tendsto (fun n => ((track g1 g2 fb vr)^[n] x).v) atTop (𝓝 vr) ∧ Tendsto (fun n => ((track g1 g2 fb vr)^[n] x).a) atTop (𝓝 0) := by
  obtain ⟨d, hd, h⟩ := track_converges (L := 1) (M := e) h1 (by linarith [hs.1] : g1 * fb / 2 < g2) hs.2 zero_le_one he hfb le_rfl 0
  refine ⟨d, hd, fun vr x hx => ?_⟩
  have shift : ∀ n, (track g1 g2 fb 0)^[n] ⟨x.p, x.v - vr, x.a⟩
      = ⟨((track g1 g2 fb vr)^[n] x).p - n * fb * vr, ((track g1 g2 fb vr)^[n] x).v - vr, ((track g1 g2 fb vr)^[n] x).a⟩ := by
    intro n
    induction n with
    | zero => simp
    | succ n ih =>
      rw [Function.iterate_succ_apply', Function.iterate_succ_apply', ih]
      simp only [track, Spec.cubic, State3.mk.injEq]
      push_cast
      refine ⟨by ring, by ring, by ring⟩
  obtain ⟨k1, k2, k3⟩ := h ⟨x.p, x.v - vr, x.a⟩ (by rw [sub_zero]; exact hx.1) hx.2
  simp only [shift, sub_zero, one_mul] at k1 k2 k3
  refine ⟨fun n => ?_, ?_, k3⟩
  · have := k1 n
    exact ⟨by linarith [abs_nonneg ((track g1 g2 fb vr)^[n] x).a], by linarith [abs_nonneg (((track g1 g2 fb vr)^[n] x).v - vr)]⟩
  · have := k2.add_const vr
    rw [zero_add] at this
    exact this.congr fun n => by ring

theorem speed_leaves (h1 : 0 < g1) (hfb : 0 < fb) (hs : ¬ SpeedStable g1 g2 fb) {d : ℝ} (hd : 0 < d) (vr : ℝ) :
    ∃ x, Spec.NearSpeed vr d x ∧ ∀ z : ℕ → State3 ℝ, z 0 = x → (∀ n, z (n + 1) = track g1 g2 fb vr (z n)) →
      ¬ Tendsto (fun n => (z n).a) atTop (𝓝 0) := by
  set t : ℝ := 2 - g1 * fb ^ 2 / 2 - g2 * fb with ht
  set c : ℝ := 1 - g2 * fb + g1 * fb ^ 2 / 2 with hc
  have hun : 1 ≤ c ∨ 1 + t + c ≤ 0 := by
    unfold SpeedStable at hs
    rw [not_and_or, not_lt, not_lt] at hs
    rcases hs with hs | hs
    · left
      rw [hc]
      have := mul_le_mul_of_nonneg_right hs hfb.le
      nlinarith
    · right
      rw [ht, hc]
      linarith
  rcases unstable_root hun with ⟨k1, k2⟩ | ⟨x, hx, k1⟩
  · refine ⟨⟨0, vr, d⟩, ⟨by simpa using hd.le, (abs_of_pos hd).le⟩, fun z z0 hz => ?_⟩
    refine pair_not_tendsto (y := fun n => (z n).a) k1 k2 (fun n => ?_) (by rw [z0]; exact hd.ne')
    rw [hz (n + 1), hz n]
    exact (track_recurrence g1 g2 fb vr (z n)).2
  · set δ := x - 1 with hδ
    have hxd : x = δ + 1 := by rw [hδ]; ring
    clear_value δ
    subst hxd
    have hq : δ ^ 2 + g1 * fb ^ 2 * (1 + δ / 2) + g2 * fb * δ = 0 := by
      rw [ht, hc] at hx
      linear_combination hx
    have hδ0 : δ ≠ 0 := by
      rintro rfl
      have : 0 < g1 * fb ^ 2 := by positivity
      nlinarith
    set M := 1 + |fb * (1 + δ / 2)| + |δ| with hM
    have hM0 : 0 < M := by positivity
    set s := d / M with hs'
    have hs0 : 0 < s := by positivity
    have hsM : s * M = d := by rw [hs']; field_simp
    have small : ∀ a, |a| ≤ M → |s * a| ≤ d := by
      intro a ha
      rw [abs_mul, abs_of_pos hs0, ← hsM]; gcongr
    refine ⟨⟨0, vr + s * (fb * (1 + δ / 2)), s * δ⟩, ⟨?_, ?_⟩, fun z z0 hz => ?_⟩
    · rw [show vr + s * (fb * (1 + δ / 2)) - vr = s * (fb * (1 + δ / 2)) by ring]
      exact small _ (by rw [hM]; linarith [abs_nonneg δ])
    · exact small _ (by rw [hM]; linarith [abs_nonneg (fb * (1 + δ / 2))])
    have inv : ∀ n, (z n).v - vr = (δ + 1) ^ n * (s * (fb * (1 + δ / 2))) ∧ (z n).a = (δ + 1) ^ n * (s * δ) := by
      intro n
      induction n with
      | zero => rw [z0]; simp
      | succ n ih =>
        rw [hz n]
        generalize z n = y at ih
        obtain ⟨i1, i2⟩ := ih
        have i3 : y.v = vr + (δ + 1) ^ n * (s * (fb * (1 + δ / 2))) := by linarith
        simp only [track, Spec.cubic]
        rw [i2, i3, pow_succ (δ + 1) n]
        generalize (δ + 1) ^ n = u
        constructor
        · linear_combination -(u * s * fb / 2) * hq
        · linear_combination -(u * s) * hq
    refine real_not_tendsto (y := fun n => (z n).a) k1 (fun n => ?_) ?_
    · rw [(inv n).2, (inv (n + 1)).2, pow_succ (δ + 1) n]; ring
    · rw [z0]
      exact mul_ne_zero hs0.ne' hδ0

/-- The periods for which the feedback is stable are those below some period longer than `T`. -/
theorem speed_interval {T wv wj : ℝ} (hT : 0 < T) (hv : 0 < wv) (hj : 0 < wj) (m : ℕ) :
    ∃ F > T, ∀ fb, SpeedStable (gain1 T wv wj m) (gain2 T wv wj m) fb ↔ fb < F := by
  obtain ⟨h1, h2, h3⟩ := gains hT hv hj m
  generalize gain1 T wv wj m = g1 at *
  generalize gain2 T wv wj m = g2 at *
  have g20 : 0 < g2 := lt_trans (by positivity) h2
  refine ⟨min (2 * g2 / g1) (2 / g2), lt_min ?_ ?_, fun fb => ?_⟩
  · rw [lt_div_iff₀ h1]; linarith
  · rw [lt_div_iff₀ g20]; linarith
  · rw [lt_min_iff, lt_div_iff₀ h1, lt_div_iff₀ g20]
    unfold SpeedStable
    rw [mul_comm g1, mul_comm g2]

/-- `C80_feedback` with the gains in view. -/
theorem speed_feedback {s : Spec.TrajSettings ℝ} (hs : s.TracksSpeed vr) {m : ℕ} (hm : s.nbSamples = m + 1) :
    ∃ L : ℝ, 0 ≤ L ∧
      ∀ (o : Oracle ℝ) (cs : List (TrajCall ℝ)) (w : TrajWalkgen ℝ), Spec.FindsSolution o → TrajReaches o cs w →
        settingsOf cs = s → (∀ i < s.nbSamples, |w.X.get i| ≤ MAXBOUND / 2) →
        L * (|w.getState.v - vr| + |w.getState.a|) ≤ MAXBOUND / 2 → ∀ fb, 0 < fb →
        ∃ w', TrajReaches o (cs ++ [.solve fb]) w' ∧
          w'.getState = track (gain1 s.period s.weighting.velocityTracking s.weighting.jerkMinimization m)
            (gain2 s.period s.weighting.velocityTracking s.weighting.jerkMinimization m) fb vr w.getState ∧
          ∀ i < s.nbSamples, |w'.X.get i| ≤ L * (|w.getState.v - vr| + |w.getState.a|) := by
  obtain ⟨hN, hT, hv, hp, hj, hc, hr, href, -⟩ := hs
  obtain ⟨L, hL, hatt⟩ := velCost_attained hT hv hj vr s.nbSamples
  refine ⟨L, hL, ?_⟩
  rintro o cs w ho hw rfl hX hb fb hfb
  obtain ⟨J, eJ, hJ0, hJ⟩ := hatt w.getState
  obtain ⟨w', hw', hst, hX'⟩ := solve_optimal ho hw hr hc hj J
    (fun J' => by
      rw [trajCost_vel hv.le hp hj.le href, trajCost_vel hv.le hp hj.le href, eJ]
      have := velCost_ge hT hv hj vr (settingsOf cs).nbSamples w.getState J'
      linarith) hX (fun i hi => (hJ i hi).trans hb) hfb
  refine ⟨w', hw', ?_, fun i hi => ?_⟩
  · rw [hst, hJ0 m hm]; rfl
  · rw [hX' i hi]; exact hJ i hi

theorem traj_snoc (cs : List (TrajCall ℝ)) (n : ℕ) :
    cs ++ List.replicate n (TrajCall.solve fb) ++ [.solve fb] = cs ++ List.replicate (n + 1) (.solve fb) := by
  rw [List.replicate_succ', List.append_assoc]

/-- With small jerks the velocities and accelerations of the horizon stay near those of the start. -/
theorem horizon_speed {T : ℝ} (hT : 0 < T) (vr : ℝ) (x : State3 ℝ) {J : ℕ → ℝ} {B : ℝ} {N : ℕ} (hJ : ∀ i < N, |J i| ≤ B) (i : ℕ) (hi : i < N) :
    |(Spec.jerkTrajectory T T x J i).v - vr| + |(Spec.jerkTrajectory T T x J i).a| + B ≤
      (2 + T + T ^ 2) ^ (i + 1) * (|x.v - vr| + |x.a| + B) := by
  have step : ∀ (y : State3 ℝ) (j : ℝ), |j| ≤ B →
      |(Spec.cubic y j T).v - vr| + |(Spec.cubic y j T).a| + B ≤ (2 + T + T ^ 2) * (|y.v - vr| + |y.a| + B) := by
    intro y j hj
    have B0 : 0 ≤ B := (abs_nonneg j).trans hj
    have e1 : |(Spec.cubic y j T).v - vr| ≤ |y.v - vr| + |y.a| * T + |j| * T ^ 2 / 2 := by
      have : (Spec.cubic y j T).v - vr = (y.v - vr) + y.a * T + j * T ^ 2 / 2 := by simp only [Spec.cubic]; ring
      rw [this]
      refine (abs_add_three _ _ _).trans (le_of_eq ?_)
      rw [abs_mul, abs_div, abs_mul, abs_of_pos hT, abs_of_pos (show 0 < T ^ 2 by positivity), abs_of_pos (two_pos : (0 : ℝ) < 2)]
    have e2 : |(Spec.cubic y j T).a| ≤ |y.a| + |j| * T := by
      have : (Spec.cubic y j T).a = y.a + j * T := rfl
      rw [this]
      refine (abs_add_le _ _).trans (le_of_eq ?_)
      rw [abs_mul, abs_of_pos hT]
    have k1 : |j| * T ≤ B * T := mul_le_mul_of_nonneg_right hj hT.le
    have k2 : |j| * T ^ 2 ≤ B * T ^ 2 := mul_le_mul_of_nonneg_right hj (by positivity)
    have k3 : 0 ≤ |y.v - vr| := abs_nonneg _
    have k4 : 0 ≤ |y.a| := abs_nonneg _
    have k5 : 0 ≤ (1 + T + T ^ 2) * |y.v - vr| := by positivity
    have k6 : 0 ≤ (1 + T ^ 2) * |y.a| := by positivity
    have k7 : 0 ≤ (1 + T ^ 2) * B := by positivity
    have k8 : 0 ≤ B * T ^ 2 := by positivity
    nlinarith
  induction i with
  | zero => rw [pow_succ, pow_zero, one_mul]; exact step x (J 0) (hJ 0 hi)
  | succ i ih =>
    refine (step _ (J (i + 1)) (hJ _ hi)).trans ?_
    rw [pow_succ (2 + T + T ^ 2) (i + 1), mul_comm ((2 + T + T ^ 2) ^ (i + 1)), mul_assoc]
    exact mul_le_mul_of_nonneg_left (ih (by omega)) (by positivity)

/-- Each call of `solve(fb)` near the velocity references applies the feedback to the base. -/
theorem base_speed_feedback {s : Spec.ZebSettings ℝ} {vx vy : ℝ} (hs : s.TracksSpeed vx vy) {m : ℕ} (hm : s.nbSamples = m + 1) :
    ∃ E : ℝ, 0 < E ∧
      ∀ (o : Oracle ℝ) (tr : Trig ℝ) (cx cy : ℝ) (cs : List (ZebCall ℝ)) (w : Zeb ℝ), Spec.FindsSolution o → ZebReaches o tr cx cy cs w →
        zebSettingsOf cx cy cs = s → (∀ i < 4 * s.nbSamples, |w.X.get i| ≤ MAXBOUND / 2) →
        Spec.NearSpeed vx E w.state.bx → Spec.NearSpeed vy E w.state.by_ →
        ∀ fb, 0 < fb → ∃ w', ZebReaches o tr cx cy (cs ++ [.solve fb]) w' ∧
          w'.state.bx = track (gain1 s.period s.weighting.velocityTracking s.weighting.jerkMinimization m)
            (gain2 s.period s.weighting.velocityTracking s.weighting.jerkMinimization m) fb vx w.state.bx ∧
          w'.state.by_ = track (gain1 s.period s.weighting.velocityTracking s.weighting.jerkMinimization m)
            (gain2 s.period s.weighting.velocityTracking s.weighting.jerkMinimization m) fb vy w.state.by_ ∧
          ∀ i < 4 * s.nbSamples, |w'.X.get i| ≤ MAXBOUND / 2 := by
  obtain ⟨hN, hT, hv, hp, hcop, hcom, hj, ht, ht', ⟨cf1, cf2, cf3⟩, hlim, hr, href, -⟩ := hs
  obtain ⟨Lx, hLx, hax⟩ := velCost_attained hT hv hj vx s.nbSamples
  obtain ⟨Ly, hLy, hay⟩ := velCost_attained hT hv hj vy s.nbSamples
  have hM : (0 : ℝ) < MAXBOUND / 2 := by unfold MAXBOUND; norm_num
  set L := max Lx Ly with hLd
  have hL : 0 ≤ L := hLx.trans (le_max_left _ _)
  set Q := (2 + s.period + s.period ^ 2) ^ s.nbSamples with hQ
  have hQ1 : 1 ≤ Q := one_le_pow₀ (by nlinarith)
  set C := Q * (2 + 2 * L) with hC
  have hC0 : 0 ≤ C := by positivity
  obtain ⟨E, hE, hEM, hEl⟩ : ∃ E > 0, C * E ≤ MAXBOUND / 2 ∧ (s.config.base = true →
      C * E ≤ s.velLimit - |vx| ∧ C * E ≤ s.velLimit - |vy| ∧ C * E ≤ s.accLimit ∧ C * E ≤ s.jerkLimit) := by
    obtain ⟨r0, p0, b0⟩ := small_radius hC0 hM
    by_cases hb : s.config.base = true
    · obtain ⟨l1, l2, l3, l4⟩ := hlim hb
      obtain ⟨r1, p1, b1⟩ := small_radius hC0 (sub_pos.2 l1)
      obtain ⟨r2, p2, b2⟩ := small_radius hC0 (sub_pos.2 l2)
      obtain ⟨r3, p3, b3⟩ := small_radius hC0 l3
      obtain ⟨r4, p4, b4⟩ := small_radius hC0 l4
      have h := le_refl (min (min r0 r1) (min r2 (min r3 r4)))
      simp only [le_min_iff] at h
      exact ⟨_, lt_min (lt_min p0 p1) (lt_min p2 (lt_min p3 p4)), b0 _ (by simp), fun _ =>
        ⟨b1 _ (by simp), b2 _ (by simp), b3 _ (by simp), b4 _ (by simp)⟩⟩
    · exact ⟨r0, p0, b0 _ le_rfl, fun h => absurd h hb⟩
  refine ⟨E, hE, ?_⟩
  intro o tr cx cy cs w ho hw hs1 hX hnx hny fb hfb
  have hLE : 2 * L * E ≤ C * E := mul_le_mul_of_nonneg_right (by nlinarith) hE.le
  have near : ∀ {l v : ℝ} {x : State3 ℝ}, 0 ≤ l → l ≤ L → Spec.NearSpeed v E x → l * (|x.v - v| + |x.a|) ≤ 2 * L * E := by
    intro l v x h0 h1 hx
    have : |x.v - v| + |x.a| ≤ 2 * E := by linarith [hx.1, hx.2]
    have h2 := mul_le_mul_of_nonneg_left this h0
    have h3 := mul_le_mul_of_nonneg_right h1 (by positivity : 0 ≤ 2 * E)
    linarith
  have kx := near hLx (le_max_left _ _) hnx
  have ky := near hLy (le_max_right _ _) hny
  have bx : Lx * (|w.state.bx.v - vx| + |w.state.bx.a|) ≤ MAXBOUND / 2 := (kx.trans hLE).trans hEM
  have by_ : Ly * (|w.state.by_.v - vy| + |w.state.by_.a|) ≤ MAXBOUND / 2 := (ky.trans hLE).trans hEM
  have stays : ∀ {v : ℝ} {x : State3 ℝ} {J : ℕ → ℝ}, Spec.NearSpeed v E x → (∀ i < s.nbSamples, |J i| ≤ 2 * L * E) →
      ∀ i < s.nbSamples, |(Spec.jerkTrajectory s.period s.period x J i).v| ≤ |v| + C * E ∧
        |(Spec.jerkTrajectory s.period s.period x J i).a| ≤ C * E ∧ |J i| ≤ C * E := by
    intro v x J hx hJ i hi
    have h1 := horizon_speed hT v x hJ i hi
    have hq : (2 + s.period + s.period ^ 2) ^ (i + 1) ≤ Q := pow_le_pow_right₀ (by nlinarith) (by omega)
    have h2 : |x.v - v| + |x.a| + 2 * L * E ≤ (2 + 2 * L) * E := by linarith [hx.1, hx.2]
    have h3 : (2 + s.period + s.period ^ 2) ^ (i + 1) * (|x.v - v| + |x.a| + 2 * L * E) ≤ Q * ((2 + 2 * L) * E) :=
      mul_le_mul hq h2 (by positivity) (by positivity)
    have h4 : Q * ((2 + 2 * L) * E) = C * E := by rw [hC]; ring
    have h5 : 0 ≤ 2 * L * E := by positivity
    set y := Spec.jerkTrajectory s.period s.period x J i
    have h6 := abs_nonneg (y.v - v)
    have h7 := abs_nonneg y.a
    have h8 : |y.v| ≤ |y.v - v| + |v| := by
      have := abs_add_le (y.v - v) v
      rwa [sub_add_cancel] at this
    exact ⟨by linarith, by linarith, (hJ i hi).trans hLE⟩
  obtain ⟨Jx, eJx, hJx0, hJx⟩ := hax w.state.bx
  obtain ⟨Jy, eJy, hJy0, hJy⟩ := hay w.state.by_
  set N := s.nbSamples
  set J : ℕ → ℝ := fun i => if i < 2 * N then 0 else if i < 3 * N then Jx (i - 2 * N) else Jy (i - 3 * N) with hJ
  have jx : ∀ i < N, J (2 * N + i) = Jx i := by
    intro i hi
    simp only [hJ]
    rw [if_neg (by omega), if_pos (by omega), show 2 * N + i - 2 * N = i by omega]
  have jy : ∀ i < N, J (3 * N + i) = Jy i := by
    intro i hi
    simp only [hJ]
    rw [if_neg (by omega), if_neg (by omega), show 3 * N + i - 3 * N = i by omega]
  have jc : ∀ i < 2 * N, J i = 0 := by
    intro i hi
    simp only [hJ]
    rw [if_pos hi]
  have cBx : velCost s.period s.weighting.velocityTracking s.weighting.jerkMinimization vx N w.state.bx
      (Spec.jerkBX N J) = velCost s.period s.weighting.velocityTracking s.weighting.jerkMinimization vx N
        w.state.bx Jx := by
    unfold velCost
    refine sum_congr rfl fun i hi => ?_
    have hi := mem_range.1 hi
    rw [jerkTrajectory_agree (J := Spec.jerkBX N J) (J' := Jx) (i := i) _ _ _ (fun k hk => jx k (by omega))]
    show _ + _ * (J (2 * N + i)) ^ 2 = _
    rw [jx i hi]
  have cBy : velCost s.period s.weighting.velocityTracking s.weighting.jerkMinimization vy N w.state.by_
      (Spec.jerkBY N J) = velCost s.period s.weighting.velocityTracking s.weighting.jerkMinimization vy N
        w.state.by_ Jy := by
    unfold velCost
    refine sum_congr rfl fun i hi => ?_
    have hi := mem_range.1 hi
    rw [jerkTrajectory_agree (J := Spec.jerkBY N J) (J' := Jy) (i := i) _ _ _ (fun k hk => jy k (by omega))]
    show _ + _ * (J (3 * N + i)) ^ 2 = _
    rw [jy i hi]
  have c0 : ∑ i ∈ range (2 * N), J i ^ 2 = 0 := sum_eq_zero fun i hi => by rw [jc i (mem_range.1 hi)]; ring
  have hJb : ∀ i < 4 * N, |J i| ≤ MAXBOUND / 2 := by
    intro i hi
    rcases lt_or_ge i (2 * N) with c | c
    · rw [jc i c, abs_zero]; exact hM.le
    rcases lt_or_ge i (3 * N) with c' | c'
    · rw [show i = 2 * N + (i - 2 * N) by omega, jx _ (by omega)]
      exact (hJx _ (by omega)).trans bx
    · rw [show i = 3 * N + (i - 3 * N) by omega, jy _ (by omega)]
      exact (hJy _ (by omega)).trans by_
  obtain ⟨w2, r2, e2, x2⟩ := zSolve_allowed ho hw (by rw [hs1]; exact hr)
    (by rw [hs1]; exact hj) (by rw [hs1]; exact ht) (by rw [hs1]; exact ht') J
    (fun J' => by
      rw [hs1, totalCost_vel hv.le hp hcop hcom hj.le href, totalCost_vel hv.le hp hcop hcom hj.le href, cBx, cBy, c0,
        eJx, eJy]
      have a1 := velCost_ge hT hv hj vx N w.state.bx (Spec.jerkBX N J')
      have a2 := velCost_ge hT hv hj vy N w.state.by_ (Spec.jerkBY N J')
      have a3 : 0 ≤ s.weighting.jerkMinimization * ∑ i ∈ range (2 * N), J' i ^ 2 :=
        mul_nonneg hj.le (sum_nonneg fun i _ => sq_nonneg _)
      linarith) (fun c n => by
      rw [hs1]
      refine ⟨by rw [cf1]; simp, fun hb i hi => ?_, by rw [cf2]; simp, by rw [cf3]; simp, fun i hi _ => ?_⟩
      · obtain ⟨l1, l2, l3, l4⟩ := hEl hb
        obtain ⟨x1, x2, x3⟩ := stays (J := Spec.jerkBX N J) hnx (fun k hk => by
          show |J (2 * N + k)| ≤ _
          rw [jx k hk]; exact (hJx k hk).trans kx) i hi
        obtain ⟨y1, y2, y3⟩ := stays (J := Spec.jerkBY N J) hny (fun k hk => by
          show |J (3 * N + k)| ≤ _
          rw [jy k hk]; exact (hJy k hk).trans ky) i hi
        unfold Spec.ZebSettings.baseX Spec.ZebSettings.baseY
        exact ⟨by linarith, by linarith, x2.trans l3, y2.trans l3, x3.trans l4, y3.trans l4⟩
      · have := abs_sub (J i) (w.X.get i)
        have := hX i hi; have := hJb i hi
        linarith) hfb
  rw [hs1] at e2 x2
  refine ⟨w2, r2, ?_, ?_, fun i hi => by rw [x2 i hi]; exact hJb i hi⟩
  · rw [e2, show J (2 * s.nbSamples) = Jx 0 from jx 0 hN, hJx0 m hm]; rfl
  · rw [e2, show J (3 * s.nbSamples) = Jy 0 from jy 0 hN, hJy0 m hm]; rfl

end MPC
