import Verif.Lemmas.Return

/-! # C93 — With one sample, a standing robot returns above its feet exactly when its weights are balanced -/

set_option linter.unusedSectionVars false

namespace MPC

variable {K : Type} [Field K] [LinearOrder K] [IsStrictOrderedRing K] [FloorRing K]

/-- The calls of a push and those of `solve`. -/
theorem push_run {hull : Vec (Pt K) → Res (Polygon K)} {o : Oracle K} {w w1 : HWalkgen K} {x y : State3 K}
    (h1 : w.run hull o (Spec.pushCalls w x y) = .ok w1) (ha : Spec.StandsAlike w w1) (n : ℕ) :
    w.run hull o (Spec.pushCalls w x y ++ Spec.standCalls w n) = w1.run hull o (Spec.standCalls w1 n) := by
  have hT : Spec.standCalls w n = Spec.standCalls w1 n := by unfold Spec.standCalls; rw [ha.T]
  rw [hT]
  have main : ∀ (cs cs' : List (HCall K)) (u : HWalkgen K), u.run hull o cs = .ok w1 →
      u.run hull o (cs ++ cs') = w1.run hull o cs' := by
    intro cs cs'
    induction cs with
    | nil => intro u h; obtain rfl := Except.ok.inj h; rfl
    | cons c cs ih =>
      intro u h
      obtain ⟨⟨b, v⟩, s, h⟩ := bind_eq_ok.1 h
      have := ih v h
      simp only [List.cons_append, HWalkgen.run, s]
      exact this
  exact main _ _ _ h1

/-- **C93.** With balanced weights, the CoM of a standing robot remains close to the middle of its feet after every
small push, and comes to rest there. -/
theorem C93_returns [Archimedean K] (hull : Vec (Pt K) → Res (Polygon K)) (o : Oracle K) (w : HWalkgen K)
    (h : Spec.StandsOne hull o w)
    (hb : Spec.StandBalanced w.lip.T (w.lip.comHeight / GRAVITY_NORM) w.weighting) : Spec.Returns hull o w := by
  intro e he
  have hM : (0 : K) < MAXBOUND := by unfold MAXBOUND; norm_num
  have hT : 0 < w.lip.T := lt_of_lt_of_le (by have : (0 : K) < EPS := EPS_pos; linarith) h.period.1
  obtain ⟨B, hB, hiter⟩ := standIter_returns hT h.centring h.velocity h.jerk hb
  obtain ⟨G, hG, hcop⟩ := bestCop_bounded w.weighting w.lip.T (w.lip.comHeight / GRAVITY_NORM)
  obtain ⟨r, c, hroom⟩ := h.room
  have hm : 0 < min r (MAXBOUND / 2 / c) := lt_min hroom.radius (div_pos (half_pos hM) (lt_of_lt_of_le one_pos hroom.size))
  set R := min e (min r (MAXBOUND / 2 / c) / G) with hR
  have hR0 : 0 < R := lt_min he (by positivity)
  have hGR : G * R ≤ min r (MAXBOUND / 2 / c) := by
    have := mul_le_mul_of_nonneg_left (min_le_right e (min r (MAXBOUND / 2 / c) / G)) hG.le
    rwa [mul_div_cancel₀ _ hG.ne'] at this
  have weak : ∀ {a b : K} {x : State3 K}, a ≤ b → Spec.ComWithin a x → Spec.ComWithin b x :=
    fun hab hx => ⟨hx.1.trans hab, hx.2.1.trans hab, hx.2.2.trans hab⟩
  refine ⟨R / B, by positivity, fun x y hx hy => ?_⟩
  obtain ⟨w1, r1, s1, a1, m1, cx, cy⟩ := Stands.push h x y
  have hBR : B * (R / B) = R := mul_div_cancel₀ _ hB.ne'
  obtain ⟨ix, jx⟩ := hiter _ _ hx
  obtain ⟨iy, jy⟩ := hiter _ _ hy
  rw [hBR] at ix iy
  have hfollow := Stands.follow s1 (R := R) (G := G) (m1 _ _ hroom) (by rw [a1.weighting, a1.T, a1.height]; exact hcop) hGR (by
    intro n w2 _ k1 k2
    rw [a1.weighting, a1.T, a1.height] at k1 k2
    rw [k1, k2, cx, cy]
    exact ⟨ix n, iy n⟩)
  rw [a1.weighting, a1.T, a1.height, cx, cy] at hfollow
  constructor
  · intro n
    obtain ⟨w2, k1, k2, k3⟩ := hfollow n
    refine ⟨w2, by rw [push_run r1 a1]; exact k1, ?_, ?_⟩
    · rw [k2]; exact weak (min_le_left _ _) (ix n)
    · rw [k3]; exact weak (min_le_left _ _) (iy n)
  · intro r' hr
    obtain ⟨n1, h1⟩ := jx r' hr
    obtain ⟨n2, h2⟩ := jy r' hr
    refine ⟨max n1 n2, fun n w2 hn hrun => ?_⟩
    obtain ⟨w3, k1, k2, k3⟩ := hfollow n
    rw [push_run r1 a1, k1] at hrun
    obtain rfl := Except.ok.inj hrun
    rw [k2, k3]
    exact ⟨h1 n (le_trans (le_max_left _ _) hn), h2 n (le_trans (le_max_right _ _) hn)⟩

/-- **C93.** With weights that are not balanced, there are pushes, as small as one wants, after which the CoM does not remain close
to the middle of the feet or does not come to rest there. -/
theorem C93_unbalanced [Archimedean K] (hull : Vec (Pt K) → Res (Polygon K)) (o : Oracle K) (w : HWalkgen K)
    (h : Spec.StandsOne hull o w)
    (hb : ¬ Spec.StandBalanced w.lip.T (w.lip.comHeight / GRAVITY_NORM) w.weighting) : ¬ Spec.Returns hull o w := by
  intro hret
  have hM : (0 : K) < MAXBOUND := by unfold MAXBOUND; norm_num
  have hT : 0 < w.lip.T := lt_of_lt_of_le (by have : (0 : K) < EPS := EPS_pos; linarith) h.period.1
  obtain ⟨G, hG, hcop⟩ := bestCop_bounded w.weighting w.lip.T (w.lip.comHeight / GRAVITY_NORM)
  obtain ⟨r, c, hroom⟩ := h.room
  have hm : 0 < min r (MAXBOUND / 2 / c) := lt_min hroom.radius (div_pos (half_pos hM) (lt_of_lt_of_le one_pos hroom.size))
  obtain ⟨d, hd, hret⟩ := hret (min r (MAXBOUND / 2 / c) / G) (by positivity)
  obtain ⟨x, hx, hleave⟩ := standIter_leaves hT h.centring h.velocity h.jerk hb hd
  obtain ⟨hin, hvan⟩ := hret x x hx hx
  obtain ⟨w1, r1, s1, a1, m1, cx, cy⟩ := Stands.push h x x
  have hfollow := Stands.follow s1 (R := min r (MAXBOUND / 2 / c) / G) (G := G) (m1 _ _ hroom) (by rw [a1.weighting, a1.T, a1.height]; exact hcop)
    (by rw [mul_div_cancel₀ _ hG.ne']) (by
      intro n w2 hrun _ _
      obtain ⟨w3, k1, k2, k3⟩ := hin n
      rw [push_run r1 a1, hrun] at k1
      obtain rfl := Except.ok.inj k1
      exact ⟨k2, k3⟩)
  rw [a1.weighting, a1.T, a1.height, cx, cy] at hfollow
  refine hleave fun r hr => ?_
  obtain ⟨n₀, hn⟩ := hvan r hr
  refine ⟨n₀, fun n hn' => ?_⟩
  obtain ⟨w2, k1, k2, -⟩ := hfollow n
  have := (hn n w2 hn' (by rw [push_run r1 a1]; exact k1)).1
  rwa [k2] at this

/-- **C93.** The robot returns above its feet after every small push exactly when its weights are balanced. -/
theorem C93_returns_iff [Archimedean K] (hull : Vec (Pt K) → Res (Polygon K)) (o : Oracle K) (w : HWalkgen K)
    (h : Spec.StandsOne hull o w) :
    Spec.Returns hull o w ↔ Spec.StandBalanced w.lip.T (w.lip.comHeight / GRAVITY_NORM) w.weighting :=
  ⟨fun hr => by_contra fun hb => C93_unbalanced hull o w h hb hr, C93_returns hull o w h⟩

/-- A robot that returns has a sampling period that is long for the height of its CoM, and a weight on the velocity: neither
follows from the other weights, however large they are. -/
theorem C93_needs [Archimedean K] (hull : Vec (Pt K) → Res (Polygon K)) (o : Oracle K) (w : HWalkgen K)
    (h : Spec.StandsOne hull o w) (hr : Spec.Returns hull o w) :
    6 * w.lip.comHeight < GRAVITY_NORM * w.lip.T ^ 2 ∧ 0 < w.weighting.velocityTracking := by
  have hT : 0 < w.lip.T := lt_of_lt_of_le (by have : (0 : K) < EPS := EPS_pos; linarith) h.period.1
  have hg : (0 : K) < GRAVITY_NORM := by unfold GRAVITY_NORM; norm_num
  obtain ⟨h1, h2, h3⟩ := (C93_returns_iff hull o w h).1 hr
  constructor
  · have e : Spec.copStep w.lip.T (w.lip.comHeight / GRAVITY_NORM)
        = w.lip.T / (6 * GRAVITY_NORM) * (GRAVITY_NORM * w.lip.T ^ 2 - 6 * w.lip.comHeight) := by
      unfold Spec.copStep; field_simp
    rw [e] at h1
    have := (mul_pos_iff_of_pos_left (by positivity)).1 h1
    linarith
  · rcases h.velocity.eq_or_lt with h0 | h0
    · exfalso
      rw [← h0] at h3
      have hj := h.jerk
      have hc := h.centring
      have : 0 < w.weighting.copCentering * Spec.copStep w.lip.T (w.lip.comHeight / GRAVITY_NORM) *
          (w.weighting.jerkMinimization / 20) * w.lip.T ^ 3 := by positivity
      simp only [zero_div, zero_mul, mul_zero] at h3
      linarith
    · exact h0

/-- A simple rule: with a long period, and enough weight on the jerk and on the velocity, the robot returns. -/
theorem C93_rule [Archimedean K] (hull : Vec (Pt K) → Res (Polygon K)) (o : Oracle K) (w : HWalkgen K)
    (h : Spec.StandsOne hull o w) (hh : 0 ≤ w.lip.comHeight) (hp : 6 * w.lip.comHeight < GRAVITY_NORM * w.lip.T ^ 2)
    (hj : 5 * w.weighting.copCentering * w.lip.T ^ 6 < 32 * w.weighting.jerkMinimization)
    (hv : 80 * w.weighting.copCentering * w.weighting.jerkMinimization ≤ 3 * w.weighting.velocityTracking ^ 2 * w.lip.T ^ 2) :
    Spec.Returns hull o w := by
  refine C93_returns hull o w h ?_
  have hT : 0 < w.lip.T := lt_of_lt_of_le (by have : (0 : K) < EPS := EPS_pos; linarith) h.period.1
  have hg : (0 : K) < GRAVITY_NORM := by unfold GRAVITY_NORM; norm_num
  have e : Spec.copStep w.lip.T (w.lip.comHeight / GRAVITY_NORM)
      = w.lip.T / (6 * GRAVITY_NORM) * (GRAVITY_NORM * w.lip.T ^ 2 - 6 * w.lip.comHeight) := by
    unfold Spec.copStep; field_simp
  have hU0 : 0 < Spec.copStep w.lip.T (w.lip.comHeight / GRAVITY_NORM) := by
    rw [e]; exact mul_pos (by positivity) (by linarith)
  have hU1 : Spec.copStep w.lip.T (w.lip.comHeight / GRAVITY_NORM) ≤ w.lip.T ^ 3 / 6 := by
    unfold Spec.copStep
    have : 0 ≤ w.lip.T * (w.lip.comHeight / GRAVITY_NORM) := by positivity
    linarith
  have hj0 := h.jerk
  have hc := h.centring
  have hv0 : 0 < w.weighting.velocityTracking := by
    rcases h.velocity.eq_or_lt with h0 | h0
    · rw [← h0] at hv
      have := mul_pos hc hj0
      nlinarith
    · exact h0
  unfold Spec.StandBalanced
  generalize Spec.copStep w.lip.T (w.lip.comHeight / GRAVITY_NORM) = U at *
  generalize w.weighting.copCentering = c at *
  generalize w.weighting.velocityTracking = v at *
  generalize w.weighting.jerkMinimization = j at *
  generalize w.lip.T = T at *
  refine ⟨hU0, ?_, ?_⟩
  · have h1 : c * U * (T ^ 3 - 4 * U) ≤ c * (T ^ 6 / 16) := by
      rw [mul_assoc]
      refine mul_le_mul_of_nonneg_left ?_ hc.le
      nlinarith [sq_nonneg (T ^ 3 - 8 * U)]
    linarith
  · have h1 : c * U * (j / 20) * T ^ 3 ≤ c * (T ^ 3 / 6) * (j / 20) * T ^ 3 := by gcongr
    have h2 : 80 * c * j * T ^ 6 ≤ 3 * v ^ 2 * T ^ 2 * T ^ 6 := mul_le_mul_of_nonneg_right hv (by positivity)
    have h3 : 0 < v / 20 * (T ^ 4 / 4) * (c * U ^ 2) := by positivity
    have h4 : c * (T ^ 3 / 6) * (j / 20) * T ^ 3 = 80 * c * j * T ^ 6 / 9600 := by ring
    have h5 : 2 * (v / 20 * (T ^ 4 / 4)) * (c * U ^ 2 + v / 20 * (T ^ 4 / 4))
        = 2 * (v / 20 * (T ^ 4 / 4) * (c * U ^ 2)) + 3 * v ^ 2 * T ^ 2 * T ^ 6 / 9600 := by ring
    rw [h5]
    linarith

/-! ### Robots that stand -/

/-- The CoP has room in the rectangle, in which the constraint has no row. -/
theorem demoRect_room {w : HWalkgen ℚ} (hX : ∀ i < 2, w.X.get i = 0) : ∃ r c, Spec.CopRoom (fun _ => .ok demoRect) w r c := by
  refine ⟨1, 1, one_pos, le_rfl, fun _ q g _ hg p hx hy => ?_, fun _ q g _ hg k hk => ?_, ?_⟩
  · obtain rfl := Except.ok.inj hg
    have h1 := abs_le.1 hx
    have h2 := abs_le.1 hy
    refine ⟨?_, ?_, h2.1, h2.2, fun r hr => absurd hr (by simp [demoRect, Polygon.nbGeneral])⟩
    · show (-2 : ℚ) ≤ p.x
      linarith
    · show p.x ≤ (2 : ℚ)
      linarith
  · obtain rfl := Except.ok.inj hg
    exact absurd hk (by simp [demoRect, Polygon.nbGeneral])
  · rw [hX 0 (by omega), hX 1 (by omega)]; norm_num [MAXBOUND]

set_option maxRecDepth 100000 in
theorem stand_cop_check : okAnd (standCheck 1 ⟨10, 1, 1⟩ true 1) (standStart 1 ⟨10, 1, 1⟩ true 1) = true := by
  decide +kernel

/-- The hypotheses of `C93_returns` and `C93_rule` are met, the CoP being constrained. -/
example : ∃ w : HWalkgen ℚ, Spec.StandsOne (fun _ => .ok demoRect) restOracle w ∧ w.withCop = true ∧ 0 ≤ w.lip.comHeight ∧
    6 * w.lip.comHeight < GRAVITY_NORM * w.lip.T ^ 2 ∧
    5 * w.weighting.copCentering * w.lip.T ^ 6 < 32 * w.weighting.jerkMinimization ∧
    80 * w.weighting.copCentering * w.weighting.jerkMinimization ≤ 3 * w.weighting.velocityTracking ^ 2 * w.lip.T ^ 2 ∧
    Spec.StandBalanced w.lip.T (w.lip.comHeight / GRAVITY_NORM) w.weighting ∧ Spec.Returns (fun _ => .ok demoRect) restOracle w := by
  obtain ⟨w, h, hN, hT, hh, hwg, hv, hcop, hcalls, hX, hx, hy⟩ := stands_of_check stand_cop_check (by norm_num [EPS])
    (by norm_num [GRAVITY_NORM])
  have hs : Spec.StandsOne (fun _ => .ok demoRect) restOracle w :=
    ⟨h, hN, by rw [hT]; norm_num [EPS], by rw [hh]; norm_num, by rw [hwg]; norm_num, by rw [hwg]; norm_num, by rw [hwg]; norm_num, hv,
      fun n qp it hn => restOracle_finds n qp it (by omega), demoRect_room hX⟩
  have hb : Spec.StandBalanced w.lip.T (w.lip.comHeight / GRAVITY_NORM) w.weighting := by
    rw [hT, hh, hwg]; norm_num [Spec.StandBalanced, Spec.copStep, GRAVITY_NORM]
  exact ⟨w, hs, hcop, by rw [hh]; norm_num, by rw [hh, hT]; norm_num [GRAVITY_NORM], by rw [hwg, hT]; norm_num, by rw [hwg, hT]; norm_num, hb,
    C93_returns _ _ w hs hb⟩

set_option maxRecDepth 100000 in
theorem stand_light_check : okAnd (standCheck 1 ⟨1, 1, 1⟩ false 0) (standStart 1 ⟨1, 1, 1⟩ false 0) = true := by
  decide +kernel

/-- The hypotheses of `C93_unbalanced` are met although the period is long: the velocity has too little weight. -/
theorem C93_light_witness : ∃ w : HWalkgen ℚ, Spec.StandsOne (fun _ => .ok demoRect) restOracle w ∧ w.weighting = ⟨1, 1, 1⟩ ∧
    6 * w.lip.comHeight < GRAVITY_NORM * w.lip.T ^ 2 ∧ Spec.comX w = ⟨0, 0, 0⟩ ∧ Spec.comY w = ⟨0, 0, 0⟩ ∧
    ¬ Spec.Returns (fun _ => .ok demoRect) restOracle w := by
  obtain ⟨w, h, hN, hT, hh, hwg, hv, hcop, hcalls, hX, hx, hy⟩ := stands_of_check stand_light_check (by norm_num [EPS])
    (by norm_num [GRAVITY_NORM])
  have hs : Spec.StandsOne (fun _ => .ok demoRect) restOracle w :=
    ⟨h, hN, by rw [hT]; norm_num [EPS], by rw [hh]; norm_num, by rw [hwg]; norm_num, by rw [hwg]; norm_num, by rw [hwg]; norm_num, hv,
      fun n qp it hn => restOracle_finds n qp it (by omega), demoRect_room hX⟩
  refine ⟨w, hs, hwg, by rw [hh, hT]; norm_num [GRAVITY_NORM], hx, hy, C93_unbalanced _ _ w hs ?_⟩
  rw [hT, hh, hwg]
  norm_num [Spec.StandBalanced, Spec.copStep, GRAVITY_NORM]

end MPC
