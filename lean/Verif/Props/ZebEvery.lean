import Verif.Lemmas.ZebEvery

/-!
# C95: with one sample, when a wheeled robot settles

The base settles at its position reference, or the CoM above the base, exactly when the weights are balanced for the period of
the calls of `solve`.
-/

set_option linter.unusedSectionVars false

namespace MPC
open Finset Filter Topology

variable {T fb wv wp wc wj px py : ℝ} {s : Spec.ZebSettings ℝ}

/-! ### The base -/

theorem base_cost (hs : s.TracksBase T wv wp wj px py) (hv : 0 ≤ wv) (hp : 0 ≤ wp) (hj : 0 ≤ wj) (k : ℝ × ℝ) (z : Spec.ZebState ℝ)
    (X : ℕ → ℝ) : s.totalCost k 0 0 z X = 1 / 2 * (oneCost T px ⟨wv, wp, wj⟩ z.bx (X 2) + oneCost T py ⟨wv, wp, wj⟩ z.by_ (X 3)
      + wj * (X 0 ^ 2 + X 1 ^ 2)) := by
  obtain ⟨⟨h1, h2, -⟩, h3, ⟨h4, h5⟩, ⟨h6, h7⟩, -, -⟩ := hs
  unfold Spec.ZebSettings.totalCost
  rw [h3]
  simp only [max_self, max_eq_left hv, max_eq_left hp, max_eq_left hj, Spec.ZebSettings.velCost, Spec.ZebSettings.posCost,
    Spec.ZebSettings.jerkCost, Spec.ZebSettings.baseX, Spec.ZebSettings.baseY, h1, h2, sum_range_succ, sum_range_zero,
    Spec.jerkTrajectory, Spec.cubic, Spec.jerkBX, Spec.jerkBY, h4, h5, h6, h7, oneCost]
  ring

/-- Velocity and acceleration after `T` near the reference. -/
theorem near_after {T G e pr j : ℝ} {x : State3 ℝ} (hT : 0 < T) (hn : Spec.NearRest pr e x) (hj : |j| ≤ G * e) :
    |(Spec.cubic x j T).p - pr| ≤ (1 + T + T ^ 2 / 2 + T ^ 3 / 6 * G) * e ∧
    |(Spec.cubic x j T).v| ≤ (1 + T + T ^ 2 / 2 * G) * e ∧ |(Spec.cubic x j T).a| ≤ (1 + T * G) * e := by
  obtain ⟨n1, n2, n3⟩ := hn
  have m : ∀ {a b c : ℝ}, 0 ≤ a → |b| ≤ c → |a * b| ≤ a * c := fun ha hb => by
    rw [abs_mul, abs_of_nonneg ha]; exact mul_le_mul_of_nonneg_left hb ha
  have hv := m hT.le n2
  have ha1 := m hT.le n3
  have ha2 := m (by positivity : 0 ≤ T ^ 2 / 2) n3
  have hj1 := m hT.le hj
  have hj2 := m (by positivity : 0 ≤ T ^ 2 / 2) hj
  have hj3 := m (by positivity : 0 ≤ T ^ 3 / 6) hj
  rw [abs_le] at hv ha1 ha2 hj1 hj2 hj3 n1 n2 n3
  simp only [Spec.cubic]
  refine ⟨?_, ?_, ?_⟩ <;> rw [abs_le] <;> constructor <;> linarith

/-- Each call of `solve` near the reference applies the feedback to the base. -/
theorem base_feeds (hs : s.TracksBase T wv wp wj px py) (hT : 0 < T) (hfb : 0 < fb) (hv : 0 ≤ wv) (hp : 0 ≤ wp) (hj : 0 < wj) :
    ∃ R > 0, Feeds fb s Set.univ Spec.ZebState.base px py T ⟨wv, wp, wj⟩ R (MAXBOUND / 2) := by
  set G := 6 / T ^ 3 + 8 / T ^ 2 + 5 / T with hG'
  have hG0 : 0 ≤ G := by positivity
  have hM0 : (0 : ℝ) < MAXBOUND / 2 := by norm_num [MAXBOUND]
  obtain ⟨R, hR, hRM, hRl⟩ : ∃ R > 0, (∀ e ≤ R, G * e ≤ MAXBOUND / 2) ∧ (s.config.base = true → ∀ e ≤ R,
      (1 + T + T ^ 2 / 2 * G) * e ≤ s.velLimit ∧ (1 + T * G) * e ≤ s.accLimit ∧ G * e ≤ s.jerkLimit) := by
    obtain ⟨r0, p0, b0⟩ := small_radius hG0 hM0
    by_cases hb : s.config.base = true
    · obtain ⟨l1, l2, l3⟩ := hs.limits hb
      obtain ⟨r1, p1, b1⟩ := small_radius (by positivity : 0 ≤ 1 + T + T ^ 2 / 2 * G) l1
      obtain ⟨r2, p2, b2⟩ := small_radius (by positivity : 0 ≤ 1 + T * G) l2
      obtain ⟨r3, p3, b3⟩ := small_radius hG0 l3
      refine ⟨min (min r0 r1) (min r2 r3), by positivity, fun e he => ?_, fun _ e he => ?_⟩
      · simp only [le_min_iff] at he
        exact b0 e he.1.1
      · simp only [le_min_iff] at he
        exact ⟨b1 e he.1.2, b2 e he.2.1, b3 e he.2.2⟩
    · exact ⟨r0, p0, b0, fun h => absurd h hb⟩
  refine ⟨R, hR, ?_⟩
  intro o tr cx cy cs w e ho hw he _ hX heR hnx hny
  have hG := hRM e heR
  set wt : TrajWeighting ℝ := ⟨wv, wp, wj⟩ with hwt
  have hN : s.nbSamples = 1 := hs.samples
  set jx := oneJerk T px wt w.state.bx with hjx
  set jy := oneJerk T py wt w.state.by_ with hjy
  have jx' : |jx| ≤ G * e := oneJerk_bound (wt := wt) hT hv hp hj hnx
  have jy' : |jy| ≤ G * e := oneJerk_bound (wt := wt) hT hv hp hj hny
  have bx : |jx| ≤ MAXBOUND / 2 := jx'.trans hG
  have by_ : |jy| ≤ MAXBOUND / 2 := jy'.trans hG
  have hM : (0 : ℝ) ≤ MAXBOUND / 2 := by norm_num [MAXBOUND]
  set J : ℕ → ℝ := fun i => if i = 2 then jx else if i = 3 then jy else 0 with hJ
  have bJ : ∀ i < 4 * s.nbSamples, |J i| ≤ MAXBOUND / 2 := by
    intro i _
    simp only [hJ]
    split_ifs
    · exact bx
    · exact by_
    · rw [abs_zero]; exact hM
  obtain ⟨w', r, st, x⟩ := zSolve_allowed (fb := fb) ho hw (by rw [he]; exact hs.refs) (by rw [he, hs.weights]; exact hj)
    (by rw [he, hs.weights]) (by rw [he, hs.weights]) J
    (fun J' => by
      rw [he, base_cost hs hv hp hj.le, base_cost hs hv hp hj.le]
      have a1 := oneCost_min (pr := px) (wt := wt) hT hv hp hj w.state.bx (J' 2)
      have a2 := oneCost_min (pr := py) (wt := wt) hT hv hp hj w.state.by_ (J' 3)
      have a3 : 0 ≤ wj * (J' 0 ^ 2 + J' 1 ^ 2) := by positivity
      have e0 : J 0 = 0 := rfl
      have e1 : J 1 = 0 := rfl
      have e2 : J 2 = jx := rfl
      have e3 : J 3 = jy := rfl
      rw [e0, e1, e2, e3]
      linarith) (fun c n => by
      rw [he]
      obtain ⟨c1, c2, c3⟩ := hs.config
      refine ⟨by rw [c1]; simp, fun hb i hi => ?_, by rw [c2]; simp, by rw [c3]; simp, fun i hi _ => ?_⟩
      · obtain rfl : i = 0 := by omega
        obtain ⟨l1, l2, l3⟩ := hRl hb e heR
        obtain ⟨-, x1, x2⟩ := near_after hT hnx jx'
        obtain ⟨-, y1, y2⟩ := near_after hT hny jy'
        simp only [Spec.ZebSettings.baseX, Spec.ZebSettings.baseY, Spec.jerkTrajectory, Spec.jerkBX, Spec.jerkBY, hN, hs.period]
        exact ⟨x1.trans l1, y1.trans l1, x2.trans l2, y2.trans l2, jx'.trans l3, jy'.trans l3⟩
      · have := abs_sub (J i) (w.X.get i)
        have := hX i hi; have := bJ i hi
        linarith) hfb
  rw [he] at st x
  refine ⟨w', r, fun i hi => by rw [x i hi]; exact bJ i hi, ?_, ?_⟩
  · rw [st, hN]; rfl
  · rw [st, hN]; rfl

/-- **C95 (base).** With one sample, without constraints or with positive limits of the base, and with only base and jerks weighted, the
base settles at its position reference exactly when the weights are balanced for the period of the calls. -/
theorem C95_base_iff (hs : s.TracksBase T wv wp wj px py) {k : ℝ × ℝ} (hc : Spec.Configured s k) (hT : 0 < T) (hfb : 0 < fb)
    (hv : 0 ≤ wv) (hp : 0 < wp) (hj : 0 < wj) :
    Spec.ZebSettlesEvery fb s Set.univ Spec.ZebState.base px py ↔ Spec.BalancedEvery fb T ⟨wv, wp, wj⟩ := by
  obtain ⟨R, hR, hf⟩ := base_feeds hs hT hfb hv hp.le hj
  have hM0 : (0 : ℝ) < MAXBOUND / 2 := by norm_num [MAXBOUND]
  refine ⟨fun h => by_contra fun hb => ?_, feeds_settles hT hfb hv hp hj hR hM0 hf⟩
  exact feeds_unsettled hT hfb hv hp hj hR hM0 hf (Set.mem_univ k) hc
    (fun x y => ⟨⟨x, y, x, y⟩, rfl⟩) hb h

/-- **C95 (base, once per period).** Called once per sampling period, the base settles only if its velocity is tracked. -/
theorem C95_base_velocity (hs : s.TracksBase T 0 wp wj px py) {k : ℝ × ℝ} (hc : Spec.Configured s k) (hT : 0 < T)
    (hp : 0 < wp) (hj : 0 < wj) : ¬ Spec.ZebSettlesEvery T s Set.univ Spec.ZebState.base px py := by
  rw [C95_base_iff hs hc hT hT le_rfl hp hj]
  intro hb
  have := ((balancedEvery_period (wt := ⟨0, wp, wj⟩) hT le_rfl hp).1 hb).2
  simp only [zero_mul, zero_div] at this
  have h : 0 < 3 * (wp * T ^ 6 / 36) * wj := by positivity
  linarith

/-! ### The CoM above the base -/

theorem comFirst_period (hT : EPS < T) : Spec.comFirst T = T := by
  have hT0 : 0 < T := lt_trans (by norm_num [EPS]) hT
  have : (⌊(T + EPS) / T⌋ : ℤ) = 1 := by
    rw [Int.floor_eq_iff]
    push_cast
    constructor
    · rw [le_div_iff₀ hT0]; have : (0 : ℝ) < EPS := by norm_num [EPS]
      linarith
    · rw [div_lt_iff₀ hT0]; linarith
  unfold Spec.comFirst
  rw [this]; norm_num

theorem centre_cost {k : ℝ × ℝ} (hs : s.Centres T wc wj k) (hT : EPS < T) (hp : 0 ≤ wc) (hj : 0 ≤ wj) (z : Spec.ZebState ℝ) (X : ℕ → ℝ) :
    s.totalCost k 0 0 z X = 1 / 2 * (oneCost T (s.comRef.get 0 + k.1) ⟨0, wc, wj / 2⟩ z.between.1 (X 0 - X 2)
      + oneCost T (s.comRef.get 1 + k.2) ⟨0, wc, wj / 2⟩ z.between.2 (X 1 - X 3)
      + wj / 2 * ((X 0 + X 2) ^ 2 + (X 1 + X 3) ^ 2)) := by
  obtain ⟨⟨h1, h2, -⟩, h3, -, -⟩ := hs
  unfold Spec.ZebSettings.totalCost
  rw [h3]
  simp only [max_self, max_eq_left hp, max_eq_left hj, Spec.ZebSettings.comCost, Spec.ZebSettings.comRelX, Spec.ZebSettings.comRelY,
    Spec.ZebSettings.comX, Spec.ZebSettings.comY, Spec.ZebSettings.jerkCost, Spec.ZebSettings.baseX, Spec.ZebSettings.baseY, h1, h2,
    sum_range_succ, sum_range_zero, comFirst_period hT, Spec.jerkTrajectory, Spec.cubic, Spec.jerkBX, Spec.jerkBY, Spec.jerkCX,
    Spec.jerkCY, oneCost, Spec.ZebState.between]
  ring

/-- Each call of `solve` near the reference applies the feedback to the position of the CoM above the base, half of it by the CoM and
half of it by the base. -/
theorem centre_feeds {k : ℝ × ℝ} (hs : s.Centres T wc wj k) (hT : EPS < T) (hfb : 0 < fb) (hp : 0 ≤ wc) (hj : 0 < wj) :
    ∃ R > 0, ∃ B > 0, Feeds fb s {k} Spec.ZebState.between (s.comRef.get 0 + k.1) (s.comRef.get 1 + k.2) T ⟨0, wc, wj / 2⟩ R B := by
  have hT0 : 0 < T := lt_trans (by norm_num [EPS]) hT
  set G := 6 / T ^ 3 + 8 / T ^ 2 + 5 / T with hG'
  have hG0 : 0 ≤ G := by positivity
  have hM : (0 : ℝ) < MAXBOUND := by norm_num [MAXBOUND]
  set P := s.comPolygon with hP
  set E : ℕ → ℝ := fun i => |(P.get ((i + 1) % P.size)).y - (P.get i).y| + |(P.get ((i + 1) % P.size)).x - (P.get i).x| with hE
  set L := ∑ i ∈ range P.size, E i with hL
  have hE0 : ∀ i, 0 ≤ E i := fun i => by positivity
  have hL0 : 0 ≤ L := sum_nonneg fun i _ => hE0 i
  have hEL : ∀ i < P.size, E i ≤ L := fun i hi => single_le_sum (fun i _ => hE0 i) (mem_range.2 hi)
  obtain ⟨B, hB, hBM, hBL⟩ : ∃ B > 0, B ≤ MAXBOUND / 2 ∧ L * T ^ 3 * B ≤ MAXBOUND := by
    obtain ⟨r, p, b⟩ := small_radius (by positivity : 0 ≤ L * T ^ 3) hM
    exact ⟨min (MAXBOUND / 2) r, lt_min (half_pos hM) p, min_le_left _ _, b _ (min_le_right _ _)⟩
  obtain ⟨R, hR, hRB, hRr⟩ : ∃ R > 0, (∀ e ≤ R, G * e ≤ B) ∧ (s.config.com = true → ∀ p : Pt ℝ,
      |p.x - (s.comRef.get 0 + k.1)| ≤ (1 + T + T ^ 2 / 2 + T ^ 3 / 6 * G) * R →
      |p.y - (s.comRef.get 1 + k.2)| ≤ (1 + T + T ^ 2 / 2 + T ^ 3 / 6 * G) * R → Spec.InPolygon P (Spec.Pt.reflect p)) := by
    obtain ⟨r0, p0, b0⟩ := small_radius hG0 hB
    by_cases hb : s.config.com = true
    · obtain ⟨r, hr, hin⟩ := hs.room hb
      obtain ⟨r1, p1, b1⟩ := small_radius (by positivity : 0 ≤ 1 + T + T ^ 2 / 2 + T ^ 3 / 6 * G) hr
      have := b1 _ (min_le_right r0 r1)
      exact ⟨min r0 r1, lt_min p0 p1, fun e he => b0 e (he.trans (min_le_left _ _)), fun _ p hx hy =>
        hin p (hx.trans this) (hy.trans this)⟩
    · exact ⟨r0, p0, b0, fun h => absurd h hb⟩
  refine ⟨R, hR, B, hB, ?_⟩
  intro o tr cx cy cs w e ho hw he hk hX heR hnx hny
  have hG := hRB e heR
  set wt : TrajWeighting ℝ := ⟨0, wc, wj / 2⟩ with hwt
  have hN : s.nbSamples = 1 := hs.samples
  set px := s.comRef.get 0 + k.1
  set py := s.comRef.get 1 + k.2
  have hj' : 0 < wt.jerkMinimization := half_pos hj
  set jx := oneJerk T px wt w.state.between.1 with hjx
  set jy := oneJerk T py wt w.state.between.2 with hjy
  have jx' : |jx| ≤ G * e := oneJerk_bound (wt := wt) hT0 le_rfl hp hj' hnx
  have jy' : |jy| ≤ G * e := oneJerk_bound (wt := wt) hT0 le_rfl hp hj' hny
  have bx : |jx| ≤ B := jx'.trans hG
  have by_ : |jy| ≤ B := jy'.trans hG
  set J : ℕ → ℝ := fun i => if i = 0 then jx / 2 else if i = 1 then jy / 2 else if i = 2 then -(jx / 2) else -(jy / 2) with hJ
  have half : ∀ {a : ℝ}, |a| ≤ B → |a / 2| ≤ B := by
    intro a ha
    rw [abs_div, abs_two]
    linarith [abs_nonneg a]
  have bJ : ∀ i < 4 * s.nbSamples, |J i| ≤ B := by
    intro i _
    simp only [hJ]
    split_ifs <;> try rw [abs_neg]
    · exact half bx
    · exact half by_
    · exact half bx
    · exact half by_
  obtain ⟨w', r, st, x⟩ := zSolve_allowed (fb := fb) ho hw (by rw [he]; exact hs.refs) (by rw [he, hs.weights]; exact hj)
    (by rw [he, hs.weights]) (by rw [he, hs.weights]) J
    (fun J' => by
      rw [he, hk, centre_cost hs hT hp hj.le, centre_cost hs hT hp hj.le]
      have a1 := oneCost_min (pr := px) (wt := wt) hT0 le_rfl hp hj' w.state.between.1 (J' 0 - J' 2)
      have a2 := oneCost_min (pr := py) (wt := wt) hT0 le_rfl hp hj' w.state.between.2 (J' 1 - J' 3)
      have a3 : 0 ≤ wj / 2 * ((J' 0 + J' 2) ^ 2 + (J' 1 + J' 3) ^ 2) := by positivity
      have e0 : J 0 = jx / 2 := rfl
      have e1 : J 1 = jy / 2 := rfl
      have e2 : J 2 = -(jx / 2) := rfl
      have e3 : J 3 = -(jy / 2) := rfl
      rw [e0, e1, e2, e3, show jx / 2 - -(jx / 2) = jx by ring, show jy / 2 - -(jy / 2) = jy by ring, add_neg_cancel, add_neg_cancel]
      linarith) (fun c n => by
      rw [he]
      obtain ⟨c1, c2, c3⟩ := hs.config
      have move : ∀ i < 4 * s.nbSamples, |J i - w.X.get i| ≤ 2 * B := fun i hi => by
        have := abs_sub (J i) (w.X.get i)
        have := hX i hi; have := bJ i hi
        linarith
      refine ⟨by rw [c1]; simp, by rw [c2]; simp, fun hb q hq i hi => ?_, by rw [c3]; simp, fun i hi _ => (move i hi).trans (by linarith)⟩
      obtain rfl : i = 0 := by omega
      have rel : ∀ X : ℕ → ℝ, s.comRel w.state X 0
          = ⟨(Spec.cubic w.state.between.1 (X 0 - X 2) T).p, (Spec.cubic w.state.between.2 (X 1 - X 3) T).p⟩ := by
        intro X
        simp only [Spec.ZebSettings.comRel, Spec.ZebSettings.comRelX, Spec.ZebSettings.comRelY, Spec.ZebSettings.comX,
          Spec.ZebSettings.comY, Spec.ZebSettings.baseX, Spec.ZebSettings.baseY, Spec.jerkTrajectory, Spec.jerkBX, Spec.jerkBY,
          Spec.jerkCX, Spec.jerkCY, hN, hs.period, comFirst_period hT, Spec.cubic, Spec.ZebState.between, Pt.mk.injEq]
        constructor <;> ring_nf
      rw [rel, rel]
      constructor
      · refine hRr hb _ ?_ ?_ q hq
        · have e0 : J 0 - J 2 = jx := by simp only [hJ]; norm_num
          rw [e0]
          exact (near_after hT0 hnx jx').1.trans (mul_le_mul_of_nonneg_left heR (by positivity))
        · have e0 : J 1 - J 3 = jy := by simp only [hJ]; norm_num
          rw [e0]
          exact (near_after hT0 hny jy').1.trans (mul_le_mul_of_nonneg_left heR (by positivity))
      · have m0 := move 0 (by omega)
        have m1 := move 1 (by omega)
        have m2 := move 2 (by omega)
        have m3 := move 3 (by omega)
        have hEq := hEL q hq
        simp only [Spec.sideOf, Spec.cubic]
        set u := (P.get ((q + 1) % P.size)).y - (P.get q).y with hu
        set v := (P.get ((q + 1) % P.size)).x - (P.get q).x with hv
        set a := (J 0 - w.X.get 0) - (J 2 - w.X.get 2) with ha
        set b := (J 1 - w.X.get 1) - (J 3 - w.X.get 3) with hb'
        have ab : |a| ≤ 4 * B := (abs_sub _ _).trans (by linarith)
        have bb : |b| ≤ 4 * B := (abs_sub _ _).trans (by linarith)
        have hT3 : 0 < T ^ 3 := by positivity
        have hsum : |u * a - v * b| ≤ L * (4 * B) := by
          have k1 := abs_sub (u * a) (v * b)
          rw [abs_mul, abs_mul] at k1
          have k2 := mul_le_mul_of_nonneg_left ab (abs_nonneg u)
          have k3 := mul_le_mul_of_nonneg_left bb (abs_nonneg v)
          have k4 : (|u| + |v|) * (4 * B) ≤ L * (4 * B) := mul_le_mul_of_nonneg_right hEq (by positivity)
          linarith
        have k5 := mul_le_mul_of_nonneg_right ((le_abs_self _).trans hsum) hT3.le
        have k6 : 0 ≤ L * T ^ 3 * B := by positivity
        have k7 : (u * a - v * b) * T ^ 3 / 6 ≤ MAXBOUND := by linarith
        refine le_trans (le_of_eq ?_) k7
        rw [ha, hb']
        ring) hfb
  rw [he, hN] at st
  rw [he] at x
  refine ⟨w', r, fun i hi => by rw [x i hi]; exact bJ i hi, ?_, ?_⟩
  · rw [st]
    change _ = Spec.cubic w.state.between.1 jx fb
    have e0 : J 0 = jx / 2 := rfl
    have e2 : J (2 * 1) = -(jx / 2) := rfl
    rw [e0, e2]
    simp only [Spec.ZebState.driven, Spec.ZebState.between, Spec.cubic, State3.mk.injEq]
    refine ⟨by ring, by ring, by ring⟩
  · rw [st]
    change _ = Spec.cubic w.state.between.2 jy fb
    have e1 : J 1 = jy / 2 := rfl
    have e3 : J (3 * 1) = -(jy / 2) := rfl
    rw [e1, e3]
    simp only [Spec.ZebState.driven, Spec.ZebState.between, Spec.cubic, State3.mk.injEq]
    refine ⟨by ring, by ring, by ring⟩

/-- **C95 (CoM).** With one sample, without constraints or with a CoM constraint that leaves room around the reference, and with only CoM
centering and jerks weighted, the CoM settles at its reference above the base exactly when the weights, with half of that of the jerks, are balanced for the period of the calls. -/
theorem C95_centre_iff {k : ℝ × ℝ} (hs : s.Centres T wc wj k) (hc : Spec.Configured s k) (hT : EPS < T) (hfb : 0 < fb)
    (hp : 0 < wc) (hj : 0 < wj) :
    Spec.ZebSettlesEvery fb s {k} Spec.ZebState.between (s.comRef.get 0 + k.1) (s.comRef.get 1 + k.2) ↔
      Spec.BalancedEvery fb T ⟨0, wc, wj / 2⟩ := by
  have hT0 : 0 < T := lt_trans (by norm_num [EPS]) hT
  have hj' : 0 < wj / 2 := half_pos hj
  obtain ⟨R, hR, B, hB, hf⟩ := centre_feeds hs hT hfb hp.le hj
  refine ⟨fun h => by_contra fun hb => ?_, feeds_settles hT0 hfb le_rfl hp hj' hR hB hf⟩
  refine feeds_unsettled hT0 hfb le_rfl hp hj' hR hB hf (Set.mem_singleton k) hc (fun x y => ?_) hb h
  exact ⟨⟨x, y, ⟨0, 0, 0⟩, ⟨0, 0, 0⟩⟩, by simp [Spec.ZebState.between]⟩

/-- **C95 (CoM, once per period).** Called once per sampling period, CoM centering never settles, whatever the weights. -/
theorem C95_centre_violated {k : ℝ × ℝ} (hs : s.Centres T wc wj k) (hc : Spec.Configured s k) (hT : EPS < T) (hp : 0 < wc) (hj : 0 < wj) :
    ¬ Spec.ZebSettlesEvery T s {k} Spec.ZebState.between (s.comRef.get 0 + k.1) (s.comRef.get 1 + k.2) := by
  have hT0 : 0 < T := lt_trans (by norm_num [EPS]) hT
  rw [C95_centre_iff hs hc hT hT0 hp hj]
  intro hb
  have := ((balancedEvery_period (wt := ⟨0, wc, wj / 2⟩) hT0 le_rfl hp).1 hb).2
  simp only [zero_mul, zero_div] at this
  have h : 0 < 3 * (wc * T ^ 6 / 36) * (wj / 2) := by positivity
  linarith

/-- **C95 (CoM, fast calls).** If `wj / 2 < 2 wc T⁶ / 36`, the CoM settles as soon as `solve` is called often enough; otherwise it does not
settle, however often `solve` is called within a sampling period. -/
theorem C95_centre_fast {k : ℝ × ℝ} (hs : s.Centres T wc wj k) (hc : Spec.Configured s k) (hT : EPS < T) (hp : 0 < wc) (hj : 0 < wj) :
    (∃ f > 0, ∀ fb, 0 < fb → fb ≤ f →
      Spec.ZebSettlesEvery fb s {k} Spec.ZebState.between (s.comRef.get 0 + k.1) (s.comRef.get 1 + k.2)) ↔ wj / 2 < 2 * (wc * T ^ 6 / 36) := by
  have hT0 : 0 < T := lt_trans (by norm_num [EPS]) hT
  have hX : 0 < wc * T ^ 6 / 36 := by positivity
  have key : ∀ fb > 0, Spec.ZebSettlesEvery fb s {k} Spec.ZebState.between (s.comRef.get 0 + k.1) (s.comRef.get 1 + k.2) ↔
      3 * (wc * T ^ 6 / 36) * (fb / T) < 6 * (wc * T ^ 6 / 36) ∧
      2 * (3 * (wc * T ^ 6 / 36)) * (fb / T) < 4 * (wc * T ^ 6 / 36 + wj / 2) + wc * T ^ 6 / 36 * (fb / T) ^ 3 ∧
      3 * (wc * T ^ 6 / 36) * (wc * T ^ 6 / 36 + wj / 2) < 3 * (wc * T ^ 6 / 36) *
        (3 * (wc * T ^ 6 / 36) - 3 * (wc * T ^ 6 / 36) * (fb / T) + wc * T ^ 6 / 36 * (fb / T) ^ 2) := by
    intro fb hfb
    rw [C95_centre_iff hs hc hT hfb hp hj]
    unfold Spec.BalancedEvery
    simp only [zero_mul, zero_div, mul_zero, add_zero]
  generalize wc * T ^ 6 / 36 = X at *
  constructor
  · rintro ⟨f, hf, h⟩
    set fb := min f T with hfb
    have f0 : 0 < fb := lt_min hf hT0
    have h3 := ((key fb f0).1 (h fb f0 (min_le_left _ _))).2.2
    have s0 : 0 < fb / T := by positivity
    have s1 : fb / T ≤ 1 := (div_le_one hT0).2 (min_le_right _ _)
    generalize fb / T = u at *
    have h4 := lt_of_mul_lt_mul_left h3 (by positivity)
    nlinarith [mul_pos hX s0, mul_nonneg (mul_pos hX s0).le (by linarith : 0 ≤ 3 - u)]
  · intro h
    set g := 2 * X - wj / 2 with hg
    have g0 : 0 < g := by rw [hg]; linarith
    refine ⟨T * min (1 / 2) (g / (6 * X)), by positivity, fun fb f0 hle => (key fb f0).2 ?_⟩
    have s0 : 0 < fb / T := by positivity
    have s1 : fb / T ≤ min (1 / 2) (g / (6 * X)) := by rw [div_le_iff₀ hT0, mul_comm]; exact hle
    have s2 := s1.trans (min_le_left _ _)
    have s3 := s1.trans (min_le_right _ _)
    generalize fb / T = u at *
    rw [le_div_iff₀ (by positivity)] at s3
    refine ⟨by nlinarith, ?_, ?_⟩
    · have : 0 < X * u ^ 3 := by positivity
      nlinarith
    · refine mul_lt_mul_of_pos_left ?_ (by positivity)
      have : 0 < X * u ^ 2 := by positivity
      linarith

/-! ### Cases -/

/-- A square around the origin. -/
def zSquare : Vec (Pt ℝ) := ⟨4, fun i => if i = 0 then ⟨-1, -1⟩ else if i = 1 then ⟨1, -1⟩ else if i = 2 then ⟨1, 1⟩ else ⟨-1, 1⟩⟩

theorem zSquare_inside {p : Pt ℝ} (hx : |p.x| ≤ 1) (hy : |p.y| ≤ 1) : Spec.InPolygon zSquare (Spec.Pt.reflect p) := by
  have h1 := abs_le.1 hx
  have h2 := abs_le.1 hy
  intro i hi
  have hi : i < 4 := hi
  interval_cases i <;> norm_num [zSquare, Spec.InnerSide, Spec.Pt.reflect] <;> linarith

/-- Calls for one sample of one second, with the square as CoM polygon and the constraints `c`. -/
def zOneCalls (w : ZWeighting ℝ) (c : ZConfig) : List (ZebCall ℝ) :=
  [.setWeightings w, .setPosRef (Vec.const 2 2), .setComPolygon zSquare, .setConfig c]

theorem zOne_configured {w : ZWeighting ℝ} {c : ZConfig} (h : 0 ≤ w.copCentering ∧ 0 ≤ w.comCentering ∧ 0 ≤ w.velocityTracking ∧
    0 ≤ w.jerkMinimization ∧ 0 ≤ w.tiltMinimization) : Spec.Configured (zebSettingsOf 0 0 (zOneCalls w c)) (0, 0) :=
  ⟨0, 0, zOneCalls w c, ⟨h, rfl, by simp [Spec.ZebSettings.Pre, zSquare], trivial, trivial⟩, fun fb => by simp [zOneCalls], rfl, rfl⟩

/-- **C95 (cases).** With and without constraints: a base that never comes to rest with one call per period does with velocity tracked. A CoM
that never comes to rest above the base with one call per period does with ten. -/
theorem C95_cases (b : Bool) : let base := fun wv => zebSettingsOf 0 0 (zOneCalls ⟨wv, 36, 0, 0, 10, 0, 0⟩ ⟨false, false, b, false⟩)
    let com := zebSettingsOf 0 0 (zOneCalls ⟨0, 0, 0, 36, 1, 0, 0⟩ ⟨false, b, false, false⟩)
    ¬ Spec.ZebSettlesEvery 1 (base 0) Set.univ Spec.ZebState.base 2 2 ∧ Spec.ZebSettlesEvery 1 (base 24) Set.univ Spec.ZebState.base 2 2 ∧
    ¬ Spec.ZebSettlesEvery 1 com {(0, 0)} Spec.ZebState.between 0 0 ∧ Spec.ZebSettlesEvery (1 / 10) com {(0, 0)} Spec.ZebState.between 0 0 := by
  have hb : ∀ wv : ℝ, (zebSettingsOf 0 0 (zOneCalls ⟨wv, 36, 0, 0, 10, 0, 0⟩ ⟨false, false, b, false⟩)).TracksBase 1 wv 36 10 2 2 :=
    fun wv => ⟨⟨rfl, rfl, rfl, rfl, rfl⟩, rfl, ⟨rfl, rfl⟩, ⟨rfl, rfl⟩, ⟨rfl, rfl, rfl⟩, fun _ => ⟨one_pos, one_pos, one_pos⟩⟩
  have z0 : (zebSettingsOf 0 0 (zOneCalls ⟨0, 0, 0, 36, 1, 0, 0⟩ ⟨false, b, false, false⟩) : Spec.ZebSettings ℝ).comRef.get 0 = 0 := rfl
  have z1 : (zebSettingsOf 0 0 (zOneCalls ⟨0, 0, 0, 36, 1, 0, 0⟩ ⟨false, b, false, false⟩) : Spec.ZebSettings ℝ).comRef.get 1 = 0 := rfl
  have hc : (zebSettingsOf 0 0 (zOneCalls ⟨0, 0, 0, 36, 1, 0, 0⟩ ⟨false, b, false, false⟩) : Spec.ZebSettings ℝ).Centres 1 36 1 (0, 0) :=
    ⟨⟨rfl, rfl, rfl, rfl, rfl⟩, rfl, ⟨rfl, rfl, rfl⟩, fun _ => ⟨1, one_pos, fun p hx hy => by
      rw [z0, add_zero, sub_zero] at hx
      rw [z1, add_zero, sub_zero] at hy
      exact zSquare_inside hx hy⟩⟩
  have e0 : (zebSettingsOf 0 0 (zOneCalls ⟨0, 0, 0, 36, 1, 0, 0⟩ ⟨false, b, false, false⟩) : Spec.ZebSettings ℝ).comRef.get 0 + (0 : ℝ) = 0 := add_zero _
  have e1 : (zebSettingsOf 0 0 (zOneCalls ⟨0, 0, 0, 36, 1, 0, 0⟩ ⟨false, b, false, false⟩) : Spec.ZebSettings ℝ).comRef.get 1 + (0 : ℝ) = 0 := add_zero _
  have hE : (EPS : ℝ) < 1 := by norm_num [EPS]
  refine ⟨C95_base_velocity (hb 0) (zOne_configured (by norm_num)) one_pos (by norm_num) (by norm_num),
    (C95_base_iff (hb 24) (zOne_configured (by norm_num)) one_pos one_pos (by norm_num) (by norm_num) (by norm_num)).2 ?_, ?_, ?_⟩
  · norm_num [Spec.BalancedEvery]
  · have := C95_centre_violated hc (zOne_configured (by norm_num)) hE (by norm_num) (by norm_num)
    rwa [e0, e1] at this
  · have := (C95_centre_iff hc (zOne_configured (by norm_num)) hE (by norm_num : (0 : ℝ) < 1 / 10) (by norm_num) (by norm_num)).2
      (by norm_num [Spec.BalancedEvery])
    rwa [e0, e1] at this

end MPC
