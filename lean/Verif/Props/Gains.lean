import Verif.Spec.Gains
import Verif.Lemmas.Gains
import Verif.Props.Units
/-!
# C92: with one sample, the robot settles at a position reference exactly when the weights are balanced
-/
set_option linter.unusedSectionVars false
namespace MPC
open Finset Filter Topology
variable {K : Type} [Field K] [LinearOrder K] [IsStrictOrderedRing K]

/-- Parts of the three objectives. -/
def gainSum (T : K) (w : TrajWeighting K) : K :=
  w.positionTracking * T ^ 6 / 36 + w.velocityTracking * T ^ 4 / 4 + w.jerkMinimization

/-- **C92 (feedback).** With one sample, positions tracked and a velocity reference of zero, `solve` applies the jerk
`settleJerk` (a linear feedback) when it is far from the numerical bound. -/
theorem C92_feedback {o : Oracle K} (ho : Spec.FindsSolution o) {cs : List (TrajCall K)} {w : TrajWalkgen K}
    (hw : TrajReaches o cs w) (hr : (settingsOf cs).RefsCurrent) (hc : (settingsOf cs).constrained = false)
    (hN : (settingsOf cs).nbSamples = 1) (hT : 0 < (settingsOf cs).period) (hv : 0 ≤ (settingsOf cs).weighting.velocityTracking)
    (hp : 0 ≤ (settingsOf cs).weighting.positionTracking) (hj : 0 < (settingsOf cs).weighting.jerkMinimization)
    (hvr : (settingsOf cs).velRef.get 0 = 0) {fb : K} (hfb : 0 < fb) (hX : |w.X.get 0| ≤ MAXBOUND / 2)
    (hJ : |settleJerk ((settingsOf cs).weighting.positionTracking * (settingsOf cs).period ^ 6 / 36
          / gainSum (settingsOf cs).period (settingsOf cs).weighting)
        ((settingsOf cs).weighting.velocityTracking * (settingsOf cs).period ^ 4 / 4
          / gainSum (settingsOf cs).period (settingsOf cs).weighting)
        (settingsOf cs).period ((settingsOf cs).posRef.get 0) w.getState| ≤ MAXBOUND / 2) :
    ∃ w', TrajReaches o (cs ++ [.solve fb]) w' ∧
      w'.X.get 0 = settleJerk ((settingsOf cs).weighting.positionTracking * (settingsOf cs).period ^ 6 / 36
          / gainSum (settingsOf cs).period (settingsOf cs).weighting)
        ((settingsOf cs).weighting.velocityTracking * (settingsOf cs).period ^ 4 / 4
          / gainSum (settingsOf cs).period (settingsOf cs).weighting)
        (settingsOf cs).period ((settingsOf cs).posRef.get 0) w.getState ∧
      w'.getState = Spec.cubic w.getState (w'.X.get 0) fb := by
  set s := settingsOf cs with hs
  set T := s.period
  set S := gainSum T s.weighting with hS
  have hS0 : 0 < S := by rw [hS]; unfold gainSum; positivity
  set J := settleJerk (s.weighting.positionTracking * T ^ 6 / 36 / S) (s.weighting.velocityTracking * T ^ 4 / 4 / S) T
    (s.posRef.get 0) w.getState with hJd
  have hSJ : S * J + (s.weighting.positionTracking * T ^ 3 / 6 * (w.getState.p + T * w.getState.v + T ^ 2 / 2 * w.getState.a
      - s.posRef.get 0) + s.weighting.velocityTracking * T ^ 2 / 2 * (w.getState.v + T * w.getState.a)) = 0 := by
    rw [hJd]
    unfold settleJerk
    have hT' : T ≠ 0 := hT.ne'
    have hS' : S ≠ 0 := hS0.ne'
    clear_value S T
    field_simp
    ring
  have cost : ∀ L : ℕ → K, Spec.trajCost s w.getState L = Spec.trajCost s w.getState (fun _ => J) + 1 / 2 * S * (L 0 - J) ^ 2 := by
    intro L
    unfold Spec.trajCost
    rw [hN]
    simp only [sum_range_one, Spec.jerkTrajectory, Spec.cubic, hvr, max_eq_left hv, max_eq_left hp, max_eq_left hj.le]
    change 1 / 2 * (s.weighting.velocityTracking * (w.getState.v + w.getState.a * T + L 0 * T ^ 2 / 2 - 0) ^ 2
      + s.weighting.positionTracking * (w.getState.p + w.getState.v * T + w.getState.a * T ^ 2 / 2 + L 0 * T ^ 3 / 6
        - s.posRef.get 0) ^ 2 + s.weighting.jerkMinimization * L 0 ^ 2)
      = 1 / 2 * (s.weighting.velocityTracking * (w.getState.v + w.getState.a * T + J * T ^ 2 / 2 - 0) ^ 2
      + s.weighting.positionTracking * (w.getState.p + w.getState.v * T + w.getState.a * T ^ 2 / 2 + J * T ^ 3 / 6
        - s.posRef.get 0) ^ 2 + s.weighting.jerkMinimization * J ^ 2) + 1 / 2 * S * (L 0 - J) ^ 2
    unfold gainSum at hS
    linear_combination (L 0 - J) * hSJ - 1 / 2 * (L 0 ^ 2 - J ^ 2) * hS
  obtain ⟨w', hw', hst, hX'⟩ := solve_optimal ho hw hr hc hj (fun _ => J)
    (fun J' => by rw [← hs, cost J']; have := sq_nonneg (J' 0 - J); nlinarith [mul_nonneg hS0.le this])
    (fun i hi => by
      obtain rfl : i = 0 := by rw [← hs] at hi; omega
      exact hX) (fun i _ => hJ) hfb
  refine ⟨w', hw', hX' 0 (by rw [← hs]; omega), ?_⟩
  rw [hst, hX' 0 (by rw [← hs]; omega)]

/-- Calls for one sample of `T` seconds, with the weights `w` and the position reference `pr`. -/
def gainCalls (T : ℝ) (w : TrajWeighting ℝ) (pr : ℝ) : List (TrajCall ℝ) :=
  [.setSamplingPeriod T, .setPosRef (Vec.const 1 pr), .setWeightings w]

theorem gainCalls_settings (T : ℝ) (w : TrajWeighting ℝ) (pr : ℝ) :
    settingsOf (gainCalls T w pr) = ⟨1, T, Vec.const 1 0, Vec.const 1 pr, 1, 1, 1, w, false⟩ := rfl

/-- A step of the loop while the state is near the reference, with a call every `fb` seconds. -/
theorem settle_step_every {T pr fb : ℝ} {wt : TrajWeighting ℝ} (hT : 0 < T) (hfb : 0 < fb) (hv : 0 ≤ wt.velocityTracking) (hp : 0 ≤ wt.positionTracking)
    (hj : 0 < wt.jerkMinimization) {o : Oracle ℝ} (ho : Spec.FindsSolution o) {cs : List (TrajCall ℝ)} {w : TrajWalkgen ℝ}
    (hw : TrajReaches o cs w) (hs : settingsOf cs = settingsOf (gainCalls T wt pr)) (hX : |w.X.get 0| ≤ MAXBOUND / 2) {e : ℝ}
    (he : (6 / T ^ 3 + 8 / T ^ 2 + 5 / T) * e ≤ MAXBOUND / 2) (hn : Spec.NearRest pr e w.getState) :
    ∃ w', TrajReaches o (cs ++ [.solve fb]) w' ∧ |w'.X.get 0| ≤ MAXBOUND / 2 ∧
      w'.getState = Spec.cubic w.getState (settleJerk (wt.positionTracking * T ^ 6 / 36 / gainSum T wt)
        (wt.velocityTracking * T ^ 4 / 4 / gainSum T wt) T pr w.getState) fb := by
  have hS0 : 0 < gainSum T wt := by unfold gainSum; positivity
  rw [gainCalls_settings] at hs
  set k := wt.positionTracking * T ^ 6 / 36 / gainSum T wt with hk
  set l := wt.velocityTracking * T ^ 4 / 4 / gainSum T wt with hl
  have k0 : 0 ≤ k := by positivity
  have l0 : 0 ≤ l := by positivity
  have k1 : k ≤ 1 := by rw [hk, div_le_one hS0]; unfold gainSum; linarith [show 0 ≤ wt.velocityTracking * T ^ 4 / 4 by positivity]
  have l1 : l ≤ 1 := by rw [hl, div_le_one hS0]; unfold gainSum; linarith [show 0 ≤ wt.positionTracking * T ^ 6 / 36 by positivity]
  have hJ : |settleJerk k l T pr w.getState| ≤ MAXBOUND / 2 := by
    refine le_trans ?_ he
    obtain ⟨n1, n2, n3⟩ := hn
    unfold settleJerk
    rw [abs_neg]
    have e0 : 0 ≤ e := (abs_nonneg _).trans n1
    have a1 : |w.getState.p + T * w.getState.v + T ^ 2 / 2 * w.getState.a - pr| ≤ e + T * e + T ^ 2 / 2 * e := by
      have : w.getState.p + T * w.getState.v + T ^ 2 / 2 * w.getState.a - pr
        = (w.getState.p - pr) + T * w.getState.v + T ^ 2 / 2 * w.getState.a := by ring
      rw [this]
      refine (abs_add_le _ _).trans (add_le_add ((abs_add_le _ _).trans (add_le_add n1 ?_)) ?_)
      · rw [abs_mul, abs_of_pos hT]; gcongr
      · rw [abs_mul, abs_of_pos (by positivity)]; gcongr
    have a2 : |w.getState.v + T * w.getState.a| ≤ e + T * e := by
      refine (abs_add_le _ _).trans (add_le_add n2 ?_)
      rw [abs_mul, abs_of_pos hT]; gcongr
    refine (abs_add_le _ _).trans ?_
    rw [abs_mul, abs_mul, abs_mul, abs_mul, abs_of_nonneg k0, abs_of_nonneg l0, abs_of_pos (by positivity : 0 < 6 / T ^ 3),
      abs_of_pos (by positivity : 0 < 2 / T ^ 2)]
    have b1 : 6 / T ^ 3 * k * |w.getState.p + T * w.getState.v + T ^ 2 / 2 * w.getState.a - pr|
        ≤ 6 / T ^ 3 * 1 * (e + T * e + T ^ 2 / 2 * e) := by gcongr
    have b2 : 2 / T ^ 2 * l * |w.getState.v + T * w.getState.a| ≤ 2 / T ^ 2 * 1 * (e + T * e) := by gcongr
    have b3 : 6 / T ^ 3 * 1 * (e + T * e + T ^ 2 / 2 * e) + 2 / T ^ 2 * 1 * (e + T * e) = (6 / T ^ 3 + 8 / T ^ 2 + 5 / T) * e := by
      field_simp; ring
    linarith
  obtain ⟨w', hw', hX', hst⟩ := C92_feedback ho hw (by rw [hs]; exact ⟨rfl, rfl⟩) (by rw [hs]) (by rw [hs]) (by rw [hs]; exact hT)
    (by rw [hs]; exact hv) (by rw [hs]; exact hp) (by rw [hs]; exact hj) (by rw [hs]; rfl) hfb hX (by rw [hs]; exact hJ)
  rw [hs] at hX'
  change w'.X.get 0 = settleJerk k l T pr w.getState at hX'
  exact ⟨w', hw', by rw [hX']; exact hJ, by rw [hst, hX']⟩

/-- A step of the loop while the state is near the reference. -/
theorem settle_step {T pr : ℝ} {wt : TrajWeighting ℝ} (hT : 0 < T) (hv : 0 ≤ wt.velocityTracking) (hp : 0 ≤ wt.positionTracking)
    (hj : 0 < wt.jerkMinimization) {o : Oracle ℝ} (ho : Spec.FindsSolution o) {cs : List (TrajCall ℝ)} {w : TrajWalkgen ℝ}
    (hw : TrajReaches o cs w) (hs : settingsOf cs = settingsOf (gainCalls T wt pr)) (hX : |w.X.get 0| ≤ MAXBOUND / 2) {e : ℝ}
    (he : (6 / T ^ 3 + 8 / T ^ 2 + 5 / T) * e ≤ MAXBOUND / 2) (hn : Spec.NearRest pr e w.getState) :
    ∃ w', TrajReaches o (cs ++ [.solve T]) w' ∧ |w'.X.get 0| ≤ MAXBOUND / 2 ∧
      w'.getState = settle (wt.positionTracking * T ^ 6 / 36 / gainSum T wt) (wt.velocityTracking * T ^ 4 / 4 / gainSum T wt)
        T pr w.getState :=
  settle_step_every hT hT hv hp hj ho hw hs hX he hn

/-- The shares of the objectives. -/
theorem shares {T : ℝ} {wt : TrajWeighting ℝ} (hT : 0 < T) (hv : 0 ≤ wt.velocityTracking) (hp : 0 < wt.positionTracking)
    (hj : 0 < wt.jerkMinimization) :
    0 < wt.positionTracking * T ^ 6 / 36 / gainSum T wt ∧ 0 ≤ wt.velocityTracking * T ^ 4 / 4 / gainSum T wt ∧
    wt.positionTracking * T ^ 6 / 36 / gainSum T wt + wt.velocityTracking * T ^ 4 / 4 / gainSum T wt < 1 ∧
    (Spec.Balanced T wt ↔
      wt.positionTracking * T ^ 6 / 36 / gainSum T wt < 4 * (1 - wt.positionTracking * T ^ 6 / 36 / gainSum T wt
        - wt.velocityTracking * T ^ 4 / 4 / gainSum T wt) ∧
      3 * (wt.positionTracking * T ^ 6 / 36 / gainSum T wt) * (1 - wt.positionTracking * T ^ 6 / 36 / gainSum T wt
        - wt.velocityTracking * T ^ 4 / 4 / gainSum T wt) < wt.velocityTracking * T ^ 4 / 4 / gainSum T wt *
        (wt.positionTracking * T ^ 6 / 36 / gainSum T wt + wt.velocityTracking * T ^ 4 / 4 / gainSum T wt)) := by
  unfold Spec.Balanced
  have hA : 0 < wt.positionTracking * T ^ 6 / 36 := by positivity
  have hB : 0 ≤ wt.velocityTracking * T ^ 4 / 4 := by positivity
  have hS : gainSum T wt = wt.positionTracking * T ^ 6 / 36 + wt.velocityTracking * T ^ 4 / 4 + wt.jerkMinimization := rfl
  have hS0 : 0 < gainSum T wt := by rw [hS]; positivity
  generalize wt.positionTracking * T ^ 6 / 36 = A at *
  generalize wt.velocityTracking * T ^ 4 / 4 = B at *
  generalize gainSum T wt = S at *
  have hm : 1 - A / S - B / S = wt.jerkMinimization / S := by
    field_simp; linarith
  refine ⟨by positivity, by positivity, ?_, ?_⟩
  · have : 0 < wt.jerkMinimization / S := by positivity
    linarith
  · rw [hm]
    have q1 : A / S < 4 * (wt.jerkMinimization / S) ↔ A < 4 * wt.jerkMinimization := by
      rw [← mul_div_assoc, div_lt_div_iff_of_pos_right hS0]
    have q2 : 3 * (A / S) * (wt.jerkMinimization / S) < B / S * (A / S + B / S) ↔ 3 * A * wt.jerkMinimization < B * (A + B) := by
      have e1 : 3 * (A / S) * (wt.jerkMinimization / S) = 3 * A * wt.jerkMinimization / S ^ 2 := by field_simp
      have e2 : B / S * (A / S + B / S) = B * (A + B) / S ^ 2 := by field_simp
      rw [e1, e2, div_lt_div_iff_of_pos_right (by positivity)]
    rw [q1, q2]

/-- **C92 (balanced weights).** The robot settles at every position reference. -/
theorem C92_settles {T pr : ℝ} {wt : TrajWeighting ℝ} (hT : 0 < T) (hv : 0 ≤ wt.velocityTracking) (hp : 0 < wt.positionTracking)
    (hj : 0 < wt.jerkMinimization) (hb : Spec.Balanced T wt) : Spec.Settles (settingsOf (gainCalls T wt pr)) pr := by
  obtain ⟨k0, l0, kl, hbal⟩ := shares hT hv hp hj
  obtain ⟨b1, b2⟩ := hbal.1 hb
  have hstep := fun {o} ho {cs w} => @settle_step T pr wt hT hv hp.le hj o ho cs w
  generalize wt.positionTracking * T ^ 6 / 36 / gainSum T wt = k at *
  generalize wt.velocityTracking * T ^ 4 / 4 / gainSum T wt = l at *
  obtain ⟨r, t, c, r0, r1, e1, e2, e3⟩ := loopPoly_factor k0 kl
  obtain ⟨f1, f2, f3⟩ := factor_stable k0 l0 kl r0 r1 e1 e2 e3
  have hc : c < 1 := f1.2 b2
  have ht : |t| < 1 + c := abs_lt.2 ⟨by linarith [f2.2 b1], by linarith⟩
  have hc0 : 0 < 1 - (t / (1 + c)) ^ 2 := ratio_sq ht
  set c0 := 1 - (t / (1 + c)) ^ 2
  set G := 6 / T ^ 3 + 8 / T ^ 2 + 5 / T with hG
  have hG0 : 0 < G := by positivity
  have hM : (0 : ℝ) < MAXBOUND := by norm_num [MAXBOUND]
  have r1' : 0 < 1 - r := by linarith
  set B := 1 + 441 / c0 / (1 - r) with hB
  have hB0 : 0 < B := by positivity
  intro e he
  set e' := min e (MAXBOUND / (2 * G)) with he'
  have he0 : 0 < e' := lt_min he (by positivity)
  set m := min 1 (min T (T ^ 2)) with hm
  have hm0 : 0 < m := by rw [hm]; positivity
  set q := e' * m / B with hq
  have hq0 : 0 < q := by positivity
  have hG' : G * e' ≤ MAXBOUND / 2 := by
    calc G * e' ≤ G * (MAXBOUND / (2 * G)) := by gcongr; exact min_le_right _ _
      _ = MAXBOUND / 2 := by field_simp
  refine ⟨min (q / (1 + T + T ^ 2)) (MAXBOUND / 2), lt_min (by positivity) (by positivity), ?_⟩
  intro o cs w ho hw hs hX hn
  set z : ℕ → State3 ℝ := fun n => (settle k l T pr)^[n] w.getState with hz
  have hz1 : ∀ n, z (n + 1) = settle k l T pr (z n) := fun n => Function.iterate_succ_apply' _ _ _
  have hrec := settle_recurrence (k := k) (l := l) (pr := pr) hT.ne' hz1
  -- every sequence of the loop is bounded and vanishes
  have main : ∀ y : ℕ → ℝ, (∀ n, y (n + 3) = (3 - 7 * k - 3 * l) * y (n + 2) - (3 - 2 * k - 4 * l) * y (n + 1) + (1 - k - l) * y n) →
      |y 0| ≤ q → |y 1| ≤ 20 * q → |y 2| ≤ 400 * q → (∀ n, |y n| ≤ e' * m) ∧ Tendsto y atTop (𝓝 0) := by
    intro y hy h0 h1 h2
    have hw2 : ∀ n, (y (n + 2 + 1) - r * y (n + 2)) = t * (y (n + 1 + 1) - r * y (n + 1)) - c * (y (n + 1) - r * y n) := by
      intro n
      have := hy n
      rw [← e1, ← e2, ← e3] at this
      rw [show n + 2 + 1 = n + 3 from rfl, show n + 1 + 1 = n + 2 from rfl, this]
      ring
    have hw0 : ∀ n, |y (n + 1) - r * y n| ≤ 441 * q / c0 := by
      intro n
      refine (recurrence_bounded (y := fun n => y (n + 1) - r * y n) ht hc hw2 n).trans ?_
      rw [div_le_div_iff_of_pos_right hc0]
      have g1 : |y (0 + 1) - r * y 0| ≤ 21 * q := by
        refine (abs_sub _ _).trans ?_
        rw [abs_mul, abs_of_pos r0]
        have := mul_le_mul r1.le h0 (abs_nonneg _) zero_le_one
        linarith
      have g2 : |y (1 + 1) - r * y 1| ≤ 420 * q := by
        refine (abs_sub _ _).trans ?_
        rw [abs_mul, abs_of_pos r0]
        have := mul_le_mul r1.le h1 (abs_nonneg _) zero_le_one
        linarith
      linarith
    constructor
    · intro n
      have := filter_bounded (y := y) (w := fun n => y (n + 1) - r * y n) r0.le r1 (fun n => by ring) hw0 n
      have e4 : e' * m = q + 441 * q / c0 / (1 - r) := by
        have : e' * m = q * B := by rw [hq]; field_simp
        rw [this, hB]; ring
      linarith
    · exact filter_tendsto (y := y) (w := fun n => y (n + 1) - r * y n) (r := r) (by rwa [abs_of_pos r0]) (fun n => by ring)
        (recurrence_tendsto (y := fun n => y (n + 1) - r * y n) ht hc hw2)
  -- the first states
  have grow : ∀ n Q, |(z n).p - pr| ≤ Q → |T * (z n).v| ≤ Q → |T ^ 2 * (z n).a| ≤ Q →
      |(z (n + 1)).p - pr| ≤ 20 * Q ∧ |T * (z (n + 1)).v| ≤ 20 * Q ∧ |T ^ 2 * (z (n + 1)).a| ≤ 20 * Q := by
    intro n Q h1 h2 h3
    obtain ⟨g1, g2, g3⟩ := settle_scaled (k := k) (l := l) (pr := pr) hT.ne' (z n)
    rw [← hz1] at g1 g2 g3
    rw [g1, g2, g3]
    generalize (z n).p - pr = P at *
    generalize T * (z n).v = V at *
    generalize T ^ 2 * (z n).a = A at *
    have s1 : |P + V + A / 2| ≤ 5 / 2 * Q := by
      rw [abs_le] at *
      constructor <;> linarith
    have s2 : |V + A| ≤ 2 * Q := by
      rw [abs_le] at *
      constructor <;> linarith
    have Q0 : 0 ≤ Q := (abs_nonneg _).trans h1
    have s3 : ∀ {a x R : ℝ}, |x| ≤ R → |a| ≤ 1 → |a * x| ≤ R := by
      intro a x R hx ha
      rw [abs_mul]
      calc |a| * |x| ≤ 1 * R := mul_le_mul ha hx (abs_nonneg _) zero_le_one
        _ = R := one_mul R
    have t1 := s3 (a := 1 - k) s1 (abs_le.2 ⟨by linarith, by linarith⟩)
    have t2 := s3 (a := k) s1 (abs_le.2 ⟨by linarith, by linarith⟩)
    have t3 := s3 (a := l) s2 (abs_le.2 ⟨by linarith, by linarith⟩)
    have t4 := s3 (a := 1 - l) s2 (abs_le.2 ⟨by linarith, by linarith⟩)
    generalize P + V + A / 2 = X at *
    generalize V + A = Y at *
    simp only [abs_le] at *
    refine ⟨⟨?_, ?_⟩, ⟨?_, ?_⟩, ⟨?_, ?_⟩⟩ <;> linarith
  have hd : ∀ x, |x| ≤ min (q / (1 + T + T ^ 2)) (MAXBOUND / 2) → |x| ≤ q ∧ |T * x| ≤ q ∧ |T ^ 2 * x| ≤ q := by
    intro x hx
    have h1 := hx.trans (min_le_left _ _)
    rw [le_div_iff₀ (by positivity)] at h1
    have h2 : 0 ≤ |x| := abs_nonneg x
    have h3 := mul_nonneg hT.le h2
    have h4 := mul_nonneg (sq_nonneg T) h2
    rw [abs_mul, abs_mul, abs_of_pos hT, abs_of_pos (show 0 < T ^ 2 by positivity)]
    have h5 : |x| + T * |x| + T ^ 2 * |x| ≤ q := by linarith
    refine ⟨?_, ?_, ?_⟩ <;> linarith
  have z0 : z 0 = w.getState := rfl
  have i0 : |(z 0).p - pr| ≤ q ∧ |T * (z 0).v| ≤ q ∧ |T ^ 2 * (z 0).a| ≤ q := by
    rw [z0]; exact ⟨(hd _ hn.1).1, (hd _ hn.2.1).2.1, (hd _ hn.2.2).2.2⟩
  have i1 := grow 0 q i0.1 i0.2.1 i0.2.2
  have i2 := grow 1 (20 * q) i1.1 i1.2.1 i1.2.2
  obtain ⟨mp, lp⟩ := main (fun n => (z n).p - pr) (fun n => (hrec n).1) i0.1 i1.1 (by linarith [i2.1])
  obtain ⟨mv, lv⟩ := main (fun n => T * (z n).v) (fun n => (hrec n).2.1) i0.2.1 i1.2.1 (by linarith [i2.2.1])
  obtain ⟨ma, la⟩ := main (fun n => T ^ 2 * (z n).a) (fun n => (hrec n).2.2) i0.2.2 i1.2.2 (by linarith [i2.2.2])
  have near : ∀ n, Spec.NearRest pr e' (z n) := by
    intro n
    have u1 : e' * m ≤ e' * 1 := by gcongr; exact min_le_left _ _
    have u2 : e' * m ≤ e' * T := by gcongr; exact (min_le_right _ _).trans (min_le_left _ _)
    have u3 : e' * m ≤ e' * T ^ 2 := by gcongr; exact (min_le_right _ _).trans (min_le_right _ _)
    refine ⟨by linarith [mp n], ?_, ?_⟩
    · have := (mv n).trans u2
      rw [abs_mul, abs_of_pos hT, mul_comm e'] at this
      exact le_of_mul_le_mul_left this hT
    · have := (ma n).trans u3
      rw [abs_mul, abs_of_pos (show 0 < T ^ 2 by positivity), mul_comm e'] at this
      exact le_of_mul_le_mul_left this (by positivity)
  have hex : ∀ n, ∃ w', TrajReaches o (cs ++ List.replicate n (.solve T)) w' ∧ w'.getState = z n ∧ |w'.X.get 0| ≤ MAXBOUND / 2 ∧
      settingsOf (cs ++ List.replicate n (.solve T)) = settingsOf (gainCalls T wt pr) := by
    intro n
    induction n with
    | zero => exact ⟨w, by simpa using hw, rfl, (hX 0 Nat.one_pos).trans (min_le_right _ _), by simpa using hs⟩
    | succ n ih =>
      obtain ⟨w1, q1, q2, q3, q4⟩ := ih
      obtain ⟨w2, p1, p2, p3⟩ := hstep ho q1 q4 q3 hG' (by rw [q2]; exact near n)
      have el : cs ++ List.replicate n (TrajCall.solve T) ++ [.solve T] = cs ++ List.replicate (n + 1) (.solve T) := by
        rw [List.replicate_succ', List.append_assoc]
      rw [el] at p1
      exact ⟨w2, p1, by rw [p3, q2, hz1], p2, by rw [← el, settingsOf_solve, q4]⟩
  choose W hW using hex
  have hT' : T ≠ 0 := hT.ne'
  refine ⟨W, fun n => (hW n).1, fun n => ?_, ?_, ?_, ?_⟩
  · rw [(hW n).2.1]
    have u : e' ≤ e := min_le_left _ _
    exact ⟨(near n).1.trans u, (near n).2.1.trans u, (near n).2.2.trans u⟩
  · have := lp.add_const pr
    rw [zero_add] at this
    refine this.congr fun n => ?_
    rw [(hW n).2.1]; ring
  · have := lv.const_mul (1 / T)
    rw [mul_zero] at this
    refine this.congr fun n => ?_
    rw [(hW n).2.1]; field_simp
  · have := la.const_mul (1 / T ^ 2)
    rw [mul_zero] at this
    refine this.congr fun n => ?_
    rw [(hW n).2.1]; field_simp

/-- A solver that always finds the optimum. -/
theorem finding_oracle : ∃ o : Oracle ℝ, Spec.FindsSolution o := by
  classical
  refine ⟨fun _ qp _ => (true, if h : ∃ d, Spec.IsSolution qp d then h.choose else fun _ => 0), ?_⟩
  intro n qp it h
  simp only [h, dif_pos]
  exact h.choose_spec

/-- **C92 (other weights).** The robot does not settle, at any position reference. -/
theorem C92_unbalanced {T pr : ℝ} {wt : TrajWeighting ℝ} (hT : 0 < T) (hv : 0 ≤ wt.velocityTracking) (hp : 0 < wt.positionTracking)
    (hj : 0 < wt.jerkMinimization) (hb : ¬ Spec.Balanced T wt) : ¬ Spec.Settles (settingsOf (gainCalls T wt pr)) pr := by
  intro hset
  obtain ⟨k0, l0, kl, hbal⟩ := shares hT hv hp hj
  rw [hbal] at hb
  have hstep := fun {o} ho {cs w} => @settle_step T pr wt hT hv hp.le hj o ho cs w
  generalize wt.positionTracking * T ^ 6 / 36 / gainSum T wt = k at *
  generalize wt.velocityTracking * T ^ 4 / 4 / gainSum T wt = l at *
  obtain ⟨P, V, A, hun⟩ := settle_unstable hT k0 l0 kl hb pr
  set G := 6 / T ^ 3 + 8 / T ^ 2 + 5 / T with hG
  have hG0 : 0 < G := by positivity
  have hM : (0 : ℝ) < MAXBOUND := by norm_num [MAXBOUND]
  have hG' : G * (MAXBOUND / (2 * G)) ≤ MAXBOUND / 2 := le_of_eq (by field_simp)
  obtain ⟨d, hd, h⟩ := hset (MAXBOUND / (2 * G)) (by positivity)
  obtain ⟨o, ho⟩ := finding_oracle
  set M := 1 + |P| + |V / T| + |A / T ^ 2| with hM'
  have hM0 : 0 < M := by positivity
  set s := d / M with hs
  have hs0 : 0 < s := by positivity
  have hsM : s * M = d := by rw [hs]; field_simp
  set v : Vec ℝ := ⟨3, fun i => if i = 0 then pr + s * P else if i = 1 then s * V / T else s * A / T ^ 2⟩ with hv'
  set cs := gainCalls T wt pr ++ [.setState v] with hcs
  obtain ⟨w, hw⟩ := C16_no_fault_partial o cs
    (by simp [hcs, gainCalls, Spec.TrajSettings.Legal, Spec.TrajSettings.Pre, Spec.TrajSettings.apply, hT, hv', Vec.const,
          Spec.TrajSettings.init, hv, hp.le, hj.le])
    (by simp [hcs, gainCalls, Spec.TrajSettings.RefsCurrentAtSolves])
  have hst : w.getState = ⟨pr + s * P, s * V / T, s * A / T ^ 2⟩ := by
    obtain ⟨w1, b, h1, e⟩ := trajReaches_append.1 hw
    exact setter_state (reachable_inv h1) e
  have hX : ∀ i, w.X.get i = 0 := reaches_X hw (by simp [hcs, gainCalls])
  have small : ∀ a, |a| ≤ M → |s * a| ≤ d := by
    intro a ha
    rw [abs_mul, abs_of_pos hs0, ← hsM]; gcongr
  obtain ⟨W, hW, hn, lp, -, la⟩ := h o cs w ho hw rfl (fun i _ => by rw [hX, abs_zero]; exact hd.le) (by
    rw [hst]
    refine ⟨?_, ?_, ?_⟩
    · rw [show pr + s * P - pr = s * P by ring]
      exact small _ (by rw [hM']; linarith [abs_nonneg (V / T), abs_nonneg (A / T ^ 2)])
    · change |s * V / T| ≤ d
      rw [mul_div_assoc]
      exact small _ (by rw [hM']; linarith [abs_nonneg P, abs_nonneg (A / T ^ 2)])
    · change |s * A / T ^ 2| ≤ d
      rw [mul_div_assoc]
      exact small _ (by rw [hM']; linarith [abs_nonneg P, abs_nonneg (V / T)]))
  have unique : ∀ {cs' : List (TrajCall ℝ)} {w1 w2 : TrajWalkgen ℝ}, TrajReaches o cs' w1 → TrajReaches o cs' w2 → w1 = w2 := by
    intro cs' w1 w2 h1 h2
    unfold TrajReaches at h1 h2
    rw [h1] at h2
    exact Except.ok.inj h2
  have follow : ∀ n, |(W n).X.get 0| ≤ MAXBOUND / 2 ∧ settingsOf (cs ++ List.replicate n (.solve T)) = settingsOf (gainCalls T wt pr) ∧
      (W (n + 1)).getState = settle k l T pr (W n).getState ∧ |(W (n + 1)).X.get 0| ≤ MAXBOUND / 2 := by
    have one : ∀ n, |(W n).X.get 0| ≤ MAXBOUND / 2 → settingsOf (cs ++ List.replicate n (.solve T)) = settingsOf (gainCalls T wt pr) →
        (W (n + 1)).getState = settle k l T pr (W n).getState ∧ |(W (n + 1)).X.get 0| ≤ MAXBOUND / 2 := by
      intro n h1 h2
      obtain ⟨w2, p1, p2, p3⟩ := hstep ho (hW n) h2 h1 hG' (hn n)
      have el : cs ++ List.replicate n (TrajCall.solve T) ++ [.solve T] = cs ++ List.replicate (n + 1) (.solve T) := by
        rw [List.replicate_succ', List.append_assoc]
      have p1' : TrajReaches o (cs ++ List.replicate n (TrajCall.solve T) ++ [.solve T]) w2 := p1
      rw [el] at p1'
      have := unique (hW (n + 1)) p1'
      rw [this]
      exact ⟨p3, p2⟩
    intro n
    induction n with
    | zero =>
      have e0 : W 0 = w := unique (hW 0) (by simpa using hw)
      have a1 : |(W 0).X.get 0| ≤ MAXBOUND / 2 := by rw [e0, hX, abs_zero]; positivity
      have a2 : settingsOf (cs ++ List.replicate 0 (.solve T)) = settingsOf (gainCalls T wt pr) := by
        simp only [List.replicate_zero, List.append_nil]
        rfl
      exact ⟨a1, a2, one 0 a1 a2⟩
    | succ n ih =>
      have a2 : settingsOf (cs ++ List.replicate (n + 1) (.solve T)) = settingsOf (gainCalls T wt pr) := by
        rw [List.replicate_succ', ← List.append_assoc, settingsOf_solve, ih.2.1]
      exact ⟨ih.2.2.2, a2, one (n + 1) ih.2.2.2 a2⟩
  refine hun s hs0.ne' (fun n => (W n).getState) ?_ (fun n => (follow n).2.2.1) lp la
  change (W 0).getState = _
  rw [unique (hW 0) (by simpa using hw), hst]

/-- **C92.** With one sample, the robot settles at a position reference exactly when the weights are balanced. -/
theorem C92_settles_iff {T pr : ℝ} {wt : TrajWeighting ℝ} (hT : 0 < T) (hv : 0 ≤ wt.velocityTracking) (hp : 0 < wt.positionTracking)
    (hj : 0 < wt.jerkMinimization) : Spec.Settles (settingsOf (gainCalls T wt pr)) pr ↔ Spec.Balanced T wt :=
  ⟨fun h => by_contra fun hb => C92_unbalanced hT hv hp hj hb h, C92_settles hT hv hp hj⟩

/-- **C92 (violation).** When only the position is tracked, the robot never settles, whatever the sampling period and the
weights. -/
theorem C92_position_only {T pr wp wj : ℝ} (hT : 0 < T) (hp : 0 < wp) (hj : 0 < wj) :
    ¬ Spec.Settles (settingsOf (gainCalls T ⟨0, wp, wj⟩ pr)) pr := by
  refine C92_unbalanced hT le_rfl hp hj ?_
  rintro ⟨-, h⟩
  simp only [zero_mul, zero_div] at h
  exact absurd h (not_lt.2 (by positivity))

/-- Weights which settle, and which do not settle with a weight of the velocity ten times smaller or a weight of the position
eight times larger. -/
example : Spec.Settles (settingsOf (gainCalls 1 ⟨8, 36, 1⟩ 2)) 2 ∧ ¬ Spec.Settles (settingsOf (gainCalls 1 ⟨4 / 5, 36, 1⟩ 2)) 2 ∧
    ¬ Spec.Settles (settingsOf (gainCalls 1 ⟨8, 288, 1⟩ 2)) 2 := by
  refine ⟨C92_settles one_pos (by norm_num) (by norm_num) (by norm_num) ?_,
    C92_unbalanced one_pos (by norm_num) (by norm_num) (by norm_num) ?_,
    C92_unbalanced one_pos (by norm_num) (by norm_num) (by norm_num) ?_⟩
  all_goals norm_num [Spec.Balanced]

end MPC
