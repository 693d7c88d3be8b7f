import Verif.Props.Converge
import Verif.Lemmas.ZebCycle
/-! `ZebulonWalkgen` without constraints, with a solver that finds solutions (C87). -/
set_option linter.unusedSectionVars false
namespace MPC
open Finset Filter Topology

section
variable {K : Type} [Field K] [LinearOrder K] [IsStrictOrderedRing K] [FloorRing K]

/-- `solve` finds the jerks of least cost, if the constraints allow them. -/
theorem zSolve_allowed {o : Oracle K} {tr : Trig K} {cx cy : K} {cs : List (ZebCall K)} {w : Zeb K}
    (ho : Spec.FindsSolution o) (hw : ZebReaches o tr cx cy cs w) (hr : (zebSettingsOf cx cy cs).RefsCurrent)
    (hj : 0 < (zebSettingsOf cx cy cs).weighting.jerkMinimization)
    (ht : (zebSettingsOf cx cy cs).weighting.tiltMinimization ≤ 0)
    (ht' : (zebSettingsOf cx cy cs).weighting.tiltVelMinimization ≤ 0) (J : ℕ → K)
    (hmin : ∀ J', (zebSettingsOf cx cy cs).totalCost ((Spec.ZebSettings.init cx cy).usedShift (0, 0) cs) 0 0 w.state J
      ≤ (zebSettingsOf cx cy cs).totalCost ((Spec.ZebSettings.init cx cy).usedShift (0, 0) cs) 0 0 w.state J')
    (hall : ∀ c n, (zebSettingsOf cx cy cs).Allowed c n w.state w.X.get J) {fb : K} (hfb : 0 < fb) :
    ∃ w', ZebReaches o tr cx cy (cs ++ [.solve fb]) w' ∧
      w'.state = w.state.driven (J 0) (J (zebSettingsOf cx cy cs).nbSamples) (J (2 * (zebSettingsOf cx cy cs).nbSamples))
        (J (3 * (zebSettingsOf cx cy cs).nbSamples)) fb ∧
      ∀ i < 4 * (zebSettingsOf cx cy cs).nbSamples, w'.X.get i = J i := by
  have h := zReachable_inv hw
  obtain ⟨qp, hg, hadv⟩ := C66_advance hw hr hfb
  obtain ⟨qp1, hg1, c, hc0, ψx, ψy, ωx, ωy, -, hcost⟩ := C57_cost hw hr hfb
  obtain rfl := hg.unique h hg1
  obtain ⟨qp2, hg2, hfeas⟩ := C57_constraints hw hr hfb
  obtain rfl := hg.unique h hg2
  obtain ⟨qp3, hg3, -, -, -, -, huniq⟩ := C57_convex hw hr hfb
  obtain rfl := hg.unique h hg3
  have hN : 0 < (zebSettingsOf cx cy cs).nbSamples := h.part.user.model.N_pos
  have htc : ∀ (k : K × K) (t t' : K) (z : Spec.ZebState K) (X : ℕ → K),
      (zebSettingsOf cx cy cs).totalCost k t t' z X = (zebSettingsOf cx cy cs).totalCost k 0 0 z X := by
    intro k t t' z X
    unfold Spec.ZebSettings.totalCost
    rw [max_eq_right ht, max_eq_right ht']
    simp only [zero_mul]
  have e0 : (fun i => w.X.get i + (J i - w.X.get i)) = J := by funext i; ring
  have hsol : Spec.IsSolution qp fun i => J i - w.X.get i := by
    refine ⟨(hfeas _).2 ?_, fun d _ => ?_⟩
    · rw [e0]
      exact hall _ _
    · rw [hcost, hcost, mul_le_mul_iff_right₀ hc0, e0]
      refine sub_le_sub_right ?_ _
      rw [htc, htc _ _ _ _ fun i => w.X.get i + d i]
      exact hmin _
  obtain ⟨b, w', e, -, -⟩ := hg o
  obtain ⟨-, hX', hst, -⟩ := hadv o b w' e
  have hX0 : ∀ i < 4 * (zebSettingsOf cx cy cs).nbSamples, w'.X.get i = J i := by
    intro i hi
    rw [hX' i hi, (huniq hj).2 _ _ (ho w.solver.calls qp 10000 ⟨_, hsol⟩) hsol i hi]; ring
  refine ⟨w', ?_, ?_, hX0⟩
  · rw [zReaches_append hw]
    simp [Zeb.run, Zeb.step, e, ok_bind]
  · rw [hst]
    simp only [Spec.jerkCX, Spec.jerkCY, Spec.jerkBX, Spec.jerkBY, add_zero]
    rw [hX0 _ (by omega), hX0 _ (by omega), hX0 _ (by omega), hX0 _ (by omega)]

/-- If the jerks that minimise the documented cost are far from the numerical bound, `solve` finds them. -/
theorem zSolve_optimal {o : Oracle K} {tr : Trig K} {cx cy : K} {cs : List (ZebCall K)} {w : Zeb K}
    (ho : Spec.FindsSolution o) (hw : ZebReaches o tr cx cy cs w) (hr : (zebSettingsOf cx cy cs).RefsCurrent)
    (hc : (zebSettingsOf cx cy cs).config = ⟨false, false, false, false⟩)
    (hj : 0 < (zebSettingsOf cx cy cs).weighting.jerkMinimization)
    (ht : (zebSettingsOf cx cy cs).weighting.tiltMinimization ≤ 0)
    (ht' : (zebSettingsOf cx cy cs).weighting.tiltVelMinimization ≤ 0) (J : ℕ → K)
    (hmin : ∀ J', (zebSettingsOf cx cy cs).totalCost ((Spec.ZebSettings.init cx cy).usedShift (0, 0) cs) 0 0 w.state J
      ≤ (zebSettingsOf cx cy cs).totalCost ((Spec.ZebSettings.init cx cy).usedShift (0, 0) cs) 0 0 w.state J')
    (hX : ∀ i < 4 * (zebSettingsOf cx cy cs).nbSamples, |w.X.get i| ≤ MAXBOUND / 2)
    (hJ : ∀ i < 4 * (zebSettingsOf cx cy cs).nbSamples, |J i| ≤ MAXBOUND / 2) {fb : K} (hfb : 0 < fb) :
    ∃ w', ZebReaches o tr cx cy (cs ++ [.solve fb]) w' ∧
      w'.state = w.state.driven (J 0) (J (zebSettingsOf cx cy cs).nbSamples) (J (2 * (zebSettingsOf cx cy cs).nbSamples))
        (J (3 * (zebSettingsOf cx cy cs).nbSamples)) fb ∧
      ∀ i < 4 * (zebSettingsOf cx cy cs).nbSamples, w'.X.get i = J i :=
  zSolve_allowed ho hw hr hj ht ht' J hmin (fun c n => by
    refine ⟨by rw [hc]; simp, by rw [hc]; simp, by rw [hc]; simp, by rw [hc]; simp, fun i hi _ => ?_⟩
    have := abs_sub (J i) (w.X.get i)
    have := hX i hi; have := hJ i hi
    linarith) hfb

theorem zebSettingsOf_solve (cx cy : K) (cs : List (ZebCall K)) (fb : K) :
    zebSettingsOf cx cy (cs ++ [.solve fb]) = zebSettingsOf cx cy cs := by
  unfold zebSettingsOf; rw [after_append]; rfl

/-- The documented cost when only the base velocity is tracked. -/
theorem totalCost_vel {s : Spec.ZebSettings K} (hv : 0 ≤ s.weighting.velocityTracking)
    (hp : s.weighting.positionTracking ≤ 0) (hcop : s.weighting.copCentering ≤ 0) (hcom : s.weighting.comCentering ≤ 0)
    (hj : 0 ≤ s.weighting.jerkMinimization) {vx vy : K}
    (href : ∀ i < s.nbSamples, s.velRef.get i = vx ∧ s.velRef.get (s.nbSamples + i) = vy) (k : K × K)
    (z : Spec.ZebState K) (X : ℕ → K) :
    s.totalCost k 0 0 z X = 1 / 2 *
      (velCost s.period s.weighting.velocityTracking s.weighting.jerkMinimization vx s.nbSamples z.bx
          (Spec.jerkBX s.nbSamples X)
        + velCost s.period s.weighting.velocityTracking s.weighting.jerkMinimization vy s.nbSamples z.by_
          (Spec.jerkBY s.nbSamples X)
        + s.weighting.jerkMinimization * ∑ i ∈ range (2 * s.nbSamples), X i ^ 2) := by
  unfold Spec.ZebSettings.totalCost
  rw [max_eq_left hv, max_eq_right hp, max_eq_right hcop, max_eq_right hcom, max_eq_left hj]
  have e1 : s.jerkCost X = (∑ i ∈ range (2 * s.nbSamples), X i ^ 2) + ∑ i ∈ range s.nbSamples, Spec.jerkBX s.nbSamples X i ^ 2
      + ∑ i ∈ range s.nbSamples, Spec.jerkBY s.nbSamples X i ^ 2 := by
    unfold Spec.ZebSettings.jerkCost
    rw [show 4 * s.nbSamples = 3 * s.nbSamples + s.nbSamples by ring, sum_range_add,
      show 3 * s.nbSamples = 2 * s.nbSamples + s.nbSamples by ring, sum_range_add]
    simp only [Spec.jerkBX, Spec.jerkBY, show 2 * s.nbSamples + s.nbSamples = 3 * s.nbSamples by ring]
  have e2 : s.velCost z X = ∑ i ∈ range s.nbSamples, ((s.baseX z X i).v - vx) ^ 2
      + ∑ i ∈ range s.nbSamples, ((s.baseY z X i).v - vy) ^ 2 := by
    unfold Spec.ZebSettings.velCost
    rw [sum_add_distrib]
    congr 1 <;> refine sum_congr rfl fun i hi => ?_
    · rw [(href i (mem_range.1 hi)).1]
    · rw [(href i (mem_range.1 hi)).2]
  rw [e1, e2]
  unfold velCost
  simp only [sum_add_distrib, ← mul_sum]
  simp only [Spec.ZebSettings.baseX, Spec.ZebSettings.baseY]
  ring

/-! ### Jerks after construction -/

theorem zComputeConstantPart_X {w w' : Zeb K} (e : w.computeConstantPart = .ok w') : w'.X = w.X := by
  unfold Zeb.computeConstantPart at e
  obtain ⟨⟨a, b, c, d⟩, -, e⟩ := bind_eq_ok.1 e
  dsimp only at e
  obtain ⟨-, -, e⟩ := bind_eq_ok.1 e
  obtain ⟨_, -, e⟩ := bind_eq_ok.1 e
  obtain ⟨_, -, e⟩ := bind_eq_ok.1 e
  obtain ⟨_, -, e⟩ := bind_eq_ok.1 e
  obtain ⟨_, -, e⟩ := bind_eq_ok.1 e
  cases e
  rfl

theorem zMake_X {tr : Trig K} {mem : Option K × Option K} {w : Zeb K} (e : Zeb.make tr mem = .ok w) :
    ∀ i, w.X.get i = 0 := by
  unfold Zeb.make at e
  obtain ⟨l, -, e⟩ := bind_eq_ok.1 e
  obtain ⟨b, -, e⟩ := bind_eq_ok.1 e
  obtain ⟨w1, e1, e⟩ := bind_eq_ok.1 e
  obtain ⟨_, -, e1⟩ := bind_eq_ok.1 e1; cases e1
  obtain ⟨w1, e1, e⟩ := bind_eq_ok.1 e
  obtain ⟨_, -, e1⟩ := bind_eq_ok.1 e1; cases e1
  obtain ⟨w1, e1, e⟩ := bind_eq_ok.1 e
  obtain ⟨_, -, e1⟩ := bind_eq_ok.1 e1; cases e1
  obtain ⟨w1, e1, e⟩ := bind_eq_ok.1 e
  obtain ⟨_, -, e1⟩ := bind_eq_ok.1 e1; cases e1
  obtain ⟨w1, e1, e⟩ := bind_eq_ok.1 e
  obtain ⟨_, -, e1⟩ := bind_eq_ok.1 e1; cases e1
  obtain ⟨w1, e1, e⟩ := bind_eq_ok.1 e
  obtain ⟨_, -, e1⟩ := bind_eq_ok.1 e1; cases e1
  obtain ⟨w1, e1, e⟩ := bind_eq_ok.1 e
  obtain ⟨_, -, e1⟩ := bind_eq_ok.1 e1; cases e1
  obtain ⟨w1, e1, e⟩ := bind_eq_ok.1 e
  obtain ⟨_, -, e1⟩ := bind_eq_ok.1 e1; cases e1
  obtain ⟨w1, e1, e⟩ := bind_eq_ok.1 e
  obtain ⟨_, -, e1⟩ := bind_eq_ok.1 e1; cases e1
  obtain ⟨w1, e1, e⟩ := bind_eq_ok.1 e
  obtain ⟨_, -, e1⟩ := bind_eq_ok.1 e1; cases e1
  obtain ⟨w1, e1, e⟩ := bind_eq_ok.1 e
  obtain ⟨_, -, e1⟩ := bind_eq_ok.1 e1; cases e1
  rw [zComputeConstantPart_X e]
  intro i; rfl
end

/-- The ideal motion under velocity tracking: bounded by the first errors, and convergent. -/
theorem track_converges {g1 g2 T fb L M : ℝ} (h1 : 0 < g1) (h2 : g1 * T / 2 < g2) (h3 : g2 * T < 2) (hL : 0 ≤ L)
    (hM : 0 < M) (hfb : 0 < fb) (hfT : fb ≤ T) (vr : ℝ) :
    ∃ C : ℝ, 0 < C ∧ ∀ x : State3 ℝ, |x.v - vr| ≤ C → |x.a| ≤ C →
      (∀ n, L * (|((track g1 g2 fb vr)^[n] x).v - vr| + |((track g1 g2 fb vr)^[n] x).a|) ≤ M) ∧
      Tendsto (fun n => ((track g1 g2 fb vr)^[n] x).v) atTop (𝓝 vr) ∧
      Tendsto (fun n => ((track g1 g2 fb vr)^[n] x).a) atTop (𝓝 0) := by
  obtain ⟨ht, hd⟩ := track_stable h1 h2 h3 hfb hfT
  set t : ℝ := 2 - g1 * fb ^ 2 / 2 - g2 * fb
  set d : ℝ := 1 - g2 * fb + g1 * fb ^ 2 / 2
  have hc0 : 0 < 1 - (t / (1 + d)) ^ 2 := ratio_sq ht
  set c : ℝ := 1 - (t / (1 + d)) ^ 2
  set G : ℝ := |g1| + |g2|
  have hG : 0 ≤ G := by positivity
  set B : ℝ := (4 + fb + G * fb ^ 2 + 2 * G * fb) / c with hB
  have hB0 : 0 < B := by positivity
  refine ⟨M / (B * (L + 1)), by positivity, ?_⟩
  intro x hev hea
  set z : ℕ → State3 ℝ := fun n => (track g1 g2 fb vr)^[n] x with hz
  have hz1 : ∀ n, z (n + 1) = track g1 g2 fb vr (z n) := fun n => Function.iterate_succ_apply' _ _ _
  have rv : ∀ n, (z (n + 2)).v - vr = t * ((z (n + 1)).v - vr) - d * ((z n).v - vr) := fun n => by
    rw [hz1 (n + 1), hz1 n]; exact (track_recurrence g1 g2 fb vr (z n)).1
  have ra : ∀ n, (z (n + 2)).a = t * (z (n + 1)).a - d * (z n).a := fun n => by
    rw [hz1 (n + 1), hz1 n]; exact (track_recurrence g1 g2 fb vr (z n)).2
  set C : ℝ := M / (B * (L + 1)) with hC
  have hC0 : 0 < C := by positivity
  have hz0 : z 0 = x := rfl
  have hjb : |-(g1 * (x.v - vr) + g2 * x.a)| ≤ G * C := by
    rw [abs_neg]
    refine (abs_add_le _ _).trans ?_
    rw [abs_mul, abs_mul]
    have := mul_le_mul_of_nonneg_left hev (abs_nonneg g1)
    have := mul_le_mul_of_nonneg_left hea (abs_nonneg g2)
    calc _ ≤ |g1| * C + |g2| * C := by linarith
      _ = G * C := by ring
  have hv1 : |(z 1).v - vr| ≤ C + C * fb + G * C * (fb ^ 2 / 2) := by
    have e : (z 1).v - vr = (x.v - vr) + x.a * fb + -(g1 * (x.v - vr) + g2 * x.a) * (fb ^ 2 / 2) := by
      rw [hz1 0, hz0]; simp only [track, Spec.cubic]; ring
    rw [e]
    refine (abs_add_le _ _).trans ?_
    rw [abs_mul (-_), abs_of_nonneg (show (0 : ℝ) ≤ fb ^ 2 / 2 by positivity)]
    gcongr
    refine (abs_add_le _ _).trans ?_
    rw [abs_mul, abs_of_pos hfb]
    gcongr
  have ha1 : |(z 1).a| ≤ C + G * C * fb := by
    have e : (z 1).a = x.a + -(g1 * (x.v - vr) + g2 * x.a) * fb := by
      rw [hz1 0, hz0]; simp only [track, Spec.cubic]
    rw [e]
    refine (abs_add_le _ _).trans ?_
    rw [abs_mul (-_), abs_of_pos hfb]
    gcongr
  have hzb : ∀ n, |(z n).v - vr| + |(z n).a| ≤ B * C := by
    intro n
    have b1 := recurrence_bounded (y := fun n => (z n).v - vr) ht hd rv n
    have b2 := recurrence_bounded (y := fun n => (z n).a) ht hd ra n
    refine (add_le_add b1 b2).trans ?_
    rw [← add_div, hB, div_mul_eq_mul_div, div_le_div_iff_of_pos_right hc0]
    show |x.v - vr| + |(z 1).v - vr| + (|x.a| + |(z 1).a|) ≤ _
    have : 0 ≤ G * C * fb ^ 2 := by positivity
    have : 0 ≤ G * C * fb := by positivity
    nlinarith
  refine ⟨fun n => ?_, ?_, recurrence_tendsto (y := fun n => (z n).a) ht hd ra⟩
  · calc L * (|(z n).v - vr| + |(z n).a|) ≤ (L + 1) * (B * C) := by
          have := hzb n
          have : 0 ≤ |(z n).v - vr| + |(z n).a| := by positivity
          nlinarith
      _ = M := by rw [hC]; field_simp
  · have := (recurrence_tendsto (y := fun n => (z n).v - vr) ht hd rv).add_const vr
    rw [zero_add] at this
    exact this.congr fun n => by ring

end MPC
