import Verif.Lemmas.Convex
import Verif.Props.Boost

/-!
# C104: the plans that the limits of `TrajectoryWalkgen` allow, and their least cost, are convex in states, references and limits

Statements: `Verif.Spec.Convex`.
-/

set_option linter.unusedSectionVars false

namespace MPC

variable {K : Type} [Field K] [LinearOrder K] [IsStrictOrderedRing K]

/-- **C104.** Three generators with motion constraints, after whatever histories, where the state and the references of the
third one are a mean of those of the first two, with weights `a` and `b`, and its limits are at least the mean of theirs. The
jerks planned by the generators may be any. The same mean of plans that the first two QPs allow is allowed by the third one,
and it does not cost more than the mean of their costs. Hence what the third `solve` plans does not cost more than the mean of any two
plans that the others may choose. -/
theorem C104_convex (a b : K) (ha : 0 ≤ a) (hb : 0 ≤ b) (hab : a + b = 1) (o₁ o₂ o₃ : Oracle K)
    (cs₁ cs₂ cs₃ : List (TrajCall K)) (w₁ w₂ w₃ : TrajWalkgen K)
    (hw₁ : TrajReaches o₁ cs₁ w₁) (hw₂ : TrajReaches o₂ cs₂ w₂) (hw₃ : TrajReaches o₃ cs₃ w₃)
    (hs : Spec.MeanSettings a b (settingsOf cs₁) (settingsOf cs₂) (settingsOf cs₃))
    (hx : w₃.getState = Spec.superpose a b w₁.getState w₂.getState) (hr : (settingsOf cs₁).RefsCurrent) (fb : K) (hfb : 0 < fb) :
    ∃ qp₁ qp₂ qp₃, GivesToSolver w₁ fb qp₁ ∧ GivesToSolver w₂ fb qp₂ ∧ GivesToSolver w₃ fb qp₃ ∧
      (∀ J₁ J₂ : ℕ → K, Spec.Feasible qp₁ (fun i => J₁ i - w₁.X.get i) → Spec.Feasible qp₂ (fun i => J₂ i - w₂.X.get i) →
        Spec.Feasible qp₃ fun i => a * J₁ i + b * J₂ i - w₃.X.get i) ∧
      (∀ J₁ J₂, Spec.trajCost (settingsOf cs₃) w₃.getState (fun i => a * J₁ i + b * J₂ i)
        ≤ a * Spec.trajCost (settingsOf cs₁) w₁.getState J₁ + b * Spec.trajCost (settingsOf cs₂) w₂.getState J₂) ∧
      ∀ (p₃ : Oracle K) b₃ w₃', Spec.IsSolution qp₃ (p₃ w₃.solver.calls qp₃ 10000).2 → w₃.solve p₃ fb = .ok (b₃, w₃') →
        ∀ J₁ J₂ : ℕ → K, Spec.Feasible qp₁ (fun i => J₁ i - w₁.X.get i) → Spec.Feasible qp₂ (fun i => J₂ i - w₂.X.get i) →
          Spec.trajCost (settingsOf cs₃) w₃.getState w₃'.X.get
            ≤ a * Spec.trajCost (settingsOf cs₁) w₁.getState J₁ + b * Spec.trajCost (settingsOf cs₂) w₂.getState J₂ := by
  have hr₂ : (settingsOf cs₂).RefsCurrent := ⟨by rw [hs.velRef.size₂, hs.N₂, hr.1], by rw [hs.posRef.size₂, hs.N₂, hr.2]⟩
  have hr₃ : (settingsOf cs₃).RefsCurrent := ⟨by rw [hs.velRef.size₃, hs.N₃, hr.1], by rw [hs.posRef.size₃, hs.N₃, hr.2]⟩
  obtain ⟨qp₁, g₁, f₁⟩ := C18_constraints o₁ cs₁ w₁ hw₁ hr hs.limited₁ fb hfb
  obtain ⟨qp₂, g₂, f₂⟩ := C18_constraints o₂ cs₂ w₂ hw₂ hr₂ hs.limited₂ fb hfb
  obtain ⟨qp₃, g₃, f₃⟩ := C18_constraints o₃ cs₃ w₃ hw₃ hr₃ hs.limited₃ fb hfb
  obtain ⟨qp', g', hopt⟩ := C17_optimal o₃ cs₃ w₃ hw₃ hr₃ hs.limited₃ fb hfb
  obtain rfl := g₃.unique (reachable_inv hw₃) g'
  have hc : ∀ J₁ J₂, Spec.trajCost (settingsOf cs₃) w₃.getState (fun i => a * J₁ i + b * J₂ i)
      ≤ a * Spec.trajCost (settingsOf cs₁) w₁.getState J₁ + b * Spec.trajCost (settingsOf cs₂) w₂.getState J₂ := fun J₁ J₂ => by
    rw [hx]; exact trajCost_mean ha hb hab hs hr _ _ _ _
  have hl : ∀ J₁ J₂ : ℕ → K, Spec.Feasible qp₁ (fun i => J₁ i - w₁.X.get i) → Spec.Feasible qp₂ (fun i => J₂ i - w₂.X.get i) →
      Spec.WithinLimits (settingsOf cs₃) w₃.getState fun i => a * J₁ i + b * J₂ i := by
    intro J₁ J₂ h₁ h₂
    rw [f₁] at h₁
    rw [f₂] at h₂
    simp only [add_sub_cancel] at h₁ h₂
    rw [hx]
    exact within_mean ha hb hs h₁ h₂
  refine ⟨qp₁, qp₂, qp₃, g₁, g₂, g₃, fun J₁ J₂ h₁ h₂ => ?_, hc, fun p₃ b₃ w₃' hp e J₁ J₂ h₁ h₂ => ?_⟩
  · rw [f₃]
    simp only [add_sub_cancel]
    exact hl J₁ J₂ h₁ h₂
  · exact ((hopt p₃ b₃ w₃' hp e).2 _ (hl J₁ J₂ h₁ h₂)).trans (hc J₁ J₂)

/-- **C104 over the real numbers**, where the QPs that allow something have solutions. If there are jerks that keep the first two
generators within their limits, then `solve` of the third one succeeds and keeps it within its limits, at no more than the mean
of the costs of such jerks. -/
theorem C104_real (a b : ℝ) (ha : 0 ≤ a) (hb : 0 ≤ b) (hab : a + b = 1) (o₁ o₂ o₃ p₃ : Oracle ℝ) (ho : Spec.FindsSolution p₃)
    (cs₁ cs₂ cs₃ : List (TrajCall ℝ)) (w₁ w₂ w₃ : TrajWalkgen ℝ)
    (hw₁ : TrajReaches o₁ cs₁ w₁) (hw₂ : TrajReaches o₂ cs₂ w₂) (hw₃ : TrajReaches o₃ cs₃ w₃)
    (hs : Spec.MeanSettings a b (settingsOf cs₁) (settingsOf cs₂) (settingsOf cs₃))
    (hx : w₃.getState = Spec.superpose a b w₁.getState w₂.getState) (hr : (settingsOf cs₁).RefsCurrent) (fb : ℝ) (hfb : 0 < fb)
    (h₁ : ∃ J, Spec.WithinLimits (settingsOf cs₁) w₁.getState J) (h₂ : ∃ J, Spec.WithinLimits (settingsOf cs₂) w₂.getState J) :
    ∃ b₃ w₃', w₃.solve p₃ fb = .ok (b₃, w₃') ∧ Spec.WithinLimits (settingsOf cs₃) w₃.getState w₃'.X.get ∧
      ∀ J₁ J₂, Spec.WithinLimits (settingsOf cs₁) w₁.getState J₁ → Spec.WithinLimits (settingsOf cs₂) w₂.getState J₂ →
        Spec.trajCost (settingsOf cs₃) w₃.getState w₃'.X.get
          ≤ a * Spec.trajCost (settingsOf cs₁) w₁.getState J₁ + b * Spec.trajCost (settingsOf cs₂) w₂.getState J₂ := by
  have hr₃ : (settingsOf cs₃).RefsCurrent := ⟨by rw [hs.velRef.size₃, hs.N₃, hr.1], by rw [hs.posRef.size₃, hs.N₃, hr.2]⟩
  have h₃ := reachable_inv hw₃
  obtain ⟨qp₃, g₃, f₃⟩ := C18_constraints o₃ cs₃ w₃ hw₃ hr₃ hs.limited₃ fb hfb
  obtain ⟨qp', g', hopt⟩ := C17_optimal o₃ cs₃ w₃ hw₃ hr₃ hs.limited₃ fb hfb
  obtain rfl := g₃.unique h₃ g'
  obtain ⟨qp', g', hq, hsv⟩ := givesToSolver_of_prepared h₃ hr₃ hfb
  obtain rfl := g₃.unique h₃ g'
  obtain ⟨J₁, hJ₁⟩ := h₁
  obtain ⟨J₂, hJ₂⟩ := h₂
  have hsol := ho w₃.solver.calls qp₃ 10000 (solution_exists (hq.consistent h₃)
    ⟨fun i => a * J₁ i + b * J₂ i - w₃.X.get i, by
      rw [f₃]
      simp only [add_sub_cancel]
      rw [hx]
      exact within_mean ha hb hs hJ₁ hJ₂⟩)
  obtain ⟨hl, hm⟩ := hopt p₃ _ _ hsol (hsv p₃)
  refine ⟨_, _, hsv p₃, hl, fun J₁ J₂ hJ₁ hJ₂ => ?_⟩
  refine (hm (fun i => a * J₁ i + b * J₂ i) (by rw [hx]; exact within_mean ha hb hs hJ₁ hJ₂)).trans ?_
  rw [hx]
  exact trajCost_mean ha hb hab hs hr _ _ _ _

/-! ### Robots that move at different velocities, with different limits -/

/-- Calls that set a limit and a reference of the velocity, and the velocity. -/
def velocityCalls (L r v : K) : List (TrajCall K) :=
  [] ++ [.setVelLimit L] ++ [.setConfig true] ++ [.setVelRef ⟨1, fun _ => r⟩] ++ [.setWeightings ⟨1, 1, 1 / 100⟩] ++
    [.setState ⟨3, fun i => if i = 1 then v else 0⟩]

theorem velocityCalls_reach (o : Oracle K) {L : K} (hL : 0 ≤ L) (r v : K) :
    ∃ w, TrajReaches o (velocityCalls L r v) w ∧ w.getState = ⟨0, v, 0⟩ := by
  obtain ⟨w, hw⟩ := C16_no_fault_partial o (velocityCalls L r v)
    (by simp [velocityCalls, Spec.TrajSettings.Legal, Spec.TrajSettings.Pre, Spec.TrajSettings.apply, Spec.TrajSettings.init, hL])
    (by simp [velocityCalls, Spec.TrajSettings.RefsCurrentAtSolves])
  refine ⟨w, hw, ?_⟩
  obtain ⟨u', b', hu', e'⟩ := trajReaches_append.1 hw
  rw [setter_state (reachable_inv hu') e']
  norm_num

theorem velocityCalls_within {L : K} (r : K) {v : K} (hv : |v| ≤ L) :
    Spec.WithinLimits (settingsOf (velocityCalls L r v)) ⟨0, v, 0⟩ (fun _ => 0) := by
  intro i hi
  obtain rfl : i = 0 := by
    have : i < 1 := hi
    omega
  simp [settingsOf, velocityCalls, Spec.TrajSettings.after, Spec.TrajSettings.apply, Spec.TrajSettings.init, Spec.jerkTrajectory,
    Spec.cubic, hv]

/-- **C104, the weights must not be negative.** With the weights 2 and -1, two generators that move within the limit 1 at the velocities 1
and -1 have feasible QPs, and the one that moves at the velocity 3 has not. -/
theorem C104_weights (o : Oracle K) : ∃ w₁ w₂ w₃ : TrajWalkgen K, TrajReaches o (velocityCalls 1 1 1) w₁ ∧
    TrajReaches o (velocityCalls 1 (-1) (-1)) w₂ ∧ TrajReaches o (velocityCalls 1 3 3) w₃ ∧
    Spec.MeanSettings 2 (-1) (settingsOf (velocityCalls (1 : K) 1 1)) (settingsOf (velocityCalls 1 (-1) (-1)))
      (settingsOf (velocityCalls 1 3 3)) ∧
    w₃.getState = Spec.superpose 2 (-1) w₁.getState w₂.getState ∧
    ∃ qp₁ qp₂ qp₃, GivesToSolver w₁ 1 qp₁ ∧ GivesToSolver w₂ 1 qp₂ ∧ GivesToSolver w₃ 1 qp₃ ∧
      (∃ d, Spec.Feasible qp₁ d) ∧ (∃ d, Spec.Feasible qp₂ d) ∧ ¬ ∃ d, Spec.Feasible qp₃ d := by
  obtain ⟨w₁, h₁, x₁⟩ := velocityCalls_reach o (zero_le_one' K) 1 1
  obtain ⟨w₂, h₂, x₂⟩ := velocityCalls_reach o (zero_le_one' K) (-1) (-1)
  obtain ⟨w₃, h₃, x₃⟩ := velocityCalls_reach o (zero_le_one' K) 3 3
  obtain ⟨qp₁, g₁, f₁⟩ := C18_constraints o _ w₁ h₁ ⟨rfl, rfl⟩ rfl 1 one_pos
  obtain ⟨qp₂, g₂, f₂⟩ := C18_constraints o _ w₂ h₂ ⟨rfl, rfl⟩ rfl 1 one_pos
  obtain ⟨qp₃, g₃, f₃⟩ := C18_constraints o _ w₃ h₃ ⟨rfl, rfl⟩ rfl 1 one_pos
  refine ⟨w₁, w₂, w₃, h₁, h₂, h₃, ⟨rfl, rfl, rfl, rfl, rfl, rfl, rfl, rfl, rfl, ?_, ?_, ?_, ⟨rfl, rfl, fun i _ => ?_⟩,
    ⟨rfl, rfl, fun i _ => ?_⟩⟩, ?_, qp₁, qp₂, qp₃, g₁, g₂, g₃, ⟨fun i => 0 - w₁.X.get i, ?_⟩, ⟨fun i => 0 - w₂.X.get i, ?_⟩, ?_⟩
  · change 2 * (1 : K) + -1 * 1 ≤ 1; norm_num
  · change 2 * (1 : K) + -1 * 1 ≤ 1; norm_num
  · change 2 * (1 : K) + -1 * 1 ≤ 1; norm_num
  · change (3 : K) = 2 * 1 + -1 * -1; norm_num
  · change (0 : K) = 2 * 0 + -1 * 0; norm_num
  · rw [x₁, x₂, x₃]; simp only [Spec.superpose, State3.mk.injEq]; norm_num
  · rw [f₁, x₁]; simp only [add_sub_cancel]; exact velocityCalls_within _ (by norm_num)
  · rw [f₂, x₂]; simp only [add_sub_cancel]; exact velocityCalls_within _ (by norm_num)
  · rintro ⟨d, hd⟩
    rw [f₃, x₃] at hd
    obtain ⟨hv, -, hj⟩ := hd 0 (by change 0 < 1; omega)
    simp [settingsOf, velocityCalls, Spec.TrajSettings.after, Spec.TrajSettings.apply, Spec.TrajSettings.init, Spec.jerkTrajectory,
      Spec.cubic] at hv hj
    rw [abs_le] at hv hj
    linarith [hv.2, hj.1]

/-- The hypotheses of `C104_convex` and `C104_real` are met by a generator that moves at the velocity -1 within the limit 1 and
has to move at 2, one that moves at 3 within the limit 3 and has to stop, and one in the middle. -/
example (o : Oracle ℝ) (ho : Spec.FindsSolution o) : ∃ w₁ w₂ w₃ b₃ w₃', TrajReaches o (velocityCalls 1 2 (-1)) w₁ ∧
    TrajReaches o (velocityCalls 3 0 3) w₂ ∧ TrajReaches o (velocityCalls 2 1 1) w₃ ∧ w₃.solve o 1 = .ok (b₃, w₃') ∧
    Spec.WithinLimits (settingsOf (velocityCalls 2 1 1)) w₃.getState w₃'.X.get := by
  obtain ⟨w₁, h₁, x₁⟩ := velocityCalls_reach o (zero_le_one' ℝ) 2 (-1)
  obtain ⟨w₂, h₂, x₂⟩ := velocityCalls_reach o (L := (3 : ℝ)) (by norm_num) 0 3
  obtain ⟨w₃, h₃, x₃⟩ := velocityCalls_reach o (L := (2 : ℝ)) (by norm_num) 1 1
  obtain ⟨b₃, w₃', e, hl, -⟩ := C104_real (1 / 2) (1 / 2) (by norm_num) (by norm_num) (by norm_num) o o o o ho _ _ _ w₁ w₂ w₃ h₁ h₂ h₃
    ⟨rfl, rfl, rfl, rfl, rfl, rfl, rfl, rfl, rfl, by change 1 / 2 * (1 : ℝ) + 1 / 2 * 3 ≤ 2; norm_num,
      by change 1 / 2 * (1 : ℝ) + 1 / 2 * 1 ≤ 1; norm_num, by change 1 / 2 * (1 : ℝ) + 1 / 2 * 1 ≤ 1; norm_num,
      ⟨rfl, rfl, fun i _ => by change (1 : ℝ) = 1 / 2 * 2 + 1 / 2 * 0; norm_num⟩,
      ⟨rfl, rfl, fun i _ => by change (0 : ℝ) = 1 / 2 * 0 + 1 / 2 * 0; norm_num⟩⟩
    (by rw [x₁, x₂, x₃]; simp only [Spec.superpose, State3.mk.injEq]; norm_num) ⟨rfl, rfl⟩ 1 one_pos
    ⟨_, by rw [x₁]; exact velocityCalls_within _ (by norm_num)⟩ ⟨_, by rw [x₂]; exact velocityCalls_within _ (by norm_num)⟩
  exact ⟨w₁, w₂, w₃, b₃, w₃', h₁, h₂, h₃, e, hl⟩

end MPC
