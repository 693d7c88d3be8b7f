import Verif.Lemmas.HumConvert

/-! # The cost of the QP of `HumanoidWalkgen` -/

set_option linter.unusedSectionVars false

namespace MPC

open Finset

variable {K : Type} [Field K] [LinearOrder K] [IsStrictOrderedRing K]

theorem cost_eq_dot (q : QPMatrices K) (x : ℕ → K) :
    Spec.cost q x = 1 / 2 * dot q.Q.rows (mv q.Q x) x + dot q.p.size q.p.get x := by
  unfold Spec.cost
  rw [quad_eq_dot]
  rfl

theorem reset_cost (q : QPMatrices K) (x : ℕ → K) : Spec.cost q.reset x = 0 := by
  simp [Spec.cost, QPMatrices.reset, Vec.fill]

/-- Adding an objective. -/
theorem addObjective_cost {q q' : QPMatrices K} {w : K} {h : Res (Mat K)} {g : Res (Vec K)}
    (e : q.addObjective w h g = .ok q') :
    (w ≤ 0 ∧ ∀ x, Spec.cost q' x = Spec.cost q x) ∨
    (0 < w ∧ ∃ H G, h = .ok H ∧ g = .ok G ∧ ∀ x, Spec.cost q' x = Spec.cost q x
      + w * (1 / 2 * dot H.rows (mv H x) x + dot G.size G.get x)) := by
  rcases addObjective_ok e with ⟨hw, rfl⟩ | ⟨hw, H, G, hH, hG, e1, e2, e3, rfl⟩
  · exact Or.inl ⟨hw, fun _ => rfl⟩
  refine Or.inr ⟨hw, H, G, hH, hG, fun x => ?_⟩
  rw [cost_eq_dot, cost_eq_dot]
  simp only
  rw [← e1, ← e3]
  have a1 : dot q.Q.rows (mv ⟨q.Q.rows, q.Q.cols, fun i j => q.Q.get i j + w * H.get i j⟩ x) x
      = dot q.Q.rows (mv q.Q x) x + w * dot q.Q.rows (mv H x) x := by
    unfold dot mv
    rw [mul_sum, ← sum_add_distrib]
    refine sum_congr rfl fun i _ => ?_
    simp only
    rw [← e2, sum_mul, sum_mul, sum_mul, mul_sum, ← sum_add_distrib]
    exact sum_congr rfl fun j _ => by ring
  have a2 : dot q.p.size (fun i => q.p.get i + w * G.get i) x
      = dot q.p.size q.p.get x + w * dot q.p.size G.get x := by
    unfold dot
    rw [mul_sum, ← sum_add_distrib]
    exact sum_congr rfl fun i _ => by ring
  rw [a1, a2]
  ring

variable [FloorRing K]

/-- Velocities given by the jerks. -/
theorem axisVel_eq {l : Lip K} (hf : l.Fresh) {nb : ℤ} {dv : LinearDynamic K}
    (hdv : l.dyn l.vel nb = .ok dv) (st : State3 K) (J : ℕ → K) {i : ℕ} (hi : i < l.N) :
    axisVel dv st J i = (Spec.jerkTrajectory (((nb + 1 : ℤ) : K) * l.fb) l.T st J i).v := by
  obtain ⟨k, rfl, hk, rfl⟩ := Lip.dyn_ok hdv
  rw [hf.vel k hk, ← row_vel _ _ l.N _ _ hi]
  unfold axisVel mv
  simp only [velDyn]
  push_cast
  rfl

/-- The jerks of the plan `X`, along `x` then along `y`. -/
def humJerk (l : Lip K) (s : Sup K) (dx dy : LinearDynamic K) (Bx By : Mat K) (px py : State3 K)
    (X : ℕ → K) (i : ℕ) : K :=
  if i < l.N then jerkX l s dx Bx px X i else jerkY l s dy By py X (i - l.N)

theorem jerkTrajectory_congr {S T : K} {x : State3 K} {J J' : ℕ → K} {i : ℕ} (h : ∀ k ≤ i, J k = J' k) :
    Spec.jerkTrajectory S T x J i = Spec.jerkTrajectory S T x J' i := by
  induction i with
  | zero => simp only [Spec.jerkTrajectory]; rw [h 0 le_rfl]
  | succ i ih => simp only [Spec.jerkTrajectory]; rw [h (i + 1) le_rfl, ih fun k hk => h k (by omega)]

theorem humCost_congr {wg : HWeighting K} {N : ℕ} {S T : K} {x y : State3 K} {ref wt X J J' : ℕ → K}
    (h : ∀ i < 2 * N, J i = J' i) :
    Spec.humCost wg N S T x y ref wt X J = Spec.humCost wg N S T x y ref wt X J' := by
  unfold Spec.humCost
  have e1 : ∀ i < N, Spec.jerkTrajectory S T x J i = Spec.jerkTrajectory S T x J' i :=
    fun i hi => jerkTrajectory_congr fun k hk => h k (by omega)
  have e2 : ∀ i < N, Spec.jerkTrajectory S T y (fun k => J (N + k)) i
      = Spec.jerkTrajectory S T y (fun k => J' (N + k)) i :=
    fun i hi => jerkTrajectory_congr fun k hk => h _ (by omega)
  congr 2
  · congr 1
    refine sum_congr rfl fun i hi => ?_
    have hi := mem_range.1 hi
    rw [e1 i hi, e2 i hi]
  · congr 1
    refine sum_congr rfl fun i hi => ?_
    have hi := mem_range.1 hi
    rw [h i (by omega), h (N + i) (by omega)]

theorem humData_unique {l : Lip K} {s : Sup K} {nb nb' : ℤ} {dx dy dx' dy' : LinearDynamic K}
    {Bx By Bx' By' : Mat K} {px py px' py' : State3 K} (h : HumData l s nb dx dy Bx By px py)
    (h' : HumData l s nb' dx' dy' Bx' By' px' py') :
    nb' = nb ∧ dx' = dx ∧ dy' = dy ∧ Bx' = Bx ∧ By' = By ∧ px' = px ∧ py' = py := by
  have a := Except.ok.inj (h'.hnb.symm.trans h.hnb)
  subst a
  have b := Except.ok.inj (h'.hdx.symm.trans h.hdx)
  have c := Except.ok.inj (h'.hdy.symm.trans h.hdy)
  subst b c
  exact ⟨rfl, rfl, rfl, Option.some.inj (h'.hBx.inv.symm.trans h.hBx.inv),
    Option.some.inj (h'.hBy.inv.symm.trans h.hBy.inv), Except.ok.inj (h'.hpx.symm.trans h.hpx),
    Except.ok.inj (h'.hpy.symm.trans h.hpy)⟩

/-- The velocity part of the cost at the plan `X`. -/
theorem vel_part {l : Lip K} {s : Sup K} (hf : l.Fresh) {nb : ℤ} {dx dy dv : LinearDynamic K}
    {Bx By : Mat K} {px py : State3 K} (hdv : l.dyn l.vel nb = .ok dv) (ref : ℕ → K) (X : ℕ → K) :
    ∑ k ∈ range l.N, s.weight.get k k * (axisVel dv l.x (jerkX l s dx Bx px X) k - ref k) ^ 2
      + ∑ k ∈ range l.N, s.weight.get k k * (axisVel dv l.y (jerkY l s dy By py X) k - ref (l.N + k)) ^ 2
    = ∑ i ∈ range l.N, s.weight.get i i *
      (((Spec.jerkTrajectory (((nb + 1 : ℤ) : K) * l.fb) l.T l.x (humJerk l s dx dy Bx By px py X) i).v
          - ref i) ^ 2
        + ((Spec.jerkTrajectory (((nb + 1 : ℤ) : K) * l.fb) l.T l.y
            (fun k => humJerk l s dx dy Bx By px py X (l.N + k)) i).v - ref (l.N + i)) ^ 2) := by
  rw [← sum_add_distrib]
  refine sum_congr rfl fun i hi => ?_
  have hi := mem_range.1 hi
  rw [axisVel_eq hf hdv _ _ hi, axisVel_eq hf hdv _ _ hi,
    jerkTrajectory_congr (J := jerkX l s dx Bx px X) (J' := humJerk l s dx dy Bx By px py X)
      (fun k hk => by unfold humJerk; rw [if_pos (by omega)]),
    jerkTrajectory_congr (J := jerkY l s dy By py X) (J' := fun k => humJerk l s dx dy Bx By px py X (l.N + k))
      (fun k hk => by unfold humJerk; rw [if_neg (by omega), Nat.add_sub_cancel_left])]
  ring

theorem jerk_part {l : Lip K} {s : Sup K} {dx dy : LinearDynamic K}
    {Bx By : Mat K} {px py : State3 K} (X : ℕ → K) :
    ∑ k ∈ range l.N, s.weight.get k k * jerkX l s dx Bx px X k ^ 2
      + ∑ k ∈ range l.N, s.weight.get k k * jerkY l s dy By py X k ^ 2
    = ∑ i ∈ range l.N, s.weight.get i i * (humJerk l s dx dy Bx By px py X i ^ 2
        + humJerk l s dx dy Bx By px py X (l.N + i) ^ 2) := by
  rw [← sum_add_distrib]
  refine sum_congr rfl fun i hi => ?_
  have hi := mem_range.1 hi
  unfold humJerk
  rw [if_pos hi, if_neg (by omega), Nat.add_sub_cancel_left]
  ring

/-- The three objectives, without normalisation. -/
theorem hum_objectives {l : Lip K} {s : Sup K} (hf : l.Fresh) (hs : s.Shaped) {wg : HWeighting K}
    {q q1 q2 q3 : QPMatrices K} {ref X : Vec K}
    (h1 : q.reset.addObjective wg.velocityTracking (velHessian l s) (velGradient l s ref X) = .ok q1)
    (h2 : q1.addObjective wg.jerkMinimization (jerkHessian l s) (jerkGradient l s X) = .ok q2)
    (h3 : q2.addObjective wg.copCentering (centeringHessian l s) (centeringGradient l s X) = .ok q3) :
    ∃ (S : K) (J : (ℕ → K) → ℕ → K),
      (0 < wg.velocityTracking ∨ 0 < wg.jerkMinimization → X.size = 2 * l.N + 2 * s.M ∧
        ∃ nb dx dy Bx By px py, HumData l s nb dx dy Bx By px py) ∧
      (∀ nb dx dy Bx By px py, HumData l s nb dx dy Bx By px py →
        J = humJerk l s dx dy Bx By px py) ∧
      (∀ nb, s.nb = .ok nb → S = ((nb + 1 : ℤ) : K) * l.fb) ∧
      ∀ x : ℕ → K, Spec.cost q3 x
        = Spec.humCost wg l.N S l.T l.x l.y ref.get (fun i => s.weight.get i i)
            (fun k => X.get k + x k) (J fun k => X.get k + x k)
          - Spec.humCost wg l.N S l.T l.x l.y ref.get (fun i => s.weight.get i i) X.get (J X.get) := by
  have hc : (wg.copCentering ≤ 0 ∧ ∀ x, Spec.cost q3 x = Spec.cost q2 x) ∨ (0 < wg.copCentering ∧
      ∀ x, Spec.cost q3 x = Spec.cost q2 x + wg.copCentering * (1 / 2 * ∑ k ∈ range (2 * l.N), (X.get k + x k) ^ 2
        - 1 / 2 * ∑ k ∈ range (2 * l.N), X.get k ^ 2)) := by
    rcases addObjective_cost h3 with h | ⟨hw, H, G, hH, hG, h⟩
    · exact Or.inl h
    · obtain ⟨-, a1, -, a3, a4⟩ := centering_ok hH hG
      exact Or.inr ⟨hw, fun x => by rw [h, a1, a3, a4]⟩
  have hcop : ∀ x, Spec.cost q3 x = Spec.cost q2 x
      + max wg.copCentering 0 * (1 / 2 * ∑ k ∈ range (2 * l.N), (X.get k + x k) ^ 2
        - 1 / 2 * ∑ k ∈ range (2 * l.N), X.get k ^ 2) := by
    intro x
    rcases hc with ⟨hw, h⟩ | ⟨hw, h⟩
    · rw [h, max_eq_right hw]; ring
    · rw [h, max_eq_left hw.le]
  have hd : (0 < wg.velocityTracking ∨ 0 < wg.jerkMinimization → X.size = 2 * l.N + 2 * s.M ∧
      ∃ nb dx dy Bx By px py, HumData l s nb dx dy Bx By px py) := by
    rintro (hw | hw)
    · rcases addObjective_cost h1 with ⟨h, -⟩ | ⟨-, H, G, hH, hG, -⟩
      · exact absurd hw (not_lt.2 h)
      · obtain ⟨nb, dx, dy, Bx, By, px, py, dv, hD, hdv⟩ := vel_data hf hH hG
        exact ⟨(velGradient_ok hD hs hdv (hf.velDyn hdv) hH hG).2.1, nb, dx, dy, Bx, By, px, py, hD⟩
    · rcases addObjective_cost h2 with ⟨h, -⟩ | ⟨-, H, G, hH, hG, -⟩
      · exact absurd hw (not_lt.2 h)
      · obtain ⟨nb, dx, dy, Bx, By, px, py, hD⟩ := jerk_data hf hH hG
        exact ⟨(jerkGradient_ok hD hs hH hG).1, nb, dx, dy, Bx, By, px, py, hD⟩
  by_cases hex : ∃ nb dx dy Bx By px py, HumData l s nb dx dy Bx By px py
  · obtain ⟨nb, dx, dy, Bx, By, px, py, hD⟩ := hex
    refine ⟨((nb + 1 : ℤ) : K) * l.fb, humJerk l s dx dy Bx By px py, hd, ?_, ?_, ?_⟩
    · intro nb' dx' dy' Bx' By' px' py' hD'
      obtain ⟨rfl, rfl, rfl, rfl, rfl, rfl, rfl⟩ := humData_unique hD hD'
      rfl
    · intro nb' h
      rw [Except.ok.inj (h.symm.trans hD.hnb)]
    · intro x
      have hv : Spec.cost q1 x = max wg.velocityTracking 0 *
          (1 / 2 * ∑ i ∈ range l.N, s.weight.get i i *
      (((Spec.jerkTrajectory (((nb + 1 : ℤ) : K) * l.fb) l.T l.x (humJerk l s dx dy Bx By px py
          fun k => X.get k + x k) i).v - ref.get i) ^ 2
        + ((Spec.jerkTrajectory (((nb + 1 : ℤ) : K) * l.fb) l.T l.y
            (fun k => humJerk l s dx dy Bx By px py (fun k => X.get k + x k) (l.N + k)) i).v
              - ref.get (l.N + i)) ^ 2)
          - 1 / 2 * ∑ i ∈ range l.N, s.weight.get i i *
      (((Spec.jerkTrajectory (((nb + 1 : ℤ) : K) * l.fb) l.T l.x (humJerk l s dx dy Bx By px py X.get) i).v
          - ref.get i) ^ 2
        + ((Spec.jerkTrajectory (((nb + 1 : ℤ) : K) * l.fb) l.T l.y
            (fun k => humJerk l s dx dy Bx By px py X.get (l.N + k)) i).v - ref.get (l.N + i)) ^ 2)) := by
        rcases addObjective_cost h1 with ⟨hw, h⟩ | ⟨hw, H, G, hH, hG, h⟩
        · rw [h, max_eq_right hw, reset_cost, zero_mul]
        · obtain ⟨nb', dx', dy', Bx', By', px', py', dv, hD', hdv⟩ := vel_data hf hH hG
          obtain ⟨rfl, rfl, rfl, rfl, rfl, rfl, rfl⟩ := humData_unique hD hD'
          obtain ⟨-, -, b1, -⟩ := (velHessian_ok hD hs hdv (hf.velDyn hdv) hH).2
          obtain ⟨-, -, b3, b4⟩ := velGradient_ok hD hs hdv (hf.velDyn hdv) hH hG
          rw [h, reset_cost, b1, b3, b4, max_eq_left hw.le, zero_add, ← vel_part hf hdv, ← vel_part hf hdv]
      have hj : Spec.cost q2 x = Spec.cost q1 x + max wg.jerkMinimization 0 *
          (1 / 2 * ∑ i ∈ range l.N, s.weight.get i i *
            (humJerk l s dx dy Bx By px py (fun k => X.get k + x k) i ^ 2
              + humJerk l s dx dy Bx By px py (fun k => X.get k + x k) (l.N + i) ^ 2)
          - 1 / 2 * ∑ i ∈ range l.N, s.weight.get i i * (humJerk l s dx dy Bx By px py X.get i ^ 2
            + humJerk l s dx dy Bx By px py X.get (l.N + i) ^ 2)) := by
        rcases addObjective_cost h2 with ⟨hw, h⟩ | ⟨hw, H, G, hH, hG, h⟩
        · rw [h, max_eq_right hw]; ring
        · obtain ⟨-, -, b1, -⟩ := (jerkHessian_ok hD hs hH).2
          obtain ⟨-, b3, b4⟩ := jerkGradient_ok hD hs hH hG
          rw [h, b1, b3, b4, max_eq_left hw.le, ← jerk_part, ← jerk_part]
      rw [hcop, hj, hv]
      unfold Spec.humCost
      ring
  · have hnv : wg.velocityTracking ≤ 0 := not_lt.1 fun h => hex (hd (Or.inl h)).2
    have hnj : wg.jerkMinimization ≤ 0 := not_lt.1 fun h => hex (hd (Or.inr h)).2
    have e1 : ∀ x, Spec.cost q1 x = 0 := by
      intro x
      rcases addObjective_cost h1 with ⟨-, h⟩ | ⟨hw, -⟩
      · rw [h, reset_cost]
      · exact absurd hw (not_lt.2 hnv)
    have e2 : ∀ x, Spec.cost q2 x = 0 := by
      intro x
      rcases addObjective_cost h2 with ⟨-, h⟩ | ⟨hw, -⟩
      · rw [h, e1]
      · exact absurd hw (not_lt.2 hnj)
    have key : ∀ S : K, ∀ x, Spec.cost q3 x
        = Spec.humCost wg l.N S l.T l.x l.y ref.get (fun i => s.weight.get i i)
            (fun k => X.get k + x k) (fun _ => 0)
          - Spec.humCost wg l.N S l.T l.x l.y ref.get (fun i => s.weight.get i i) X.get (fun _ => 0) := by
      intro S x
      rw [hcop, e2]
      unfold Spec.humCost
      rw [max_eq_right hnv, max_eq_right hnj]
      ring
    cases hnb : s.nb with
    | error e =>
      exact ⟨0, fun _ _ => 0, hd, fun nb dx dy Bx By px py hD => absurd ⟨nb, dx, dy, Bx, By, px, py, hD⟩ hex,
        (fun nb h => by cases h), key 0⟩
    | ok nb =>
      exact ⟨((nb + 1 : ℤ) : K) * l.fb, fun _ _ => 0, hd,
        fun nb dx dy Bx By px py hD => absurd ⟨nb, dx, dy, Bx, By, px, py, hD⟩ hex,
        (fun nb' h => by rw [Except.ok.inj h]), key _⟩

end MPC
