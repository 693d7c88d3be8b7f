import Verif.Lemmas.HumTotal

/-! # Convexity of the QP of `HumanoidWalkgen` -/

set_option linter.unusedSectionVars false

namespace MPC

open Finset

variable {K : Type} [Field K] [LinearOrder K] [IsStrictOrderedRing K]

/-- `zᵀ Q x`. -/
def bil (Q : Mat K) (x z : ℕ → K) : K := dot Q.rows (mv Q x) z

/-- The bilinear form is symmetric and at least `m` times the squares of the first `n` entries. -/
structure SymAbove (Q : Mat K) (m : K) (n : ℕ) : Prop where
  sym : ∀ x z, bil Q x z = bil Q z x
  above : ∀ x, m * ∑ k ∈ range n, x k ^ 2 ≤ bil Q x x

theorem bil_add {Q H Q' : Mat K} {w : K} (hr : Q.rows = H.rows) (hc : Q.cols = H.cols)
    (e : Q' = ⟨Q.rows, Q.cols, fun i j => Q.get i j + w * H.get i j⟩) (x z : ℕ → K) :
    bil Q' x z = bil Q x z + w * bil H x z := by
  subst e
  unfold bil dot mv
  rw [← hr, ← hc, mul_sum, ← sum_add_distrib]
  refine sum_congr rfl fun i _ => ?_
  simp only
  rw [sum_mul, sum_mul, sum_mul, mul_sum, ← sum_add_distrib]
  exact sum_congr rfl fun j _ => by ring

theorem SymAbove.addObjective {q q' : QPMatrices K} {w m m' : K} {n : ℕ} {h : Res (Mat K)} {g : Res (Vec K)}
    (hq : SymAbove q.Q m n) (e : q.addObjective w h g = .ok q')
    (hH : ∀ H G, 0 < w → h = .ok H → g = .ok G → SymAbove H m' n) :
    SymAbove q'.Q (m + max w 0 * m') n := by
  rcases addObjective_ok e with ⟨hw, rfl⟩ | ⟨hw, H, G, h1, h2, e1, e2, e3, rfl⟩
  · rw [max_eq_right hw, zero_mul, add_zero]
    exact hq
  · have hs := hH H G hw h1 h2
    rw [max_eq_left hw.le]
    refine ⟨fun x z => ?_, fun x => ?_⟩
    · rw [bil_add e1 e2 rfl, bil_add e1 e2 rfl, hq.sym, hs.sym]
    · rw [bil_add e1 e2 rfl]
      have := mul_le_mul_of_nonneg_left (hs.above x) hw.le
      have := hq.above x
      rw [add_mul, mul_assoc]
      linarith

theorem reset_symAbove (q : QPMatrices K) (n : ℕ) : SymAbove q.reset.Q 0 n := by
  refine ⟨fun x z => ?_, fun x => ?_⟩
  · simp [bil, dot, mv, QPMatrices.reset]
  · simp [bil, dot, mv, QPMatrices.reset]

theorem symAbove_scale {Q : Mat K} {m c : K} {n : ℕ} (hc : 0 < c) (h : SymAbove Q m n) :
    SymAbove (Mat.smul c Q) (c * m) n := by
  have e : ∀ x z, bil (Mat.smul c Q) x z = c * bil Q x z := by
    intro x z
    unfold bil dot mv Mat.smul
    rw [mul_sum]
    refine sum_congr rfl fun i _ => ?_
    simp only
    rw [sum_mul, sum_mul, mul_sum]
    exact sum_congr rfl fun j _ => by ring
  refine ⟨fun x z => by rw [e, e, h.sym], fun x => ?_⟩
  rw [e, mul_assoc]
  exact mul_le_mul_of_nonneg_left (h.above x) hc.le

/-- A form that is a weighted sum of products along both axes. -/
theorem symAbove_of_sum {H : Mat K} {N n r : ℕ} {W : ℕ → K} (hW : ∀ k < N, 0 ≤ W k) {La Lb : (ℕ → K) → ℕ → K}
    (hr : H.rows = r) (h : ∀ x z, dot r (mv H x) z = ∑ k ∈ range N, W k * La x k * La z k
      + ∑ k ∈ range N, W k * Lb x k * Lb z k) : SymAbove H 0 n := by
  subst hr
  refine ⟨fun x z => ?_, fun x => ?_⟩
  · unfold bil
    rw [h, h]
    congr 1 <;> exact sum_congr rfl fun k _ => by ring
  · unfold bil
    rw [h, zero_mul]
    refine add_nonneg (sum_nonneg fun k hk => ?_) (sum_nonneg fun k hk => ?_)
    all_goals
      rw [mul_assoc]
      exact mul_nonneg (hW k (mem_range.1 hk)) (mul_self_nonneg _)

theorem SymAbove.entries {Q : Mat K} {m : K} {n : ℕ} (h : SymAbove Q m n) (hc : Q.rows = Q.cols) :
    ∀ i < Q.rows, ∀ j < Q.cols, Q.get i j = Q.get j i := by
  have e : ∀ i < Q.rows, ∀ j < Q.cols, bil Q (fun k => if k = j then 1 else 0) (fun k => if k = i then 1 else 0)
      = Q.get i j := by
    intro i hi j hj
    unfold bil dot mv
    rw [sum_eq_single i, sum_eq_single j]
    · simp
    · intro b _ hb; simp [hb]
    · intro hn; exact absurd (mem_range.2 hj) hn
    · intro b _ hb; simp [hb]
    · intro hn; exact absurd (mem_range.2 hi) hn
  intro i hi j hj
  rw [← e i hi j hj, h.sym, e j (hc ▸ hj) i (hc ▸ hi)]

theorem SymAbove.quadForm {Q : Mat K} {m : K} {n : ℕ} (h : SymAbove Q m n) (d : ℕ → K) :
    m * ∑ k ∈ range n, d k ^ 2 ≤ ∑ i ∈ range Q.rows, ∑ j ∈ range Q.cols, d i * Q.get i j * d j := by
  rw [quad_eq_dot]
  exact h.above d

variable [FloorRing K]

theorem centering_symAbove {l : Lip K} {s : Sup K} {H : Mat K} {x0 G : Vec K} (hH : centeringHessian l s = .ok H)
    (hG : centeringGradient l s x0 = .ok G) : SymAbove H 1 (2 * l.N) := by
  obtain ⟨-, h1, h2, h3, h4⟩ := centering_ok hH hG
  have hsym : ∀ i j, H.get i j = H.get j i := by
    unfold centeringHessian at hH
    obtain ⟨-, -, -, -, rfl⟩ := Mat.setBlock?_eq_ok hH
    intro i j
    simp only [Mat.zero, Mat.one]
    by_cases hij : i = j
    · subst hij; rfl
    · simp [hij, Ne.symm hij]
  refine ⟨fun x z => ?_, fun x => ?_⟩
  · unfold bil dot mv
    rw [h1, h2]
    simp_rw [sum_mul]
    rw [sum_comm]
    refine sum_congr rfl fun i _ => sum_congr rfl fun j _ => ?_
    rw [hsym]; ring
  · have a1 := h4 x
    have a2 := h4 (fun k => - x k)
    have e1 : dot (2 * l.N + 2 * s.M) (mv H fun k => -x k) (fun k => -x k) = dot (2 * l.N + 2 * s.M) (mv H x) x := by
      unfold dot mv
      refine sum_congr rfl fun i _ => ?_
      simp
    have e2 : dot (2 * l.N + 2 * s.M) G.get (fun k => -x k) = - dot (2 * l.N + 2 * s.M) G.get x := by
      unfold dot
      rw [← sum_neg_distrib]
      exact sum_congr rfl fun i _ => by ring
    rw [e1, e2] at a2
    have e3 : ∑ k ∈ range (2 * l.N), (x0.get k + x k) ^ 2 + ∑ k ∈ range (2 * l.N), (x0.get k + -x k) ^ 2
        = 2 * ∑ k ∈ range (2 * l.N), x0.get k ^ 2 + 2 * ∑ k ∈ range (2 * l.N), x k ^ 2 := by
      rw [mul_sum, mul_sum, ← sum_add_distrib, ← sum_add_distrib]
      exact sum_congr rfl fun k _ => by ring
    unfold bil
    rw [h1, one_mul]
    linarith

/-- The three objectives together. -/
theorem hum_symAbove {l : Lip K} {s : Sup K} (hf : l.Fresh) (hs : s.Shaped) {wg : HWeighting K}
    {q q1 q2 q3 : QPMatrices K} {ref X : Vec K} (hW : ∀ k < l.N, 0 ≤ s.weight.get k k)
    (h1 : q.reset.addObjective wg.velocityTracking (velHessian l s) (velGradient l s ref X) = .ok q1)
    (h2 : q1.addObjective wg.jerkMinimization (jerkHessian l s) (jerkGradient l s X) = .ok q2)
    (h3 : q2.addObjective wg.copCentering (centeringHessian l s) (centeringGradient l s X) = .ok q3) :
    SymAbove q3.Q (max wg.copCentering 0) (2 * l.N) := by
  have a1 : SymAbove q1.Q (0 + max wg.velocityTracking 0 * 0) (2 * l.N) := by
    refine (reset_symAbove q _).addObjective h1 fun H G _ hH hG => ?_
    obtain ⟨nb, dx, dy, Bx, By, px, py, dv, hD, hdv⟩ := vel_data hf hH hG
    obtain ⟨-, t, -, b1, -, b3⟩ := velHessian_ok hD hs hdv (hf.velDyn hdv) hH
    exact symAbove_of_sum hW b1 b3
  have a2 : SymAbove q2.Q (0 + max wg.velocityTracking 0 * 0 + max wg.jerkMinimization 0 * 0) (2 * l.N) := by
    refine a1.addObjective h2 fun H G _ hH hG => ?_
    obtain ⟨nb, dx, dy, Bx, By, px, py, hD⟩ := jerk_data hf hH hG
    obtain ⟨-, t, -, b1, -, b3⟩ := jerkHessian_ok hD hs hH
    exact symAbove_of_sum hW b1 b3
  have a3 := a2.addObjective h3 (fun H G _ hH hG => centering_symAbove hH hG)
  simpa using a3

end MPC
