import Verif.Lemmas.HumConvex
import Verif.Props.HumCost
import Verif.Props.HumCycle

/-! # Convexity of the QP of the humanoid generator (C62) -/

set_option linter.unusedSectionVars false

namespace MPC

open Finset

variable {K : Type} [Field K] [LinearOrder K] [IsStrictOrderedRing K] [FloorRing K]

/-- Form of the Hessian given to the solver. -/
theorem hprepare_symAbove {hull : Vec (Pt K) → Res (Polygon K)}
    {w w' : HWalkgen K} {fb : K} {idx : ℕ} {qp : QPMatrices K} (hr : HumHistory hull w)
    (hp : w.prepare hull fb = .ok (w', idx, qp)) (hW : ∀ k < w'.lip.N, 0 ≤ w'.sup.weight.get k k) :
    ∃ c, 0 < c ∧ SymAbove qp.Q (c * max w'.weighting.copCentering 0) (2 * w'.lip.N) := by
  obtain ⟨hI, hs, -, -⟩ := hr.inv.prepare hp
  obtain ⟨w0, a, b, q0, q1, -, -, -, -, hfill, hqp, hw'⟩ := hprepare_ok hp
  have e1 : w'.lip = w0.lip := by rw [hw']
  have e2 : w'.sup = w0.sup := by rw [hw']
  have e3 : w'.X = w0.X := by rw [hw']
  have e4 : w'.weighting = w0.weighting := by rw [hw']
  have e5 : w'.velRef = w0.velRef := by rw [hw']
  obtain ⟨p1, p2, p3, p4, h1, h2, h3, hc, hf⟩ := hfillQP_ok hfill
  rw [← e1, ← e2, ← e3, ← e4] at h1 h2 h3
  rw [← e5] at h1
  have k := hum_symAbove hI.fresh hs hW h1 h2 h3
  have a1 : p4.Q = p3.Q := by
    rcases hc with ⟨-, c, -, hc⟩ | ⟨-, rfl⟩
    · exact (addConstraint_cost hc).1
    · rfl
  have a2 : q1.Q = p4.Q := by
    rcases hf with ⟨-, c, -, hf⟩ | ⟨-, rfl⟩
    · exact (addConstraint_cost hf).1
    · rfl
  have hc : (0 : K) < 1 / smallestSignificant q1.Q EPS :=
    one_div_pos.2 (smallestSignificant_pos _ _ EPS_pos.le)
  refine ⟨_, hc, ?_⟩
  rw [hqp]
  have := symAbove_scale hc k
  rw [← a1, ← a2] at this
  exact this

/-- The sample weights of a long enough sampling period are not negative. -/
theorem hprepare_weight {hull : Vec (Pt K) → Res (Polygon K)}
    {w w' : HWalkgen K} {fb : K} {idx : ℕ} {qp : QPMatrices K} (hr : HumHistory hull w)
    (hp : w.prepare hull fb = .ok (w', idx, qp)) (hT : 20 * EPS ≤ w'.sup.T) (ht : 0 ≤ w'.sup.ttnp) :
    ∀ k < w'.lip.N, 0 ≤ w'.sup.weight.get k k := by
  have hI := (hr.inv.prepare hp).1
  obtain ⟨X, hX, -⟩ := hprepare_timeline hp
  obtain ⟨f, -, -, -, -, -, -, -, -, -, -, -, hw⟩ := Sup.updateTimeline_running hX
  have hE : (0 : K) < EPS := EPS_pos
  have hT0 : 0 < w'.sup.T := by linarith
  intro k hk
  obtain ⟨i, m, k1, k2, k3, -, -, k6⟩ := Sup.sampleWeight_ok (s := w'.sup) (by rw [hI.N]; omega) hT0
  rw [hw] at k1
  cases k1
  rw [k6]
  split_ifs with h1 h2 h3
  · rw [sub_nonneg, div_le_iff₀ hT0]
    linarith
  · refine div_nonneg ?_ hT0.le
    rcases k3 with h | h
    · subst h
      simpa using ht
    · linarith
  · exact zero_le_one
  · exact absurd rfl h3

/-- **C62 (partial).** In every reachable state, when the sampling period is at least 20 `EPS` and the time left in the
current phase is not negative, the QP given to the solver is convex: its matrix is symmetric and positive
semidefinite. If the CoP is centred with a positive weighting, all the solutions have the same CoP.
Missing: shorter sampling periods (false, `C62_violated`). -/
theorem C62_convex_partial (hull : Vec (Pt K) → Res (Polygon K))
    (w w' : HWalkgen K) (fb : K) (qp : QPMatrices K) (hr : HumHistory hull w)
    (hg : HumGives hull w fb w' qp) (hT : 20 * EPS ≤ w'.sup.T) (ht : 0 ≤ w'.sup.ttnp) :
    qp.Q.rows = qp.Q.cols ∧
    (∀ i < qp.Q.rows, ∀ j < qp.Q.cols, qp.Q.get i j = qp.Q.get j i) ∧
    (∀ d : ℕ → K, 0 ≤ ∑ i ∈ range qp.Q.rows, ∑ j ∈ range qp.Q.cols, d i * qp.Q.get i j * d j) ∧
    (0 < w'.weighting.copCentering → ∀ x y, Spec.IsSolution qp x → Spec.IsSolution qp y →
      ∀ i < 2 * w'.lip.N, x i = y i) := by
  obtain ⟨idx, nv, nc, hp, hd⟩ := hg
  obtain ⟨c, hc, hs⟩ := hprepare_symAbove hr hp (hprepare_weight hr hp hT ht)
  have hrc : qp.Q.rows = qp.Q.cols := by
    have := hd
    unfold QPMatrices.DimensionsAreConsistent at this
    omega
  refine ⟨hrc, hs.entries hrc, fun d => le_trans ?_ (hs.quadForm d), fun hpos x y hx hy => ?_⟩
  · exact mul_nonneg (mul_nonneg hc.le (le_max_right _ _)) (sum_nonneg fun k _ => sq_nonneg _)
  · have h1 := (hs.quadForm _).trans (solution_unique qp x y hx hy)
    rw [max_eq_left hpos.le] at h1
    have h2 : ∑ k ∈ range (2 * w'.lip.N), (x k - y k) ^ 2 ≤ 0 := by
      by_contra hn
      have := mul_pos (mul_pos hc hpos) (not_le.1 hn)
      linarith
    intro i hi
    have h3 := (sum_eq_zero_iff_of_nonneg (fun k _ => sq_nonneg (x k - y k))).1
      (le_antisymm h2 (sum_nonneg fun k _ => sq_nonneg _)) i (mem_range.2 hi)
    exact sub_eq_zero.1 (pow_eq_zero_iff (two_ne_zero)|>.1 h3)

/-- A user with samples of half a millisecond. -/
def shortCalls : List (HCall ℚ) :=
  [.setSamplingPeriod (1 / 2000), .setStepPeriod (1 / 100), .setInitialDoubleSupportLength (6 / 10000),
    .setWeightings ⟨1, 0, 0⟩, .setMove true]

set_option maxRecDepth 100000 in
theorem short_checks : okAnd (fun r => decide (r.1.lip.N = 1 ∧ 0 ≤ r.1.sup.ttnp ∧
      r.2.2.DimensionsAreConsistent 2 0 ∧ r.2.2.Q.get 0 0 < 0))
    (do
      let w ← HWalkgen.make >>= fun w => w.run (fun _ => .ok demoRect) oneOracle shortCalls
      w.prepare (fun _ => .ok demoRect) (1 / 2000)) = true := by
  decide +kernel

/-- **C62 is false.** After the calls `shortCalls` the matrix of the QP has a negative curvature: the weight of the
last sample is `1.05 - 1.2`. -/
theorem C62_violated : ∃ w w' qp, HumReaches (fun _ => .ok demoRect) oneOracle shortCalls w ∧
    HumGives (fun _ => .ok demoRect) w (1 / 2000) w' qp ∧ 0 ≤ w'.sup.ttnp ∧
    ∃ d : ℕ → ℚ, ∑ i ∈ range qp.Q.rows, ∑ j ∈ range qp.Q.cols, d i * qp.Q.get i j * d j < 0 := by
  obtain ⟨⟨w', idx, qp⟩, h, hc⟩ := okAnd_true short_checks
  obtain ⟨w, hw, hp⟩ := bind_eq_ok.1 h
  obtain ⟨w0, h0, hw⟩ := bind_eq_ok.1 hw
  obtain ⟨-, c2, c3, c4⟩ := of_decide_eq_true hc
  refine ⟨w, w', qp, ⟨w0, h0, hw⟩, ⟨idx, 2, 0, hp, c3⟩, c2, fun k => if k = 0 then 1 else 0, ?_⟩
  have c3 : qp.DimensionsAreConsistent 2 0 := c3
  have c4 : qp.Q.get 0 0 < 0 := c4
  unfold QPMatrices.DimensionsAreConsistent at c3
  rw [show qp.Q.rows = 2 by omega, show qp.Q.cols = 2 by omega]
  simpa [sum_range_succ] using c4

set_option maxRecDepth 100000 in
theorem convex_checks : okAnd (fun r => decide (20 * EPS ≤ r.1.sup.T ∧ 0 ≤ r.1.sup.ttnp ∧
      0 < r.1.weighting.copCentering ∧ r.1.sup.M = 2 ∧ r.2.2.DimensionsAreConsistent 10 0))
    (do
      let w ← HWalkgen.make >>= fun w => w.run (fun _ => .ok demoRect) oneOracle demoCostCalls
      w.prepare (fun _ => .ok demoRect) 1) = true := by
  decide +kernel

/-- The hypotheses of `C62_convex_partial` are met, with two footsteps. -/
example : ∃ w w' qp, HumReaches (fun _ => .ok demoRect) oneOracle demoCostCalls w ∧
    HumGives (fun _ => .ok demoRect) w 1 w' qp ∧ 20 * EPS ≤ w'.sup.T ∧ 0 ≤ w'.sup.ttnp ∧
    0 < w'.weighting.copCentering ∧ w'.sup.M = 2 := by
  obtain ⟨⟨w', idx, qp⟩, h, hc⟩ := okAnd_true convex_checks
  obtain ⟨w, hw, hp⟩ := bind_eq_ok.1 h
  obtain ⟨w0, h0, hw⟩ := bind_eq_ok.1 hw
  obtain ⟨c1, c2, c3, c4, c5⟩ := of_decide_eq_true hc
  exact ⟨w, w', qp, ⟨w0, h0, hw⟩, ⟨idx, 10, 0, hp, c5⟩, c1, c2, c3, c4⟩

end MPC
