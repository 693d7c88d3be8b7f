import Verif.Lemmas.HumConvex
import Verif.Lemmas.HoldJerk
import Verif.Props.HumConvex

/-! # When the plan of the humanoid generator is determined by its cost -/

set_option linter.unusedSectionVars false

namespace MPC

open Finset

variable {K : Type} [Field K] [LinearOrder K] [IsStrictOrderedRing K]

/-! ### Triangular matrices -/

/-- A lower triangular matrix without zero on its diagonal is injective. -/
theorem lower_injective {A : Mat K} {n : ℕ} (hc : A.cols = n) (hl : ∀ i < n, ∀ j < n, i < j → A.get i j = 0)
    (hd : ∀ i < n, A.get i i ≠ 0) {x : ℕ → K} (h : ∀ i < n, mv A x i = 0) : ∀ i < n, x i = 0 := by
  intro i
  induction i using Nat.strong_induction_on with
  | _ i ih =>
    intro hi
    have e := h i hi
    unfold mv at e
    rw [hc, sum_eq_single i] at e
    · exact (mul_eq_zero.1 e).resolve_left (hd i hi)
    · intro j hj hne
      have hj := mem_range.1 hj
      rcases Nat.lt_or_gt_of_ne hne with hlt | hlt
      · rw [ih j hlt hj, mul_zero]
      · rw [hl i hi j hj hlt, zero_mul]
    · intro hn
      exact absurd (mem_range.2 hi) hn

/-- The inverse of a lower triangular matrix. -/
theorem lower_inverse {A B : Mat K} {n : ℕ} (h : Spec.IsInverse n A B) (hl : ∀ i < n, ∀ j < n, i < j → A.get i j = 0) :
    (∀ i < n, A.get i i ≠ 0 ∧ B.get i i = (A.get i i)⁻¹) ∧ ∀ i < n, ∀ j < n, i < j → B.get i j = 0 := by
  obtain ⟨ar, ac, br, bc, ⟨P, hP, hP1⟩, ⟨Q, hQ, hQ1⟩⟩ := h
  obtain ⟨-, rfl⟩ := Mat.mul?_eq_ok hP
  obtain ⟨-, rfl⟩ := Mat.mul?_eq_ok hQ
  have e1 : ∀ i < n, ∀ j < n, ∑ k ∈ range n, A.get i k * B.get k j = if i = j then 1 else 0 := by
    intro i hi j hj
    have := hP1.2.2 i (by show i < A.rows; omega) j (by show j < B.cols; omega)
    simp only [Mat.one, ac] at this
    exact this
  have key : ∀ i < n, (∀ j < n, i < j → B.get i j = 0) ∧ A.get i i * B.get i i = 1 := by
    intro i
    induction i using Nat.strong_induction_on with
    | _ i ih =>
      intro hi
      have red : ∀ j < n, i ≤ j → A.get i i * B.get i j = if i = j then 1 else 0 := by
        intro j hj hij
        rw [← e1 i hi j hj, sum_eq_single i]
        · intro k hk hne
          have hk := mem_range.1 hk
          rcases Nat.lt_or_gt_of_ne hne with hlt | hlt
          · rw [(ih k hlt hk).1 j hj (by omega), mul_zero]
          · rw [hl i hi k hk hlt, zero_mul]
        · intro hn
          exact absurd (mem_range.2 hi) hn
      have h1 := red i hi le_rfl
      rw [if_pos rfl] at h1
      refine ⟨fun j hj hij => ?_, h1⟩
      have h2 := red j hj hij.le
      rw [if_neg (by omega)] at h2
      exact (mul_eq_zero.1 h2).resolve_left (left_ne_zero_of_mul_eq_one h1)
  refine ⟨fun i hi => ⟨left_ne_zero_of_mul_eq_one (key i hi).2, ?_⟩, fun i hi => (key i hi).1⟩
  exact eq_inv_of_mul_eq_one_right (key i hi).2

/-- The stored inverse of a lower triangular matrix is injective when no coefficient of its diagonal was erased. -/
theorem stored_injective {A B : Mat K} (hsq : A.cols = A.rows) (hl : ∀ i < A.rows, ∀ j < A.rows, i < j → A.get i j = 0)
    (hd : ∀ i < A.rows, EPS * |A.get i i| ≤ 1) (hB : inverseLU A EPS = some B) {x : ℕ → K}
    (h : ∀ i < A.rows, mv B x i = 0) : ∀ i < A.rows, x i = 0 := by
  unfold inverseLU at hB
  obtain ⟨C, hC, rfl⟩ := Option.map_eq_some_iff.1 hB
  have hinv := inverse_spec A C hsq hC
  obtain ⟨k1, k2⟩ := lower_inverse hinv hl
  refine lower_injective (A := ⟨C.rows, C.cols, fun i j => if |C.get i j| < EPS then 0 else C.get i j⟩)
    (by exact hinv.2.2.2.1) (fun i hi j hj hij => ?_) (fun i hi => ?_) h
  · dsimp only
    rw [k2 i hi j hj hij, ite_self]
  · obtain ⟨h0, h1⟩ := k1 i hi
    have hp : 0 < |A.get i i| := abs_pos.2 h0
    dsimp only
    rw [h1, if_neg]
    · exact inv_ne_zero h0
    · rw [abs_inv, not_lt, ← one_div, le_div_iff₀ hp]
      exact hd i hi

theorem velU_pos {S T : K} (hS : 0 < S) (hT : 0 < T) (i : ℕ) : velU S T i i ≠ 0 := by
  cases i with
  | zero => simp [velU, hS.ne']
  | succ i => rw [velU_diag]; positivity

/-- The pivots of the CoP dynamics of a usual robot are not large. -/
theorem copU_modest {S T h : K} (hS : 0 < S) (hS' : S ≤ T + EPS) (hT : 0 < T) (hT' : T ≤ 10) (hh : |h| ≤ 1000) (i : ℕ) :
    EPS * |copU S T h GRAVITY_NORM 1 i i| ≤ 1 := by
  have key : ∀ t : K, 0 < t → t ≤ 11 → EPS * |copPivot h t| ≤ 1 := by
    intro t ht ht'
    have h1 : |copPivot h t| ≤ t ^ 3 / 6 + |h| / GRAVITY_NORM * t := by
      unfold copPivot
      have hg : (0 : K) < GRAVITY_NORM := by unfold GRAVITY_NORM; norm_num
      calc |t ^ 3 / 6 - h / GRAVITY_NORM * t| ≤ |t ^ 3 / 6| + |h / GRAVITY_NORM * t| := abs_sub _ _
        _ = t ^ 3 / 6 + |h| / GRAVITY_NORM * t := by
          rw [abs_of_pos (by positivity), abs_mul, abs_div, abs_of_pos hg, abs_of_pos ht]
    have h2 : t ^ 3 ≤ 11 ^ 3 := by gcongr
    have h3 : |h| / GRAVITY_NORM * t ≤ 1000 / GRAVITY_NORM * 11 := by
      have hg : (0 : K) < GRAVITY_NORM := by unfold GRAVITY_NORM; norm_num
      gcongr
    have h4 : (1000 : K) / GRAVITY_NORM * 11 ≤ 9000 := by unfold GRAVITY_NORM; norm_num
    have h5 : |copPivot h t| ≤ 10000 := by linarith
    calc EPS * |copPivot h t| ≤ EPS * 10000 := by gcongr; exact EPS_pos.le
      _ = 1 := by unfold EPS; norm_num
  cases i with
  | zero =>
    rw [copU_first]
    refine key S hS (hS'.trans ?_)
    have : (EPS : K) ≤ 1 := by unfold EPS; norm_num
    linarith
  | succ i => rw [copU_diag]; exact key T hT (hT'.trans (by norm_num))

/-! ### Forms -/

theorem bil_addObjective {q q' : QPMatrices K} {w : K} {h : Res (Mat K)} {g : Res (Vec K)} (hq : SymAbove q.Q 0 0)
    (e : q.addObjective w h g = .ok q') (hH : ∀ H G, 0 < w → h = .ok H → g = .ok G → SymAbove H 0 0) {d : ℕ → K}
    (hd : bil q'.Q d d = 0) : bil q.Q d d = 0 ∧ (0 < w → ∃ H G, h = .ok H ∧ g = .ok G ∧ bil H d d = 0) := by
  rcases addObjective_ok e with ⟨hw, rfl⟩ | ⟨hw, H, G, h1, h2, e1, e2, e3, rfl⟩
  · exact ⟨hd, fun h => absurd hw (not_le.2 h)⟩
  · have hs := hH H G hw h1 h2
    rw [bil_add e1 e2 rfl] at hd
    have a1 := hq.above d
    have a2 := hs.above d
    rw [zero_mul] at a1 a2
    have a3 := mul_nonneg hw.le a2
    refine ⟨by linarith, fun _ => ⟨H, G, h1, h2, ?_⟩⟩
    have : w * bil H d d = 0 := by linarith
    exact (mul_eq_zero.1 this).resolve_left hw.ne'

/-- A weighted sum of squares along both axes that is zero. -/
theorem zero_of_sum {H : Mat K} {N r : ℕ} {W : ℕ → K} (hW : ∀ k < N, 0 < W k) {La Lb : (ℕ → K) → ℕ → K}
    (hr : H.rows = r) (h : ∀ x z, dot r (mv H x) z = ∑ k ∈ range N, W k * La x k * La z k
      + ∑ k ∈ range N, W k * Lb x k * Lb z k) {d : ℕ → K} (hd : bil H d d = 0) :
    ∀ k < N, La d k = 0 ∧ Lb d k = 0 := by
  subst hr
  unfold bil at hd
  rw [h] at hd
  have key : ∀ L : ℕ → K, (∀ k ∈ range N, 0 ≤ W k * L k * L k) := by
    intro L k hk
    rw [mul_assoc]
    exact mul_nonneg (hW k (mem_range.1 hk)).le (mul_self_nonneg _)
  have n1 := sum_nonneg (key (La d))
  have n2 := sum_nonneg (key (Lb d))
  have z1 := (sum_eq_zero_iff_of_nonneg (key (La d))).1 (by linarith)
  have z2 := (sum_eq_zero_iff_of_nonneg (key (Lb d))).1 (by linarith)
  intro k hk
  have hw := (hW k hk).ne'
  have a1 := z1 k (mem_range.2 hk)
  have a2 := z2 k (mem_range.2 hk)
  rw [mul_assoc] at a1 a2
  exact ⟨mul_self_eq_zero.1 ((mul_eq_zero.1 a1).resolve_left hw), mul_self_eq_zero.1 ((mul_eq_zero.1 a2).resolve_left hw)⟩

variable [FloorRing K]

/-- The displacements that a plan of zero quadratic cost may have. -/
theorem hum_kernel {l : Lip K} {s : Sup K} (hf : l.Fresh) (hs : s.Shaped) {wg : HWeighting K}
    {q q1 q2 q3 : QPMatrices K} {ref X : Vec K} (hW : ∀ k < l.N, 0 < s.weight.get k k)
    (hinj : ∀ nb dx dy Bx By px py, HumData l s nb dx dy Bx By px py → ∀ B, B = Bx ∨ B = By → ∀ x : ℕ → K,
      (∀ i < l.N, mv B x i = 0) → ∀ i < l.N, x i = 0)
    (h1 : q.reset.addObjective wg.velocityTracking (velHessian l s) (velGradient l s ref X) = .ok q1)
    (h2 : q1.addObjective wg.jerkMinimization (jerkHessian l s) (jerkGradient l s X) = .ok q2)
    (h3 : q2.addObjective wg.copCentering (centeringHessian l s) (centeringGradient l s X) = .ok q3)
    (hw : 0 < wg.velocityTracking ∨ 0 < wg.jerkMinimization) {d : ℕ → K} (hd : bil q3.Q d d = 0) :
    ∀ k < l.N, planT s.M s.V 0 (2 * l.N) d k = 0 ∧ planT s.M s.V l.N (2 * l.N + s.M) d k = 0 := by
  have v1 : ∀ H G, 0 < wg.velocityTracking → velHessian l s = .ok H → velGradient l s ref X = .ok G →
      SymAbove H 0 0 ∧ ∀ d, bil H d d = 0 →
        ∀ k < l.N, planT s.M s.V 0 (2 * l.N) d k = 0 ∧ planT s.M s.V l.N (2 * l.N + s.M) d k = 0 := by
    intro H G _ hH hG
    obtain ⟨nb, dx, dy, Bx, By, px, py, dv, hD, hdv⟩ := vel_data hf hH hG
    obtain ⟨-, t, -, b1, -, b3⟩ := velHessian_ok hD hs hdv (hf.velDyn hdv) hH
    refine ⟨symAbove_of_sum (fun k hk => (hW k hk).le) b1 b3, fun d hd => ?_⟩
    have z := zero_of_sum hW b1 b3 hd
    obtain ⟨j, -, hj, rfl⟩ := Lip.dyn_ok hdv
    obtain ⟨hfp, hgood⟩ := hf.pos (by omega)
    have hS : (0 : K) < ((j + 1 : ℕ) : K) * l.fb := mul_pos (by positivity) hfp
    have hv : ∀ x : ℕ → K, (∀ i < l.N, mv (l.vel.get j).U x i = 0) → ∀ i < l.N, x i = 0 := by
      rw [hf.vel j hj]
      exact fun x => lower_injective (A := ⟨l.N, l.N, velU _ l.T⟩) rfl (fun i _ k _ h => velU_upper _ _ h)
        (fun i _ => velU_pos hS hgood.T i)
    intro k hk
    exact ⟨hinj _ _ _ _ _ _ _ hD Bx (.inl rfl) _ (hv _ fun i hi => (z i hi).1) k hk,
      hinj _ _ _ _ _ _ _ hD By (.inr rfl) _ (hv _ fun i hi => (z i hi).2) k hk⟩
  have v2 : ∀ H G, 0 < wg.jerkMinimization → jerkHessian l s = .ok H → jerkGradient l s X = .ok G →
      SymAbove H 0 0 ∧ ∀ d, bil H d d = 0 →
        ∀ k < l.N, planT s.M s.V 0 (2 * l.N) d k = 0 ∧ planT s.M s.V l.N (2 * l.N + s.M) d k = 0 := by
    intro H G _ hH hG
    obtain ⟨nb, dx, dy, Bx, By, px, py, hD⟩ := jerk_data hf hH hG
    obtain ⟨-, t, -, b1, -, b3⟩ := jerkHessian_ok hD hs hH
    refine ⟨symAbove_of_sum (fun k hk => (hW k hk).le) b1 b3, fun d hd => ?_⟩
    have z := zero_of_sum hW b1 b3 hd
    intro k hk
    exact ⟨hinj _ _ _ _ _ _ _ hD Bx (.inl rfl) _ (fun i hi => (z i hi).1) k hk,
      hinj _ _ _ _ _ _ _ hD By (.inr rfl) _ (fun i hi => (z i hi).2) k hk⟩
  have a0 : SymAbove q.reset.Q 0 0 := reset_symAbove q 0
  have a1 : SymAbove q1.Q 0 0 := by
    simpa using a0.addObjective (m' := 0) h1 fun H G hw hH hG => (v1 H G hw hH hG).1
  have a2 : SymAbove q2.Q 0 0 := by
    simpa using a1.addObjective (m' := 0) h2 fun H G hw hH hG => (v2 H G hw hH hG).1
  have a3 : ∀ H G, 0 < wg.copCentering → centeringHessian l s = .ok H → centeringGradient l s X = .ok G →
      SymAbove H 0 0 := by
    intro H G _ hH hG
    have := centering_symAbove hH hG
    exact ⟨this.sym, fun x => by
      rw [zero_mul]
      exact le_trans (by rw [one_mul]; exact sum_nonneg fun k _ => sq_nonneg _) (this.above x)⟩
  obtain ⟨d2, -⟩ := bil_addObjective a2 h3 a3 hd
  obtain ⟨d1, j1⟩ := bil_addObjective a1 h2 (fun H G hw hH hG => (v2 H G hw hH hG).1) d2
  obtain ⟨-, j0⟩ := bil_addObjective a0 h1 (fun H G hw hH hG => (v1 H G hw hH hG).1) d1
  rcases hw with hw | hw
  · obtain ⟨H, G, e1, e2, e3⟩ := j0 hw
    exact (v1 H G hw e1 e2).2 d e3
  · obtain ⟨H, G, e1, e2, e3⟩ := j1 hw
    exact (v2 H G hw e1 e2).2 d e3

/-- The inverses of the CoP dynamics that the objectives use are injective. -/
theorem humData_injective {w : HWalkgen K} (hI : HumInv w) (hT : w.lip.T ≤ 10) (hh : |w.lip.comHeight| ≤ 1000)
    {nb : ℤ} {dx dy : LinearDynamic K} {Bx By : Mat K} {px py : State3 K}
    (hD : HumData w.lip w.sup nb dx dy Bx By px py) (B : Mat K) (hB : B = Bx ∨ B = By) (x : ℕ → K)
    (hx : ∀ i < w.lip.N, mv B x i = 0) : ∀ i < w.lip.N, x i = 0 := by
  obtain ⟨k, -, hk, edx⟩ := Lip.dyn_ok hD.hdx
  obtain ⟨k2, -, hk2, edy⟩ := Lip.dyn_ok hD.hdy
  obtain ⟨hfp, hgood⟩ := hI.fresh.pos (by omega)
  have time : ∀ k < w.lip.nbFb, (0 : K) < ((k + 1 : ℕ) : K) * w.lip.fb ∧ ((k + 1 : ℕ) : K) * w.lip.fb ≤ w.lip.T + EPS := by
    intro k hk
    refine ⟨mul_pos (by positivity) hfp, ?_⟩
    have hpos : 0 ≤ (w.lip.T + EPS) / w.lip.fb := div_nonneg (add_nonneg hgood.T.le EPS_pos.le) hfp.le
    have h1 := hI.fresh.nb
    rw [truncInt, if_pos hpos] at h1
    have h2 : ((k + 1 : ℕ) : ℤ) ≤ ⌊(w.lip.T + EPS) / w.lip.fb⌋ := by rw [← h1]; exact_mod_cast hk
    have h3 := Int.le_floor.1 h2
    rw [le_div_iff₀ hfp] at h3
    simpa using h3
  rw [hI.fresh.copX k hk, hI.gx, hI.gz, hI.mass, hI.total, div_one] at edx
  rw [hI.fresh.copY k2 hk2, hI.gy, hI.gz, hI.mass, hI.total, div_one] at edy
  rcases hB with rfl | rfl
  · have hB := hD.hBx.inv
    rw [edx] at hB
    exact stored_injective (A := ⟨w.lip.N, w.lip.N, _⟩) rfl (fun i _ j _ h => copU_upper _ _ _ _ _ h)
      (fun i _ => copU_modest (time k hk).1 (time k hk).2 hgood.T hT hh i) hB hx
  · have hB := hD.hBy.inv
    rw [edy] at hB
    exact stored_injective (A := ⟨w.lip.N, w.lip.N, _⟩) rfl (fun i _ j _ h => copU_upper _ _ _ _ _ h)
      (fun i _ => copU_modest (time k2 hk2).1 (time k2 hk2).2 hgood.T hT hh i) hB hx

/-- The sample weights of a long enough sampling period are positive. -/
theorem hprepare_weight_pos {hull : Vec (Pt K) → Res (Polygon K)}
    {w w' : HWalkgen K} {fb : K} {idx : ℕ} {qp : QPMatrices K} (hr : HumHistory hull w)
    (hp : w.prepare hull fb = .ok (w', idx, qp)) (hT : 20 * EPS < w'.sup.T) (ht : 0 < w'.sup.ttnp) :
    ∀ k < w'.lip.N, 0 < w'.sup.weight.get k k := by
  have hI := (hr.inv.prepare hp).1
  obtain ⟨X, hX, -⟩ := hprepare_timeline hp
  obtain ⟨f, -, -, -, -, -, -, -, -, -, -, -, hw⟩ := Sup.updateTimeline_running hX
  have hE : (0 : K) < EPS := EPS_pos
  have hT0 : 0 < w'.sup.T := by linarith
  intro k hk
  obtain ⟨i, m, k1, k2, k3, -, -, k6⟩ := Sup.sampleWeight_ok (s := w'.sup) (by rw [hI.N]; omega) hT0
  rw [hw] at k1
  cases k1
  rw [k6]
  split_ifs with h1 h2 h3
  · rw [sub_pos, div_lt_iff₀ hT0]
    linarith
  · refine div_pos ?_ hT0
    rcases k3 with h | h
    · subst h
      simpa using ht
    · linarith
  · exact zero_lt_one
  · exact absurd rfl h3

/-- Displacements without quadratic cost do not change the planned CoP. -/
theorem hprepare_kernel {hull : Vec (Pt K) → Res (Polygon K)}
    {w w' : HWalkgen K} {fb : K} {idx : ℕ} {qp : QPMatrices K} (hr : HumHistory hull w)
    (hp : w.prepare hull fb = .ok (w', idx, qp)) (hW : ∀ k < w'.lip.N, 0 < w'.sup.weight.get k k)
    (hT : w'.lip.T ≤ 10) (hh : |w'.lip.comHeight| ≤ 1000)
    (hw : 0 < w'.weighting.velocityTracking ∨ 0 < w'.weighting.jerkMinimization) {d : ℕ → K}
    (hd : bil qp.Q d d = 0) :
    ∀ k < w'.lip.N, planT w'.sup.M w'.sup.V 0 (2 * w'.lip.N) d k = 0 ∧
      planT w'.sup.M w'.sup.V w'.lip.N (2 * w'.lip.N + w'.sup.M) d k = 0 := by
  obtain ⟨hI, hs, -, -⟩ := hr.inv.prepare hp
  obtain ⟨w0, a, b, q0, q1, -, -, -, -, hfill, hqp, hw'⟩ := hprepare_ok hp
  have e1 : w'.lip = w0.lip := by rw [hw']
  have e2 : w'.sup = w0.sup := by rw [hw']
  have e3 : w'.X = w0.X := by rw [hw']
  have e4 : w'.weighting = w0.weighting := by rw [hw']
  have e5 : w'.velRef = w0.velRef := by rw [hw']
  obtain ⟨p1, p2, p3, p4, h1, h2, h3, hc, hf⟩ := hfillQP_ok hfill
  rw [← e1, ← e2, ← e3, ← e4] at h1 h2 h3
  rw [← e5] at h1
  have a1 : p4.Q = p3.Q := by
    rcases hc with ⟨-, c, -, hc⟩ | ⟨-, rfl⟩
    · exact (addConstraint_cost hc).1
    · rfl
  have a2 : q1.Q = p4.Q := by
    rcases hf with ⟨-, c, -, hf⟩ | ⟨-, rfl⟩
    · exact (addConstraint_cost hf).1
    · rfl
  have hc : (0 : K) < 1 / smallestSignificant q1.Q EPS :=
    one_div_pos.2 (smallestSignificant_pos _ _ EPS_pos.le)
  refine hum_kernel hI.fresh hs hW (fun nb dx dy Bx By px py hD => humData_injective hI hT hh hD) h1 h2 h3 hw ?_
  rw [← a1, ← a2]
  rw [hqp] at hd
  have e : bil (Mat.smul (1 / smallestSignificant q1.Q EPS) q1.Q) d d
      = 1 / smallestSignificant q1.Q EPS * bil q1.Q d d := by
    unfold bil dot mv Mat.smul
    rw [mul_sum]
    refine sum_congr rfl fun i _ => ?_
    simp only
    rw [sum_mul, sum_mul, mul_sum]
    exact sum_congr rfl fun j _ => by ring
  have hd : bil (Mat.smul (1 / smallestSignificant q1.Q EPS) q1.Q) d d = 0 := hd
  rw [e] at hd
  exact (mul_eq_zero.1 hd).resolve_left hc.ne'

/-- The number of variables of the QP, when the CoP is centred. -/
theorem hprepare_rows {hull : Vec (Pt K) → Res (Polygon K)} {w w' : HWalkgen K} {fb : K} {idx : ℕ} {qp : QPMatrices K}
    (hp : w.prepare hull fb = .ok (w', idx, qp)) (hc : 0 < w'.weighting.copCentering) :
    qp.Q.rows = 2 * w'.lip.N + 2 * w'.sup.M := by
  obtain ⟨w0, a, b, q0, q1, -, -, -, -, hfill, hqp, rfl⟩ := hprepare_ok hp
  obtain ⟨p1, p2, p3, p4, h1, h2, h3, hc', hf⟩ := hfillQP_ok hfill
  have a1 : p4.Q = p3.Q := by
    rcases hc' with ⟨-, c, -, hc⟩ | ⟨-, rfl⟩
    · exact (addConstraint_cost hc).1
    · rfl
  have a2 : q1.Q = p4.Q := by
    rcases hf with ⟨-, c, -, hf⟩ | ⟨-, rfl⟩
    · exact (addConstraint_cost hf).1
    · rfl
  rcases addObjective_ok h3 with ⟨hw, -⟩ | ⟨-, H, G, e1, e2, e3, -, -, rfl⟩
  · exact absurd hc (not_lt.2 hw)
  · obtain ⟨-, c1, -⟩ := centering_ok e1 e2
    rw [hqp]
    show q1.Q.rows = _
    rw [a2, a1]
    exact e3.trans c1

/-- In a grid every footstep of the preview supports a sample. -/
theorem steps_support [Archimedean K] {fb : K} {a : Sup K × Vec K} (hR : Reach (· = fb) CanStop a)
    (hg : Grid fb a.1) {s' : Sup K} {v' : Vec K} (hu : a.1.updateTimeline a.2 fb = .ok (s', v')) :
    (∀ c < s'.M, ∃ r < s'.N, RowIsUnit s' r (c + 1)) ∧ EPS ≤ s'.ttnp := by
  obtain ⟨f0, mv0, R0, hI⟩ := hR.ginv (EPS_pos.trans hg.pos).le hg
  obtain ⟨s₁, v₁, f₁, m, hU, hS⟩ := hI.update_shown hg hu
  have hN : s'.N = s₁.N := hU.preview.same.N
  refine ⟨fun c hc => ?_, by rw [hU.preview.same.ttnp]; exact hU.pos⟩
  have step : ∀ k, s₁.ssCount f₁.type (k + 1) ≤ s₁.ssCount f₁.type k + 1 := by
    intro k
    rw [Sup.ssCount]
    split <;> omega
  have step2 : ∀ i j, i ≤ j → j ≤ i + 1 → s₁.ssCount f₁.type j ≤ s₁.ssCount f₁.type i + 1 := by
    intro i j h1 h2
    rcases Nat.lt_or_ge i j with h | h
    · obtain rfl : j = i + 1 := by omega
      exact step i
    · obtain rfl : j = i := by omega
      omega
  have hpos : 0 < s₁.N := by rw [hU.N]; exact hI.hist.N
  have h0 : (s₁.sched f₁.type 0).1 = 0 := by
    rw [Sup.sched, sched_zero (by exact hU.pos)]
  have hM := hU.preview.M
  by_contra hne
  push Not at hne
  have key : ∀ r < s₁.N, s₁.ssCount f₁.type (s₁.smp f₁.type r) ≤ c := by
    intro r
    induction r with
    | zero =>
      intro hr
      have h1 : s₁.ssCount f₁.type (s₁.smp f₁.type 0) ≤ 0 + 1 := by
        have := step2 _ _ (sched_mono_succ (T := s₁.T) (dur := s₁.durAt f₁.type) 0)
          (sched_succ_le (T := s₁.T) (dur := s₁.durAt f₁.type) 0)
        rw [h0] at this
        exact this
      rcases Nat.lt_or_ge c (s₁.ssCount f₁.type (s₁.smp f₁.type 0)) with h | h
      · refine absurd (hS.unit hU hr) ?_
        have : s₁.ssCount f₁.type (s₁.smp f₁.type 0) = c + 1 := by omega
        rw [this]
        exact hne 0 (by omega)
      · exact h
    | succ r ih =>
      intro hr
      have h1 := ih (by omega)
      have h2 := step2 _ _ (sched_mono_succ (T := s₁.T) (dur := s₁.durAt f₁.type) (r + 1))
          (sched_succ_le (T := s₁.T) (dur := s₁.durAt f₁.type) (r + 1))
      rcases Nat.lt_or_ge c (s₁.ssCount f₁.type (s₁.smp f₁.type (r + 1))) with h | h
      · refine absurd (hS.unit hU hr) ?_
        have : s₁.ssCount f₁.type (s₁.smp f₁.type (r + 1)) = c + 1 := by
          have h2 : s₁.ssCount f₁.type (s₁.smp f₁.type (r + 1)) ≤ s₁.ssCount f₁.type (s₁.smp f₁.type r) + 1 := h2
          omega
        rw [this]
        exact hne (r + 1) (by omega)
      · exact h
  have := key (s₁.N - 1) (by omega)
  unfold Sup.smp at this
  rw [Nat.sub_add_cancel hpos, ← hM] at this
  omega

/-- `solve` keeps the parameters of the generator until the solver is called. -/
theorem prepare_params {hull : Vec (Pt K) → Res (Polygon K)} {w w' : HWalkgen K} {fb : K} {idx : ℕ}
    {qp : QPMatrices K} (h : HumInv w) (hp : w.prepare hull fb = .ok (w', idx, qp)) :
    w'.lip.T = w.lip.T ∧ w'.lip.comHeight = w.lip.comHeight ∧ w'.weighting = w.weighting ∧ w'.withCop = w.withCop ∧
      w'.withFeet = w.withFeet := by
  obtain ⟨w0, a, b, q0, q1, hb, -, -, -, -, -, rfl⟩ := hprepare_ok hp
  unfold HWalkgen.begin at hb
  obtain ⟨⟨s, X⟩, h1, hb⟩ := bind_eq_ok.1 hb
  dsimp only at hb
  have key : ∃ l, (w.lip.setFeedbackPeriod fb = .ok l ∨ l = w.lip) ∧ (do
      require (0 < fb)
      require (s.N = l.N)
      HWalkgen.firstGuess { w with sup := s, X := X, lip := l }) = .ok w0 := by
    split at hb
    · obtain ⟨l, h2, hb⟩ := bind_eq_ok.1 hb
      exact ⟨l, .inl h2, hb⟩
    · obtain ⟨l, h2, hb⟩ := bind_eq_ok.1 hb
      exact ⟨l, .inr (Except.ok.inj h2).symm, hb⟩
  obtain ⟨l, h2, hb⟩ := key
  obtain ⟨_, -, hb⟩ := bind_eq_ok.1 hb
  obtain ⟨_, -, hb⟩ := bind_eq_ok.1 hb
  have hw : w0.lip = l ∧ w0.weighting = w.weighting ∧ w0.withCop = w.withCop ∧ w0.withFeet = w.withFeet := by
    unfold HWalkgen.firstGuess at hb
    split at hb
    · simp only [bind_eq_ok] at hb
      obtain ⟨_, -, _, -, _, -, _, -, _, -, _, -, _, -, _, -, _, -, _, -, _, -, _, -, hb⟩ := hb
      obtain rfl := Except.ok.inj hb
      exact ⟨rfl, rfl, rfl, rfl⟩
    · obtain rfl := Except.ok.inj hb
      exact ⟨rfl, rfl, rfl, rfl⟩
  obtain ⟨hw, e1, e2, e3⟩ := hw
  refine ⟨?_, ?_, e1, e2, e3⟩
  · show w0.lip.T = _
    rw [hw]
    rcases h2 with h2 | rfl
    · unfold Lip.setFeedbackPeriod at h2
      obtain ⟨_, -, h2⟩ := bind_eq_ok.1 h2
      exact (Lip.refresh_fresh (l := { w.lip with fb := fb }) h.fresh.auto h2).2.2.2.1
    · rfl
  · show w0.lip.comHeight = _
    rw [hw]
    rcases h2 with h2 | rfl
    · unfold Lip.setFeedbackPeriod at h2
      obtain ⟨_, -, h2⟩ := bind_eq_ok.1 h2
      obtain ⟨-, -, p2, -, -, p5, p6, -, p8, -⟩ := Lip.refresh_fresh (l := { w.lip with fb := fb }) h.fresh.auto h2
      exact p8
    · rfl

/-- `solve` keeps the parameters of the generator. -/
theorem solve_params {hull : Vec (Pt K) → Res (Polygon K)} {o : Oracle K} {w w' : HWalkgen K} {fb : K} {b : Bool}
    (h : HumInv w) (hs : w.solve hull o fb = .ok (b, w')) :
    w'.lip.T = w.lip.T ∧ w'.lip.comHeight = w.lip.comHeight ∧ w'.weighting = w.weighting ∧ w'.withCop = w.withCop ∧
      w'.withFeet = w.withFeet := by
  obtain ⟨w₁, idx', qp', sv, dX, sv', e1, -, -, -, -, h4⟩ := HWalkgen.solve_stages hs
  have hp := prepare_params h e1
  unfold HWalkgen.finish at h4
  obtain ⟨X', -, h4⟩ := bind_eq_ok.1 h4
  obtain ⟨t, -, h4⟩ := bind_eq_ok.1 h4
  obtain ⟨j, -, h4⟩ := bind_eq_ok.1 h4
  obtain ⟨l₁, h1, h4⟩ := bind_eq_ok.1 h4
  obtain ⟨j', -, h4⟩ := bind_eq_ok.1 h4
  obtain ⟨l₂, h2, h4⟩ := bind_eq_ok.1 h4
  obtain ⟨sv, -, h4⟩ := bind_eq_ok.1 h4
  obtain ⟨s', h3, h4⟩ := bind_eq_ok.1 h4
  obtain rfl := Except.ok.inj h4
  obtain ⟨sx, -, h1⟩ := bind_eq_ok.1 h1
  obtain rfl := Except.ok.inj h1
  obtain ⟨sy, -, h2⟩ := bind_eq_ok.1 h2
  obtain rfl := Except.ok.inj h2
  exact hp

/-- The cost of the QP with the jerks as a function of the plan. -/
theorem hprepare_cost {hull : Vec (Pt K) → Res (Polygon K)} {w w' : HWalkgen K} {fb : K} {idx : ℕ} {qp : QPMatrices K}
    (hr : HumHistory hull w) (hp : w.prepare hull fb = .ok (w', idx, qp)) :
    ∃ (c S : K) (J : (ℕ → K) → ℕ → K),
      (0 < w'.weighting.velocityTracking ∨ 0 < w'.weighting.jerkMinimization →
        ∃ nb dx dy Bx By px py, HumData w'.lip w'.sup nb dx dy Bx By px py ∧ J = humJerk w'.lip w'.sup dx dy Bx By px py) ∧
      ∀ x : ℕ → K, Spec.cost qp x = c *
        (Spec.humCost w'.weighting w'.lip.N S w'.lip.T w'.lip.x w'.lip.y w'.velRef.get
            (fun i => w'.sup.weight.get i i) (fun k => w'.X.get k + x k) (J fun k => w'.X.get k + x k)
          - Spec.humCost w'.weighting w'.lip.N S w'.lip.T w'.lip.x w'.lip.y w'.velRef.get
            (fun i => w'.sup.weight.get i i) w'.X.get (J w'.X.get)) := by
  obtain ⟨hI, hs, -, -⟩ := hr.inv.prepare hp
  obtain ⟨w0, a, b, q0, q1, -, -, -, -, hfill, hqp, hw'⟩ := hprepare_ok hp
  have e1 : w'.lip = w0.lip := by rw [hw']
  have e2 : w'.sup = w0.sup := by rw [hw']
  have e3 : w'.X = w0.X := by rw [hw']
  have e4 : w'.weighting = w0.weighting := by rw [hw']
  have e5 : w'.velRef = w0.velRef := by rw [hw']
  obtain ⟨p1, p2, p3, p4, g1, g2, g3, hcc, hf⟩ := hfillQP_ok hfill
  rw [← e1, ← e2, ← e3, ← e4] at g1 g2 g3
  rw [← e5] at g1
  obtain ⟨S, J, k1, k2, k3, k4⟩ := hum_objectives hI.fresh hs g1 g2 g3
  have hcost : ∀ x, Spec.cost q1 x = Spec.cost p3 x := by
    intro x
    have a1 : p4.Q = p3.Q ∧ p4.p = p3.p := by
      rcases hcc with ⟨-, c, -, hc⟩ | ⟨-, rfl⟩
      · exact addConstraint_cost hc
      · exact ⟨rfl, rfl⟩
    have a2 : q1.Q = p4.Q ∧ q1.p = p4.p := by
      rcases hf with ⟨-, c, -, hf⟩ | ⟨-, rfl⟩
      · exact addConstraint_cost hf
      · exact ⟨rfl, rfl⟩
    unfold Spec.cost
    rw [a2.1, a2.2, a1.1, a1.2]
  refine ⟨_, S, J, fun hw => ?_, fun x => by rw [hqp, scale_cost, hcost, k4]⟩
  obtain ⟨-, nb, dx, dy, Bx, By, px, py, hD⟩ := k1 hw
  exact ⟨nb, dx, dy, Bx, By, px, py, hD, k2 _ _ _ _ _ _ _ hD⟩

/-- Plans with the same CoP have the same jerks. -/
theorem humJerk_congr {l : Lip K} {s : Sup K} {nb : ℤ} {dx dy : LinearDynamic K} {Bx By : Mat K} {px py : State3 K}
    (hD : HumData l s nb dx dy Bx By px py) {X Y : ℕ → K}
    (hx : ∀ k < l.N, planT s.M s.V 0 (2 * l.N) X k = planT s.M s.V 0 (2 * l.N) Y k)
    (hy : ∀ k < l.N, planT s.M s.V l.N (2 * l.N + s.M) X k = planT s.M s.V l.N (2 * l.N + s.M) Y k) (i : ℕ) :
    humJerk l s dx dy Bx By px py X i = humJerk l s dx dy Bx By px py Y i := by
  have b1 := hD.hBx.cols
  have b2 := hD.hBy.cols
  unfold humJerk jerkX jerkY axisJerk mv
  split
  · refine sum_congr rfl fun k hk => ?_
    dsimp only
    rw [hx k (by rw [mem_range] at hk; omega)]
  · refine sum_congr rfl fun k hk => ?_
    dsimp only
    rw [hy k (by rw [mem_range] at hk; omega)]

end MPC
