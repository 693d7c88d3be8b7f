import Verif.Props.HumConvex
import Verif.Lemmas.Recede
import Verif.Lemmas.SupFeet
import Verif.Lemmas.ZebModel

/-! # Standing still with the humanoid generator (C65) -/

set_option linter.unusedSectionVars false

namespace MPC

open Finset

variable {K : Type} [Field K] [LinearOrder K] [IsStrictOrderedRing K] [FloorRing K]

theorem Spec.SupportAt.unique {s : Sup K} {p q : Pt K} (hp : Spec.SupportAt s p) (hq : Spec.SupportAt s q) :
    p = q := by
  obtain ⟨f, h, a1, a2, a3, a4⟩ := hp
  obtain ⟨f', h', b1, b2, b3, b4⟩ := hq
  obtain rfl := Option.some.inj (h.symm.trans h')
  cases ht : f.type with
  | leftSS => rw [a2 ht, b2 ht]
  | rightSS => rw [a1 ht, b1 ht]
  | DS =>
    cases hm : s.move with
    | true => rw [a3 ht hm, b3 ht hm]
    | false => rw [a4 ht hm, b4 ht hm]

theorem jerkTrajectory_rest (S T p : K) {J : ℕ → K} {N : ℕ} (hJ : ∀ k < N, J k = 0) {i : ℕ} (hi : i < N) :
    Spec.jerkTrajectory S T ⟨p, 0, 0⟩ J i = ⟨p, 0, 0⟩ := by
  induction i with
  | zero => simp [Spec.jerkTrajectory, Spec.cubic, hJ 0 hi]
  | succ i ih =>
    simp only [Spec.jerkTrajectory]
    rw [ih (by omega)]
    simp [Spec.cubic, hJ _ hi]

/-- Jerks along an axis at rest above the support, with the CoP planned there. -/
theorem axisJerk_rest {N : ℕ} {S T h gz : K} {B V0 : Mat K} {s0 : K} {P : ℕ → K} (hB : B.cols = N)
    (hP : ∀ i < N, P i + s0 * V0.get i 0 = s0) (k : ℕ) :
    axisJerk B V0 (copDyn S T N h 0 gz 1) s0 ⟨s0, 0, 0⟩ P k = 0 := by
  unfold axisJerk mv
  rw [hB]
  refine sum_eq_zero fun i hi => ?_
  have hi := mem_range.1 hi
  have := axis_cop (S := S) (T := T) (h := h) (gx := 0) (gz := gz) (m := 1) (V0 := V0) (s0 := s0)
    (st := ⟨s0, 0, 0⟩) (J := fun _ => 0) hi
  rw [jerkTrajectory_rest S T s0 (N := N) (fun _ _ => rfl) hi] at this
  simp only [Spec.copOf, mul_zero, sum_const_zero, zero_add, sub_zero, one_mul, zero_div] at this
  have h2 := hP i hi
  beta_reduce
  rw [show P i + axisOff (copDyn S T N h 0 gz 1) V0 s0 ⟨s0, 0, 0⟩ i = 0 by linarith, mul_zero]

theorem convert_rest {hull : Vec (Pt K) → Res (Polygon K)}
    {w w' : HWalkgen K} {fb : K} {idx : ℕ} {qp : QPMatrices K} {p : Pt K} (hr : HumHistory hull w)
    (hp : w.prepare hull fb = .ok (w', idx, qp)) {X t : Vec K}
    (ht : HWalkgen.convert { w' with X := X } = .ok t) (hs : Spec.SupportAt w'.sup p)
    (hx : w'.lip.x = ⟨p.x, 0, 0⟩) (hy : w'.lip.y = ⟨p.y, 0, 0⟩) (hu : ∀ i < w'.lip.N, RowIsUnit w'.sup i 0)
    (hX0 : ∀ i < 2 * w'.lip.N, X.get i = 0) : ∀ i < 2 * w'.lip.N, t.get i = 0 := by
  obtain ⟨hI, hsh, -, hfb⟩ := hr.inv.prepare hp
  obtain ⟨hX, nb, dx, dy, Bx, By, px, py, hD⟩ := convert_data (w := { w' with X := X }) hI.fresh ht
  obtain ⟨t', ht', -, g1, g2, -⟩ := convert_ok hD hsh hI.N hX
  obtain rfl := Except.ok.inj (ht.symm.trans ht')
  have hDD : HumData w'.lip w'.sup nb dx dy Bx By px py := hD
  obtain ⟨hnb, hdx, hdy, hBx, hBy, hpx, hpy⟩ := hDD
  obtain rfl := hs.unique (Sup.support_spec hpx hpy)
  obtain ⟨k, hk, hk', edx⟩ := Lip.dyn_ok hdx
  obtain ⟨k2, hk2, hk2', edy⟩ := Lip.dyn_ok hdy
  rw [hI.fresh.copX k hk', hI.gx, hI.gz, hI.mass, hI.total, div_one] at edx
  rw [hI.fresh.copY k2 hk2', hI.gy, hI.gz, hI.mass, hI.total, div_one] at edy
  have g1 : ∀ k < w'.lip.N, t.get k = jerkX w'.lip w'.sup dx Bx px X.get k := g1
  have g2 : ∀ k < w'.lip.N, t.get (w'.lip.N + k) = jerkY w'.lip w'.sup dy By py X.get k := g2
  intro i hi
  by_cases h : i < w'.lip.N
  · rw [g1 i h]
    unfold jerkX
    rw [hx, edx]
    refine axisJerk_rest hBx.cols (fun i hi => ?_) _
    rw [planned_unit hsh.Vc (hu i hi), hX0 _ (by omega)]
    simp
  · obtain ⟨j, rfl⟩ : ∃ j, i = w'.lip.N + j := ⟨i - w'.lip.N, by omega⟩
    rw [g2 j (by omega)]
    unfold jerkY
    rw [hy, edy]
    refine axisJerk_rest hBy.cols (fun i hi => ?_) _
    rw [planned_unit hsh.Vc (hu i hi), hX0 _ (by omega)]
    simp

/-- The robot of the generator `w` stands still above the point `p`: no footstep is planned, the whole horizon is spent on
the current support, whose position is `p`, and the CoM is at rest above it. -/
structure Spec.Standing (w : HWalkgen K) (p : Pt K) : Prop where
  noStep : w.sup.M = 0
  support : ∀ i < w.lip.N, RowIsUnit w.sup i 0
  at_ : Spec.SupportAt w.sup p
  x : w.lip.x = ⟨p.x, 0, 0⟩
  y : w.lip.y = ⟨p.y, 0, 0⟩

/-- **C65.** A robot that stands still, is not asked to move and may have its CoP at the origin of the support, stays
there: the only CoP plan that solves the QP is the constant one, the jerks computed from it are zero, and the state of
the CoM does not change. -/
theorem C65_standing (hull : Vec (Pt K) → Res (Polygon K))
    (w w' : HWalkgen K) (fb : K) (qp : QPMatrices K) (p : Pt K) (hr : HumHistory hull w)
    (hg : HumGives hull w fb w' qp) (hT : 20 * EPS ≤ w'.sup.T) (ht : 0 ≤ w'.sup.ttnp)
    (hc : 0 < w'.weighting.copCentering) (hs : Spec.Standing w' p)
    (hv : 0 < w'.weighting.velocityTracking → ∀ i < 2 * w'.lip.N, w'.velRef.get i = 0)
    (hcop : w'.withCop = true → ∀ i < w'.lip.N, ∀ g, Spec.SupportPolygon hull w'.sup i g →
      Spec.SatisfiesConstraints g ⟨0, 0⟩ ∧ Spec.RowsFinite g (Spec.localCop w'.lip.N w'.X.get i))
    (hX : ∀ i < 2 * w'.lip.N, |w'.X.get i| ≤ MAXBOUND) :
    (∃ d, Spec.IsSolution qp d) ∧
    (∀ d, Spec.IsSolution qp d → ∀ i < 2 * w'.lip.N, w'.X.get i + d i = 0) ∧
    ∀ (o' : Oracle K) (b : Bool) (w2 : HWalkgen K), Spec.IsSolution qp (o' w'.calls qp 10000).2 →
      w.solve hull o' fb = .ok (b, w2) →
      (∀ i < 2 * w'.lip.N, w2.X.get i = 0) ∧ (∀ i < 2 * w'.lip.N, w2.transformedX.get i = 0) ∧
      w2.lip.x = w'.lip.x ∧ w2.lip.y = w'.lip.y := by
  obtain ⟨cop, kin, q, f1, -, f3⟩ := hum_feasible hg
  obtain ⟨c, S, J, hc0, -, hJ, hconv, hcost⟩ := C40_cost hull w w' fb qp hr hg
  have huniq := (C62_convex_partial hull w w' fb qp hr hg hT ht).2.2.2 hc
  obtain ⟨idx, nv, nc, hp, hd⟩ := hg
  have hW := hprepare_weight hr hp hT ht
  obtain ⟨c', hc', hsym⟩ := hprepare_symAbove hr hp hW
  -- the size of the problem
  have hrows : 2 * w'.lip.N ≤ qp.Q.rows := by
    by_contra hlt
    push Not at hlt
    have := hsym.quadForm (fun k => if k = qp.Q.rows then 1 else 0)
    have h1 : ∑ i ∈ range qp.Q.rows, ∑ j ∈ range qp.Q.cols, (if i = qp.Q.rows then (1 : K) else 0) * qp.Q.get i j
        * (if j = qp.Q.rows then 1 else 0) = 0 := by
      refine sum_eq_zero fun i hi => sum_eq_zero fun j _ => ?_
      rw [if_neg (by have := mem_range.1 hi; omega)]; ring
    rw [h1] at this
    have h2 : (0 : K) < ∑ k ∈ range (2 * w'.lip.N), (if k = qp.Q.rows then (1 : K) else 0) ^ 2 :=
      sum_pos' (fun k _ => sq_nonneg _) ⟨_, mem_range.2 hlt, by simp⟩
    have := mul_pos (mul_pos hc' (lt_max_of_lt_left (c := 0) hc)) h2
    linarith
  have hps : 2 * w'.lip.N ≤ qp.p.size := by
    unfold QPMatrices.DimensionsAreConsistent at hd
    omega
  -- the plan without CoP displacement
  let d0 : ℕ → K := fun k => if k < 2 * w'.lip.N then -w'.X.get k else 0
  have hd0 : ∀ i < 2 * w'.lip.N, w'.X.get i + d0 i = 0 := fun i hi => by simp [d0, hi]
  have hfeas : Spec.Feasible qp d0 := by
    rw [f3]
    refine ⟨fun i hi => ?_, fun hw i hi => ?_, fun _ i hi => by rw [hs.noStep] at hi; omega⟩
    · by_cases h : i < 2 * w'.lip.N
      · simp only [d0, h, if_true, abs_neg]; exact hX i h
      · simp only [d0, h, if_false, abs_zero, MAXBOUND]; norm_num
    · obtain ⟨h1, h2⟩ := hcop hw i hi _ (f1 hw i hi)
      constructor
      · have : Spec.localCop w'.lip.N (fun k => w'.X.get k + d0 k) i = ⟨0, 0⟩ := by
          unfold Spec.localCop
          beta_reduce
          rw [hd0 i (by omega), hd0 (w'.lip.N + i) (by omega)]
        rw [this]; exact h1
      · intro r hr
        have := h2 r hr
        simp only [Spec.localCop, d0, show i < 2 * w'.lip.N by omega, show w'.lip.N + i < 2 * w'.lip.N by omega,
          if_true] at this ⊢
        rw [← abs_neg] at this
        convert this using 2
        ring
  have hJ0 : 0 < w'.weighting.velocityTracking ∨ 0 < w'.weighting.jerkMinimization →
      ∀ i < 2 * w'.lip.N, J (fun k => w'.X.get k + d0 k) i = 0 := by
    intro hw
    obtain ⟨t, ht⟩ := (hconv hw).2 ⟨w'.X.size, fun k => w'.X.get k + d0 k⟩ rfl
    intro i hi
    rw [← hJ _ _ ht i hi]
    exact convert_rest hr hp ht hs.at_ hs.x hs.y hs.support hd0 i hi
  have hzero : Spec.humCost w'.weighting w'.lip.N S w'.lip.T w'.lip.x w'.lip.y w'.velRef.get
      (fun i => w'.sup.weight.get i i) (fun k => w'.X.get k + d0 k) (J fun k => w'.X.get k + d0 k) = 0 := by
    unfold Spec.humCost
    have a1 : ∑ i ∈ range (2 * w'.lip.N), (w'.X.get i + d0 i) ^ 2 = 0 :=
      sum_eq_zero fun i hi => by rw [hd0 i (mem_range.1 hi)]; ring
    rw [a1, mul_zero, add_zero]
    have a2 : max w'.weighting.velocityTracking 0 / 2 * ∑ i ∈ range w'.lip.N, w'.sup.weight.get i i *
        (((Spec.jerkTrajectory S w'.lip.T w'.lip.x (J fun k => w'.X.get k + d0 k) i).v - w'.velRef.get i) ^ 2
        + ((Spec.jerkTrajectory S w'.lip.T w'.lip.y (fun k => J (fun k => w'.X.get k + d0 k) (w'.lip.N + k)) i).v
          - w'.velRef.get (w'.lip.N + i)) ^ 2) = 0 := by
      by_cases hvt : 0 < w'.weighting.velocityTracking
      · rw [sum_eq_zero, mul_zero]
        intro i hi
        have hi := mem_range.1 hi
        rw [hs.x, hs.y, jerkTrajectory_rest _ _ _ (N := w'.lip.N) (fun k hk => hJ0 (.inl hvt) k (by omega)) hi,
          jerkTrajectory_rest _ _ _ (N := w'.lip.N) (fun k hk => hJ0 (.inl hvt) _ (by omega)) hi,
          hv hvt i (by omega), hv hvt _ (by omega)]
        ring
      · rw [max_eq_right (not_lt.1 hvt)]; ring
    have a3 : max w'.weighting.jerkMinimization 0 / 2 * ∑ i ∈ range w'.lip.N, w'.sup.weight.get i i *
        (J (fun k => w'.X.get k + d0 k) i ^ 2 + J (fun k => w'.X.get k + d0 k) (w'.lip.N + i) ^ 2) = 0 := by
      by_cases hvt : 0 < w'.weighting.jerkMinimization
      · rw [sum_eq_zero, mul_zero]
        intro i hi
        have hi := mem_range.1 hi
        rw [hJ0 (.inr hvt) i (by omega), hJ0 (.inr hvt) _ (by omega)]
        ring
      · rw [max_eq_right (not_lt.1 hvt)]; ring
    rw [a2, a3, add_zero]
  have hnn : ∀ X J : ℕ → K, 0 ≤ Spec.humCost w'.weighting w'.lip.N S w'.lip.T w'.lip.x w'.lip.y w'.velRef.get
      (fun i => w'.sup.weight.get i i) X J := by
    intro X J
    unfold Spec.humCost
    have m : ∀ a : K, 0 ≤ max a 0 / 2 := fun a => div_nonneg (le_max_right _ _) zero_le_two
    refine add_nonneg (add_nonneg (mul_nonneg (m _) ?_) (mul_nonneg (m _) ?_)) (mul_nonneg (m _) ?_)
    · exact sum_nonneg fun i hi => mul_nonneg (hW i (mem_range.1 hi)) (add_nonneg (sq_nonneg _) (sq_nonneg _))
    · exact sum_nonneg fun i hi => mul_nonneg (hW i (mem_range.1 hi)) (add_nonneg (sq_nonneg _) (sq_nonneg _))
    · exact sum_nonneg fun i _ => sq_nonneg _
  have hsol : Spec.IsSolution qp d0 := by
    refine ⟨hfeas, fun y _ => ?_⟩
    rw [hcost, hcost y, hzero]
    exact mul_le_mul_of_nonneg_left (sub_le_sub_right (hnn _ _) _) hc0.le
  have hall : ∀ d, Spec.IsSolution qp d → ∀ i < 2 * w'.lip.N, w'.X.get i + d i = 0 := fun d hd i hi => by
    rw [huniq d d0 hd hsol i hi, hd0 i hi]
  refine ⟨⟨d0, hsol⟩, hall, fun o' b w2 ho hw2 => ?_⟩
  obtain ⟨w'', qp', ⟨idx', _, _, hp', -⟩, -, -, e3, e4, e5, e6, -⟩ := C41_follows hull o' w w2 fb b hr hw2
  obtain ⟨rfl, -, rfl⟩ : w'' = w' ∧ idx' = idx ∧ qp' = qp := by
    have := Except.ok.inj (hp'.symm.trans hp)
    simpa using this
  have h1 : ∀ i < 2 * w''.lip.N, w2.X.get i = 0 := fun i hi => by
    rw [e3 i (by omega)]; exact hall _ ho i hi
  have h2 := convert_rest hr hp e4 hs.at_ hs.x hs.y hs.support h1
  have hN : 0 < w''.lip.N := (hr.inv.prepare hp).1.fresh.N
  refine ⟨h1, h2, ?_, ?_⟩
  · rw [e5, h2 0 (by omega), hs.x]
    simp [Spec.cubic]
  · rw [e6, h2 w''.lip.N (by omega), hs.y]
    simp [Spec.cubic]

/-! ### Any number of cycles -/

/-- The supervisor that stands in double support with no request to walk. -/
structure Spec.StandingFeet (s : Sup K) : Prop where
  move : s.move = false
  phases : ∀ ph ∈ s.timeline, ph.type = .DS

theorem still_update [Archimedean K] {fb : K} {s s' : Sup K} {v v' : Vec K} (hr : Reach (· = fb) CanStop (s, v))
    (hg : Grid fb s) (hs : Spec.StandingFeet s) (hu : s.updateTimeline v fb = .ok (s', v')) :
    Spec.StandingFeet s' ∧ (∃ f, s'.timeline[0]? = some f ∧ f.type = .DS) ∧ s'.M = 0 ∧
      (∀ i < s.N, RowIsUnit s' i 0) ∧ s'.left = s.left ∧ s'.right = s.right ∧ 0 ≤ s'.ttnp ∧ s'.N = s.N ∧
      s'.T = s.T ∧ ∀ i < 2 * s.N, v'.get i = v.get i := by
  have hE : (0 : K) < EPS := EPS_pos
  obtain ⟨f, mv, R, hI⟩ := hr.ginv (hE.trans hg.pos).le hg
  obtain ⟨s₁, v₁, f₁, m, hU⟩ := hI.hist.update hu
  have hsame := hU.preview.same
  have hm₁ : s₁.move = false := hU.move.trans hs.move
  have hf₁ : f₁.type = .DS := by
    rcases hU.running with ⟨-, h, -⟩ | ⟨-, h, -⟩ <;> exact hs.phases _ (List.mem_of_getElem? h)
  have hM : s'.M = 0 := by
    rw [hU.preview.M]
    cases (s₁.sched f₁.type s₁.N).1 with
    | zero => rfl
    | succ k => rw [Sup.ssCount_succ_DS hf₁, hm₁]; rfl
  have htl : ∀ k, (s₁.phaseAt f₁ k).type = .DS := by
    intro k
    rw [Sup.phaseAt_type]
    cases k with
    | zero => exact hf₁
    | succ k => exact Sup.typeAt_still hm₁ _ _
  have hv : v₁ = v := by
    rcases Sup.popPhase_of_ok hU.pop with ⟨-, -, h⟩ | ⟨-, f', g, r, h1, -, h2, -⟩
    · exact h
    · exact h2 (hs.phases f' (by rw [show s.timeline = f' :: g :: r from h1]; simp))
  obtain ⟨s2, v2, b, f2, R2, h1, -, -, -, -, -, hc, -, -, hrow⟩ := C28_selection_grid fb (s, v) hr hg
  obtain ⟨rfl, rfl⟩ := Prod.mk.inj (Except.ok.inj (h1.symm.trans hu))
  refine ⟨⟨hsame.move.trans hm₁, fun ph hph => ?_⟩, ⟨s₁.phaseAt f₁ 0, ?_, htl 0⟩, hM, fun i hi => ?_,
    hsame.left.trans hU.left, hsame.right.trans hU.right, ?_, hsame.N.trans hU.N, hsame.T.trans hU.T, fun i hi => ?_⟩
  · rw [hU.preview.tl] at hph
    obtain ⟨k, -, rfl⟩ := List.mem_map.1 hph
    exact htl k
  · rw [hU.preview.tl, List.getElem?_map, List.getElem?_range (by omega)]
    rfl
  · obtain ⟨k, -, -, hq⟩ := hrow i hi
    have := hq.1
    rw [hc, hM] at this
    rwa [Nat.le_zero.1 this] at hq
  · rw [hsame.ttnp]; exact hE.le.trans hU.pos
  · rw [hU.preview.var.cop i (by rw [hU.N]; exact hi), hv]

/-- What `prepare` leaves alone once the first plan is made. -/
theorem hprepare_keeps {hull : Vec (Pt K) → Res (Polygon K)} {w w' : HWalkgen K} {fb : K} {idx : ℕ}
    {qp : QPMatrices K} (h : HumInv w) (hp : w.prepare hull fb = .ok (w', idx, qp)) (hf : w.first = false) :
    w.sup.updateTimeline w.X fb = .ok (w'.sup, w'.X) ∧ w'.first = false ∧ w'.lip.x = w.lip.x ∧
      w'.lip.y = w.lip.y ∧ w'.weighting = w.weighting ∧ w'.velRef = w.velRef ∧ w'.withCop = w.withCop ∧
      w'.calls = w.calls := by
  obtain ⟨w0, a, b, q0, q1, hb, -, -, -, -, -, rfl⟩ := hprepare_ok hp
  unfold HWalkgen.begin at hb
  obtain ⟨⟨s, X⟩, h1, hb⟩ := bind_eq_ok.1 hb
  have key : ∃ l : Lip K, (l.x = w.lip.x ∧ l.y = w.lip.y) ∧
      HWalkgen.firstGuess { w with sup := s, X := X, lip := l } = .ok w0 := by
    dsimp only at hb
    split at hb
    · obtain ⟨l, hl, hb⟩ := bind_eq_ok.1 hb
      obtain ⟨_, -, hb⟩ := bind_eq_ok.1 hb
      obtain ⟨_, -, hb⟩ := bind_eq_ok.1 hb
      refine ⟨l, ?_, hb⟩
      obtain ⟨_, -, hl⟩ := bind_eq_ok.1 hl
      obtain ⟨_, _, _, _, _, _, _, rfl⟩ := Lip.refresh_eq_ok (by exact h.fresh.auto) hl
      exact ⟨rfl, rfl⟩
    · obtain ⟨l, hl, hb⟩ := bind_eq_ok.1 hb
      obtain ⟨_, -, hb⟩ := bind_eq_ok.1 hb
      obtain ⟨_, -, hb⟩ := bind_eq_ok.1 hb
      obtain rfl := Except.ok.inj hl
      exact ⟨_, ⟨rfl, rfl⟩, hb⟩
  obtain ⟨l, ⟨hx, hy⟩, hb⟩ := key
  unfold HWalkgen.firstGuess at hb
  rw [if_neg (by simp [hf])] at hb
  obtain rfl := Except.ok.inj hb
  exact ⟨h1, hf, hx, hy, rfl, rfl, rfl, rfl⟩

/-- What `solve` leaves alone after the QP is made. -/
theorem hsolve_keeps {hull : Vec (Pt K) → Res (Polygon K)} {o : Oracle K} {w w2 : HWalkgen K} {fb : K} {b : Bool}
    (h : w.solve hull o fb = .ok (b, w2)) : ∃ w' idx qp, w.prepare hull fb = .ok (w', idx, qp) ∧
      w2.first = w'.first ∧ w2.weighting = w'.weighting ∧ w2.velRef = w'.velRef ∧
      w2.withCop = w'.withCop ∧ w2.calls = w'.calls + 1 := by
  unfold HWalkgen.solve at h
  obtain ⟨⟨w', idx, qp⟩, hp, h⟩ := bind_eq_ok.1 h
  obtain ⟨sv, -, h⟩ := bind_eq_ok.1 h
  obtain ⟨⟨fd, dX, sv'⟩, hsv, h⟩ := bind_eq_ok.1 h
  obtain ⟨w3, hf, h⟩ := bind_eq_ok.1 h
  obtain ⟨rfl, rfl⟩ := Prod.mk.inj (Except.ok.inj h)
  unfold HWalkgen.finish at hf
  obtain ⟨X, hX, hf⟩ := bind_eq_ok.1 hf
  dsimp only at hf
  obtain ⟨t, ht, hf⟩ := bind_eq_ok.1 hf
  obtain ⟨j, hj, hf⟩ := bind_eq_ok.1 hf
  obtain ⟨l₁, h1, hf⟩ := bind_eq_ok.1 hf
  obtain ⟨j', hj', hf⟩ := bind_eq_ok.1 hf
  obtain ⟨l₂, h2, hf⟩ := bind_eq_ok.1 hf
  obtain ⟨u, hu, hf⟩ := bind_eq_ok.1 hf
  obtain ⟨s, h3, hf⟩ := bind_eq_ok.1 hf
  obtain rfl := Except.ok.inj hf
  exact ⟨w', idx, qp, hp, rfl, rfl, rfl, rfl, rfl⟩

/-- The position midway between the feet. -/
def Spec.midFeet (s : Sup K) : Pt K :=
  ⟨(s.left.x.state.p + s.right.x.state.p) / 2, (s.left.y.state.p + s.right.y.state.p) / 2⟩

/-- The generator is at rest: in double support with no request to walk, the CoM at rest midway between the feet, the
planned CoP there, no velocity asked for, the CoP centred with a positive weighting, and the point midway between the
feet inside the polygon built from both feet. -/
structure Spec.AtRest (hull : Vec (Pt K) → Res (Polygon K)) (w : HWalkgen K) : Prop where
  feet : Spec.StandingFeet w.sup
  x : w.lip.x = ⟨(Spec.midFeet w.sup).x, 0, 0⟩
  y : w.lip.y = ⟨(Spec.midFeet w.sup).y, 0, 0⟩
  planned : w.first = false
  plan : ∀ i < 2 * w.lip.N, w.X.get i = 0
  centred : 0 < w.weighting.copCentering
  ref : 0 < w.weighting.velocityTracking → ∀ i < 2 * w.lip.N, w.velRef.get i = 0
  inside : w.withCop = true → ∀ q g, Spec.IsUnion w.sup ⟨w.sup.left.x.state.p, w.sup.left.y.state.p⟩
    ⟨w.sup.right.x.state.p, w.sup.right.y.state.p⟩ (Spec.midFeet w.sup) q → hull q = .ok g →
    Spec.SatisfiesConstraints g ⟨0, 0⟩

theorem AtRest.solve [Archimedean K] {hull : Vec (Pt K) → Res (Polygon K)} {o : Oracle K}
    {w w2 : HWalkgen K} {fb : K} {b : Bool}
    (ho : ∀ n qp it, w.calls ≤ n → (∃ d, Spec.IsSolution qp d) → Spec.IsSolution qp (o n qp it).2) (hr : HumHistory hull w)
    (hreach : Reach (· = fb) CanStop (w.sup, w.X)) (hg : Grid fb w.sup) (hT : 20 * EPS ≤ w.sup.T)
    (h : Spec.AtRest hull w) (hs : w.solve hull o fb = .ok (b, w2)) :
    Spec.AtRest hull w2 ∧ w2.lip.x = w.lip.x ∧ w2.lip.y = w.lip.y ∧ w2.sup.left = w.sup.left ∧
      w2.sup.right = w.sup.right ∧ w2.sup.T = w.sup.T ∧ Grid fb w2.sup ∧ w.calls ≤ w2.calls := by
  obtain ⟨w', qp, hgv, -, -, -, -, -, -, hfeet⟩ := C41_follows hull o w w2 fb b hr hs
  obtain ⟨idx, nv, nc, hp, hd⟩ := hgv
  obtain ⟨w'', idx', qp', hp', k1, k2, k3, k4, k5⟩ := hsolve_keeps hs
  obtain ⟨rfl, -, rfl⟩ : w'' = w' ∧ idx' = idx ∧ qp' = qp := by
    have := Except.ok.inj (hp'.symm.trans hp)
    simpa using this
  obtain ⟨hu, p1, p2, p3, p4, p5, p6, p7⟩ := hprepare_keeps hr.inv hp h.planned
  obtain ⟨hf', ⟨f, hf0, hfD⟩, hM, hrow, hl, hri, hpos, hN, hTT, hX⟩ := still_update hreach hg h.feet hu
  have hI := (hr.inv.prepare hp).1
  have hN' : w''.lip.N = w.lip.N := by rw [← hI.N, hN, hr.inv.N]
  have hsN : w.sup.N = w''.lip.N := by rw [← hI.N, hN]
  have hmid : Spec.midFeet w''.sup = Spec.midFeet w.sup := by unfold Spec.midFeet; rw [hl, hri]
  have hstand : Spec.Standing w'' (Spec.midFeet w.sup) := by
    refine ⟨hM, fun i hi => hrow i (by omega), ⟨f, hf0, ?_, ?_, ?_, fun _ _ => ?_⟩, p2.trans h.x, p3.trans h.y⟩
    · rw [hfD]; simp
    · rw [hfD]; simp
    · rw [hf'.move]; simp
    · rw [← hmid]
      unfold Spec.midFeet
      rw [add_comm, add_comm w''.sup.left.y.state.p]
  have hX0 : ∀ i < 2 * w''.lip.N, w''.X.get i = 0 := fun i hi => by
    rw [hX i (by omega), h.plan i (by omega)]
  obtain ⟨hsol, -, hfin⟩ := C65_standing hull w w'' fb qp' (Spec.midFeet w.sup) hr ⟨idx, nv, nc, hp, hd⟩
    (by rw [hTT]; exact hT) hpos (by rw [p4]; exact h.centred) hstand
    (fun hv i hi => by rw [p5]; exact h.ref (p4 ▸ hv) i (by omega))
    (fun hw i hi g hgp => by
      obtain ⟨ph, hph, -, -, hds⟩ := hgp
      obtain ⟨l, r, t, q, ⟨f', hf1, -, hdd, -⟩, huni, hq⟩ := hds (hf'.phases _ (List.mem_of_getElem? hph))
      obtain rfl := Option.some.inj (hf0.symm.trans hf1)
      obtain ⟨rfl, rfl, rfl⟩ := hdd hf'.move hfD
      refine ⟨h.inside (p6 ▸ hw) q g ?_ hq, fun r hr => ?_⟩
      · unfold Spec.IsUnion Spec.midFeet at *
        rw [hl, hri] at huni
        exact huni
      · unfold Spec.localCop
        rw [hX0 i (by omega), hX0 (w''.lip.N + i) (by omega)]
        simp only [mul_zero, add_zero, abs_zero, MAXBOUND]
        norm_num)
    (fun i hi => by rw [hX0 i hi, abs_zero, MAXBOUND]; norm_num)
  obtain ⟨q1, -, q3, q4⟩ := hfin o b w2 (ho _ _ _ p7.ge hsol) hs
  obtain ⟨e1, e2, -, -, e5, e6, -, e8, e9, -⟩ := Sup.updateFeet_frame hfeet
  have efeet : w2.sup.left = w''.sup.left ∧ w2.sup.right = w''.sup.right := by
    rcases Sup.updateFeet_cases hf0 hfeet with ⟨-, h⟩ | ⟨h, -⟩
    · exact h
    · exact absurd hfD h.1
  have hl2 : w2.sup.left = w.sup.left := efeet.1.trans hl
  have hr2 : w2.sup.right = w.sup.right := efeet.2.trans hri
  have hmid2 : Spec.midFeet w2.sup = Spec.midFeet w.sup := by unfold Spec.midFeet; rw [hl2, hr2]
  have hx2 : w2.lip.x = w.lip.x := q3.trans p2
  have hy2 : w2.lip.y = w.lip.y := q4.trans p3
  have hN2 : w2.lip.N = w''.lip.N := by
    have : HumInv w2 := (hr.call (c := .solve fb) hs).inv
    rw [← this.N, e1, hI.N]
  obtain ⟨f0, mv, R, hGI⟩ := hreach.ginv (EPS_pos.trans hg.pos).le hg
  obtain ⟨-, -, c3, c4, -⟩ := Cycle.params hGI.hist (C64_cycle hull o w w2 fb b hr hs)
  have hT2 : w2.sup.T = w.sup.T := e2.trans hTT
  refine ⟨⟨⟨e8.trans hf'.move, ?_⟩, ?_, ?_, k1.trans p1, ?_, ?_, ?_, ?_⟩, hx2, hy2, hl2, hr2, hT2, ?_, by omega⟩
  · rw [e9]; exact hf'.phases
  · rw [hx2, hmid2]; exact h.x
  · rw [hy2, hmid2]; exact h.y
  · rw [hN2]; exact q1
  · rw [k2, p4]; exact h.centred
  · rw [k2, p4, k3, p5, hN2, hN']; exact h.ref
  · rw [k4, p6, hmid2]
    unfold Spec.IsUnion
    rw [hl2, hr2]
    exact h.inside
  · exact hg.congr (e1.trans hN) hT2 c3 c4

/-- **C65, forever.** The generator at rest stays at rest during any number of control cycles: neither the CoM nor the
feet move, provided that the solver finds solutions and that the durations are multiples of the feedback period. -/
theorem C65_forever [Archimedean K] (hull : Vec (Pt K) → Res (Polygon K)) (o : Oracle K)
    (w w2 : HWalkgen K) (fb : K) (n : ℕ)
    (ho : ∀ n qp it, w.calls ≤ n → (∃ d, Spec.IsSolution qp d) → Spec.IsSolution qp (o n qp it).2) (hr : HumHistory hull w)
    (hreach : Reach (· = fb) CanStop (w.sup, w.X)) (hg : Grid fb w.sup) (hT : 20 * EPS ≤ w.sup.T)
    (h : Spec.AtRest hull w) (hrun : w.run hull o (List.replicate n (.solve fb)) = .ok w2) :
    w2.lip.x = w.lip.x ∧ w2.lip.y = w.lip.y ∧ w2.sup.left = w.sup.left ∧ w2.sup.right = w.sup.right ∧
      Spec.AtRest hull w2 := by
  induction n generalizing w with
  | zero => cases hrun; exact ⟨rfl, rfl, rfl, rfl, h⟩
  | succ n ih =>
    rw [List.replicate_succ] at hrun
    obtain ⟨⟨b, w1⟩, h1, hrun⟩ := bind_eq_ok.1 hrun
    obtain ⟨a1, a2, a3, a4, a5, a6, a7, a8⟩ := AtRest.solve ho hr hreach hg hT h h1
    obtain ⟨b1, b2, b3, b4, b5⟩ := ih w1
      (fun n qp it hn => ho n qp it (a8.trans hn)) (hr.call h1) (.cycle hreach rfl (C64_cycle hull o w w1 fb b hr h1)) a7
      (by rw [a6]; exact hT) a1 hrun
    exact ⟨b1.trans a2, b2.trans a3, b3.trans a4, b4.trans a5, b5⟩

/-! ### A concrete run -/

/-- Only the answer of the solver to the QP of the call matters. -/
theorem solve_congr {hull : Vec (Pt K) → Res (Polygon K)} {o o' : Oracle K} {w w' : HWalkgen K} {fb : K} {idx : ℕ}
    {qp : QPMatrices K} (hp : w.prepare hull fb = .ok (w', idx, qp)) (ho : o w'.calls qp 10000 = o' w'.calls qp 10000) :
    w.solve hull o fb = w.solve hull o' fb := by
  unfold HWalkgen.solve solverSolve
  simp only [hp, ok_bind, usedQP, Bool.and_false, Bool.false_eq_true, if_false, ho]

open Classical in
/-- A solver that finds solutions, and answers zero to the first call and when zero is a solution. -/
noncomputable def restOracle : Oracle ℚ := fun n qp _ => (true, if n = 0 then fun _ => 0 else
  if Spec.IsSolution qp (fun _ => 0) then fun _ => 0 else
    if h : ∃ d, Spec.IsSolution qp d then h.choose else fun _ => 0)

theorem restOracle_finds (n : ℕ) (qp : QPMatrices ℚ) (it : ℕ) (hn : 1 ≤ n) (h : ∃ d, Spec.IsSolution qp d) :
    Spec.IsSolution qp (restOracle n qp it).2 := by
  simp only [restOracle]
  rw [if_neg (by omega)]
  split
  · assumption
  · exact h.choose_spec

/-- A user of one sample configures the generator, with all objectives and the CoP constraint. -/
def restCalls : List (HCall ℚ) :=
  readyCalls ++ [.setCop true demoRect, .setCop false demoRect, .setConfig true false, .setWeightings ⟨1, 1, 1⟩]

set_option maxRecDepth 100000 in
theorem rest_checks : okAnd (fun r => decide ((r.1.sup.N = 1 ∧ r.1.sup.T = 1 ∧ r.1.sup.stepPeriod = 1 ∧
      r.1.sup.dsPeriod = 1 ∧ (0 < r.1.sup.left.kin.vertices.size ∧ 0 < r.1.sup.right.kin.vertices.size) ∧
      (r.1.sup.timeline.map fun p => (p.type, p.duration)) = [(.DS, 1)] ∧ r.1.sup.ttnp = 1 ∧ r.1.sup.M = 0 ∧
      r.1.sup.move = false ∧ r.1.X.size = 2 ∧
      (r.1.sup.left.x.factor.size = 12 ∧ r.1.sup.left.y.factor.size = 12 ∧ r.1.sup.left.z.factor.size = 12) ∧
      (r.1.sup.right.x.factor.size = 12 ∧ r.1.sup.right.y.factor.size = 12 ∧ r.1.sup.right.z.factor.size = 12)) ∧
      (r.2.1.sup.N = 1 ∧ r.2.1.sup.T = 1 ∧ r.2.1.sup.stepPeriod = 1 ∧ r.2.1.sup.dsPeriod = 1 ∧ r.2.1.sup.move = false ∧
      (r.2.1.sup.timeline.map fun p => p.type) = [.DS, .DS]) ∧ r.2.1.lip.N = 1 ∧
      r.2.1.lip.x = ⟨0, 0, 0⟩ ∧ r.2.1.lip.y = ⟨0, 0, 0⟩ ∧ (r.2.1.sup.left.x.state.p = 0 ∧ r.2.1.sup.left.y.state.p = 0 ∧
      r.2.1.sup.right.x.state.p = 0 ∧ r.2.1.sup.right.y.state.p = 0) ∧ r.2.1.first = false ∧
      (∀ i : Fin 2, r.2.1.X.get i = 0) ∧ r.2.1.weighting.copCentering = 1 ∧ (∀ i : Fin 2, r.2.1.velRef.get i = 0) ∧
      r.2.1.withCop = true ∧ r.2.1.calls = 1 ∧ r.2.2.1.1.calls = 1 ∧
      (r.2.2.1.2.2.DimensionsAreConsistent 2 0 ∧ Spec.Feasible r.2.2.1.2.2 (fun _ => 0) ∧
        (∀ i : Fin 2, r.2.2.1.2.2.p.get i = 0) ∧ ∀ i j : Fin 2, if i = j then 0 < r.2.2.1.2.2.Q.get i j
          else r.2.2.1.2.2.Q.get i j = 0)))
    (do
      let w ← HWalkgen.make >>= fun w => w.run (fun _ => .ok demoRect) restOracle restCalls
      let w1 ← w.step (fun _ => .ok demoRect) restOracle (.solve 1)
      let p ← w1.2.prepare (fun _ => .ok demoRect) 1
      let w2 ← w1.2.step (fun _ => .ok demoRect) (fun _ _ _ => (true, fun _ => 0)) (.solve 1)
      pure (w, w1.2, p, w2.2)) = true := by
  decide +kernel

/-- The hypotheses of `C65_forever` are met: a generator at rest, two calls of `solve`. -/
example : ∃ cs w w2, HumReaches (fun _ => .ok demoRect) restOracle cs w ∧
    Reach (· = 1) CanStop (w.sup, w.X) ∧ Grid 1 w.sup ∧ 20 * EPS ≤ w.sup.T ∧ Spec.AtRest (fun _ => .ok demoRect) w ∧
    w.withCop = true ∧
    (∀ n qp it, w.calls ≤ n → (∃ d, Spec.IsSolution qp d) → Spec.IsSolution qp (restOracle n qp it).2) ∧
    w.run (fun _ => .ok demoRect) restOracle (List.replicate 1 (.solve 1)) = .ok w2 := by
  obtain ⟨r, h, hc⟩ := okAnd_true rest_checks
  obtain ⟨w, hw, h⟩ := bind_eq_ok.1 h
  obtain ⟨w0, h0, hw⟩ := bind_eq_ok.1 hw
  obtain ⟨⟨b1, w1⟩, h1, h⟩ := bind_eq_ok.1 h
  obtain ⟨⟨w', idx, qp⟩, hp, h⟩ := bind_eq_ok.1 h
  obtain ⟨⟨b2, w2⟩, h2, h⟩ := bind_eq_ok.1 h
  obtain rfl := Except.ok.inj h
  obtain ⟨⟨c1, c2, c3, c4, c5, c6, c7, c8, c9, c10, c11, c12⟩, ⟨d1, d2, d3, d4, d5, d6⟩, e1, e2, e3,
    ⟨f1, f2, f3, f4⟩, e4, e5, e6, e7, e8, e9, e10, ⟨g1, g2, g3, g4⟩⟩ := of_decide_eq_true hc
  dsimp only at c1 c2 c3 c4 c5 c6 c7 c8 c9 c10 c11 c12 d1 d2 d3 d4 d5 d6 e1 e2 e3 f1 f2 f3 f4 e4 e5 e6 e7 e8 e9 e10
  have g1 : qp.DimensionsAreConsistent 2 0 := g1
  have g3 : ∀ i : Fin 2, qp.p.get i = 0 := g3
  have g4 : ∀ i j : Fin 2, if i = j then 0 < qp.Q.get i j else qp.Q.get i j = 0 := g4
  have hE : (EPS : ℚ) ≤ 1 := by norm_num [EPS]
  have ht : w.sup.timeline = [⟨.DS, 1⟩] := by
    match h : w.sup.timeline, c6 with
    | [⟨t, d⟩], c6 =>
      simp only [List.map_cons, List.map_nil, List.cons.injEq, Prod.mk.injEq, and_true] at c6
      rw [c6.1, c6.2]
  have hrc : HumReaches (fun _ => .ok demoRect) restOracle restCalls w := ⟨w0, h0, hw⟩
  have hready : Ready (w.sup, w.X) := by
    refine ⟨by simp [c1], by simp [c2, hE], by simp [c3, hE], by simp [c4, hE], c5, ?_, ?_, c8, c9, ?_, c11, c12⟩
    · simp only [c4]; exact ht
    · simp only [c4]; exact c7
    · simp only [c1]; exact c10
  have hsol : Spec.IsSolution qp (fun _ => 0) := by
    refine ⟨g2, fun y _ => ?_⟩
    have hp2 : qp.p.size = 2 ∧ qp.Q.rows = 2 ∧ qp.Q.cols = 2 := by
      unfold QPMatrices.DimensionsAreConsistent at g1
      omega
    have q00 := g4 0 0
    have q11 := g4 1 1
    have q01 := g4 0 1
    have q10 := g4 1 0
    have p0 := g3 0
    have p1 := g3 1
    simp only [Fin.isValue, if_true, Fin.val_zero, Fin.val_one, zero_ne_one, one_ne_zero, if_false] at q00 q11 q01 q10 p0 p1
    unfold Spec.cost
    simp only [hp2, sum_range_succ, range_zero, sum_empty, zero_add, q01, q10, p0, p1, mul_zero, zero_mul, add_zero]
    nlinarith [mul_nonneg q00.le (sq_nonneg (y 0)), mul_nonneg q11.le (sq_nonneg (y 1))]
  refine ⟨restCalls ++ [.solve 1], w1, w2, hrc.call h1,
    .cycle (.start hready) rfl (C64_cycle _ _ _ _ _ _ hrc.history h1), ⟨by norm_num [EPS], ⟨1, by simp, by simp [d2]⟩,
      ⟨1, by simp, by simp [d3]⟩, ⟨1, by simp, by simp [d4]⟩, by simp [d1, d2, d3]⟩, by rw [d2]; norm_num [EPS],
    ⟨⟨d5, fun ph hph => ?_⟩, ?_, ?_, e4, fun i hi => ?_, by rw [e6]; norm_num, fun _ i hi => ?_, fun _ q g _ hg => ?_⟩,
    e8, fun n qp it hn => restOracle_finds n qp it (by omega), ?_⟩
  · have := List.mem_map_of_mem (f := fun p : Phase ℚ => p.type) hph
    rw [d6] at this
    simpa using this
  · simp [Spec.midFeet, f1, f3, e2]
  · simp [Spec.midFeet, f2, f4, e3]
  · exact e5 ⟨i, by omega⟩
  · exact e7 ⟨i, by omega⟩
  · obtain rfl := Except.ok.inj hg
    refine ⟨?_, ?_, ?_, ?_, fun r hr => absurd hr (Nat.not_lt_zero r)⟩ <;> norm_num [demoRect]
  · have hs : w1.solve (fun _ => .ok demoRect) restOracle 1 = .ok (b2, w2) := by
      rw [← h2]
      refine solve_congr hp ?_
      simp only [restOracle]
      rw [if_pos hsol, ite_self]
    simp only [List.replicate_succ, List.replicate_zero, HWalkgen.run, HWalkgen.step, hs, ok_bind]

end MPC
