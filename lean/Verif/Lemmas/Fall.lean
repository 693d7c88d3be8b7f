import Verif.Spec.Fall
import Verif.Props.HumUnique

/-! # Lemmas on robots that stand -/

set_option linter.unusedSectionVars false

namespace MPC

open Finset

variable {K : Type} [Field K] [LinearOrder K] [IsStrictOrderedRing K] [FloorRing K]

theorem Spec.StandsAlike.refl (w : HWalkgen K) : Spec.StandsAlike w w := ⟨rfl, rfl, rfl, rfl, rfl, rfl, rfl, rfl⟩

theorem Spec.StandsAlike.trans {u v w : HWalkgen K} (h : Spec.StandsAlike u v) (k : Spec.StandsAlike v w) :
    Spec.StandsAlike u w :=
  ⟨k.N.trans h.N, k.T.trans h.T, k.height.trans h.height, k.weighting.trans h.weighting, k.velRef.trans h.velRef,
    k.withCop.trans h.withCop, k.left.trans h.left, k.right.trans h.right⟩

theorem Spec.StandsAlike.mid {w w' : HWalkgen K} (h : Spec.StandsAlike w w') :
    Spec.midFeet w'.sup = Spec.midFeet w.sup := by
  unfold Spec.midFeet
  rw [h.left, h.right]

/-- The polygon of both feet, in the form that the lemmas on `solve` need. -/
theorem Stands.hull [Archimedean K] {hull : Vec (Pt K) → Res (Polygon K)} {w : HWalkgen K} (h : Spec.Stands hull w)
    (hc : w.withCop = true) (s : Sup K) (X : Vec K) (p : Vec (Pt K))
    (hu : w.sup.updateTimeline w.X w.lip.T = .ok (s, X)) (hp : s.dsCopPoints = .ok p) : HullWorks hull p := by
  obtain ⟨hf', ⟨f, hf0, hfD⟩, -, -, hl, hri, -⟩ := still_update h.reach h.usable.grid h.feet hu
  obtain ⟨l, r, t, ⟨f', hf1, -, hdd, -⟩, huni⟩ := Sup.dsCopPoints_spec hp
  obtain rfl := Option.some.inj (hf0.symm.trans hf1)
  obtain ⟨rfl, rfl, rfl⟩ := hdd hf'.move hfD
  refine h.polygon hc p ?_
  unfold Spec.IsUnion Spec.midFeet at *
  rw [hl, hri] at huni
  exact huni

theorem Stands.solves [Archimedean K] {hull : Vec (Pt K) → Res (Polygon K)} {w : HWalkgen K} (h : Spec.Stands hull w)
    (o : Oracle K) : ∃ b w2, w.solve hull o w.lip.T = .ok (b, w2) :=
  C68_solve_partial hull w w.lip.T h.history h.reach h.usable (fun hc s X p => Stands.hull h hc s X p) h.solvers o

/-- A call of `solve` while the robot stands. -/
theorem Stands.step [Archimedean K] {hull : Vec (Pt K) → Res (Polygon K)} {o : Oracle K} {w w2 : HWalkgen K} {b : Bool}
    (h : Spec.Stands hull w) (hs : w.solve hull o w.lip.T = .ok (b, w2)) :
    Spec.Stands hull w2 ∧ Spec.StandsAlike w w2 ∧ w2.calls = w.calls + 1 ∧
    ∃ w' idx qp, w.prepare hull w.lip.T = .ok (w', idx, qp) ∧ HumGives hull w w.lip.T w' qp ∧
      Spec.StandsAlike w w' ∧ w'.calls = w.calls ∧ w'.withFeet = w.withFeet ∧ w'.lip.x = w.lip.x ∧ w'.lip.y = w.lip.y ∧
      w'.sup.M = 0 ∧ (∀ i < w.lip.N, RowIsUnit w'.sup i 0) ∧ Spec.SupportAt w'.sup (Spec.midFeet w.sup) ∧
      (∀ i < 2 * w.lip.N, w'.X.get i = w.X.get i) ∧ w'.sup.T = w.lip.T ∧ 0 < w'.sup.ttnp ∧
      w'.sup.nbCalls = .ok 1 ∧ w'.lip.fb = w.lip.T ∧
      (∀ i < w.lip.N, ∀ g, Spec.SupportPolygon hull w'.sup i g → ∃ q, Spec.IsUnion w.sup
        ⟨w.sup.left.x.state.p, w.sup.left.y.state.p⟩ ⟨w.sup.right.x.state.p, w.sup.right.y.state.p⟩
        (Spec.midFeet w.sup) q ∧ hull q = .ok g) ∧
      2 * w.lip.N ≤ qp.p.size ∧ (∀ k < qp.p.size, w2.X.get k = w'.X.get k + (o w.calls qp 10000).2 k) ∧
      HWalkgen.convert { w' with X := w2.X } = .ok w2.transformedX ∧
      w2.lip.x = Spec.cubic w.lip.x (w2.transformedX.get 0) w.lip.T ∧
      w2.lip.y = Spec.cubic w.lip.y (w2.transformedX.get w.lip.N) w.lip.T := by
  have hE : (0 : K) < EPS := EPS_pos
  have h0 : 0 < w.lip.T := hE.trans h.usable.grid.pos
  have hr := h.history
  obtain ⟨w', qp, hgv, -, -, f3, f4, f5, f6, hfeet⟩ := C41_follows hull o w w2 w.lip.T b hr hs
  obtain ⟨idx, nv, nc, hp, hd⟩ := hgv
  obtain ⟨w'', idx', qp', hp', k1, k2, k3, k4, k5⟩ := hsolve_keeps hs
  obtain ⟨rfl, -, rfl⟩ : w'' = w' ∧ idx' = idx ∧ qp' = qp := by
    have := Except.ok.inj (hp'.symm.trans hp)
    simpa using this
  obtain ⟨w0, idx0, qp0, c, hp0, hB, -, -, hdim⟩ := prepare_total hr h.reach h.usable (fun hc s X p => Stands.hull h hc s X p)
  obtain ⟨hw0, -, hq0⟩ : { w0 with qps := w0.qps.set idx0 qp0 } = w'' ∧ idx0 = idx ∧ qp0 = qp' := by
    have := Except.ok.inj (hp0.symm.trans hp)
    simpa using this
  have hfb : w''.lip.fb = w.lip.T := by rw [← hw0]; exact hB.fb
  obtain ⟨hu, p1, p2, p3, p4, p5, p6, p7⟩ := hprepare_keeps hr.inv hp h.planned
  obtain ⟨hf', ⟨f, hf0, hfD⟩, hM, hrow, hl, hri, hpos, hN, hTT, hX⟩ := still_update h.reach h.usable.grid h.feet hu
  obtain ⟨-, httnp⟩ := steps_support h.reach h.usable.grid hu
  obtain ⟨q1, q2, q3, q4, q5⟩ := prepare_params hr.inv hp
  have hI := (hr.inv.prepare hp).1
  have hN' : w''.lip.N = w.lip.N := by rw [← hI.N, hN, hr.inv.N]
  have hmid : Spec.midFeet w''.sup = Spec.midFeet w.sup := by unfold Spec.midFeet; rw [hl, hri]
  obtain ⟨i, n, hn, hn1, hn2, -⟩ := C34_calls_partial (w.sup, w.X) w.lip.T h.reach h.usable.grid 1
    (by rw [Nat.cast_one, one_mul]; exact hr.inv.T) _ _ hu
  obtain rfl : n = 1 := by omega
  obtain ⟨e1, e2, -, -, e5, e6, -, e8, e9, -⟩ := Sup.updateFeet_frame hfeet
  have efeet : w2.sup.left = w''.sup.left ∧ w2.sup.right = w''.sup.right := by
    rcases Sup.updateFeet_cases hf0 hfeet with ⟨-, h⟩ | ⟨h, -⟩
    · exact h
    · exact absurd hfD h.1
  obtain ⟨s1, s2, s3, s4, s5⟩ := solve_params hr.inv hs
  have hfr := HWalkgen.solve_frame hr.inv hs
  have hal : Spec.StandsAlike w w2 :=
    ⟨hfr.N, s1, s2, s3, k3.trans p5, s4, efeet.1.trans hl, efeet.2.trans hri⟩
  have hal' : Spec.StandsAlike w w'' := ⟨hN', q1, q2, q3, p5, p6, hl, hri⟩
  have hsz : 2 * w.lip.N ≤ qp'.p.size := by
    have e : w0.lip.N = w.lip.N := hB.N
    rw [hq0] at hdim
    unfold QPMatrices.DimensionsAreConsistent at hdim
    omega
  refine ⟨⟨hr.call (c := .solve w.lip.T) hs, ?_, ?_, h.solvers.frame hfr, ⟨e8.trans hf'.move, by rw [e9]; exact hf'.phases⟩, k1.trans p1, ?_⟩, hal,
    by rw [k5, p7], w'', idx, qp', hp, ⟨idx, nv, nc, hp, hd⟩, hal', p7, q5, p2, p3, hM, fun i hi => hrow i (by rw [hr.inv.N]; exact hi),
    ?_, fun i hi => hX i (by rw [hr.inv.N]; exact hi), by rw [hTT, hr.inv.T], hE.trans_le httnp, hn, hfb, ?_, hsz,
    fun k hk => ?_, f4, ?_, ?_⟩
  · rw [s1]
    exact .cycle h.reach rfl (C64_cycle hull o w w2 _ b hr hs)
  · rw [s1]
    exact (h.usable.solve hr h.reach (fun hc s X p => Stands.hull h hc s X p) hs).1
  · intro hc q hq
    rw [hal.mid] at hq
    unfold Spec.IsUnion at hq
    rw [hal.left, hal.right] at hq
    exact h.polygon (s4 ▸ hc) q hq
  · refine ⟨f, hf0, ?_, ?_, ?_, fun _ _ => ?_⟩
    · rw [hfD]; simp
    · rw [hfD]; simp
    · rw [hf'.move]; simp
    · rw [← hmid]
      unfold Spec.midFeet
      rw [add_comm, add_comm w''.sup.left.y.state.p]
  · rintro i - g ⟨ph, hph, -, -, hds⟩
    obtain ⟨l, r, t, q, ⟨f', hf1, -, hdd, -⟩, huni, hq⟩ := hds (hf'.phases _ (List.mem_of_getElem? hph))
    obtain rfl := Option.some.inj (hf0.symm.trans hf1)
    obtain ⟨rfl, rfl, rfl⟩ := hdd hf'.move hfD
    refine ⟨q, ?_, hq⟩
    unfold Spec.IsUnion Spec.midFeet at *
    rw [hl, hri] at huni
    exact huni
  · rw [f3 k hk, p7]
  · rw [f5, p2]
  · rw [f6, p3, hN']

/-- The CoP of a standing robot is that of its plan. -/
theorem Stands.cop [Archimedean K] {hull : Vec (Pt K) → Res (Polygon K)} {o : Oracle K} {w w2 : HWalkgen K} {b : Bool}
    (h : Spec.Stands hull w) (he : Spec.ExactCop w) (hs : w.solve hull o w.lip.T = .ok (b, w2)) :
    (∃ j, Spec.comX w2 = Spec.cubic (Spec.comX w) j w.lip.T) ∧ (∃ j, Spec.comY w2 = Spec.cubic (Spec.comY w) j w.lip.T) ∧
    (Spec.comX w2).p - w.lip.comHeight / GRAVITY_NORM * (Spec.comX w2).a = w2.X.get 0 ∧
    (Spec.comY w2).p - w.lip.comHeight / GRAVITY_NORM * (Spec.comY w2).a = w2.X.get w.lip.N := by
  obtain ⟨-, hal, -, w', idx, qp, hp, -, hal', -, -, px, py, hM, hrow, hsup, -, -, -, hn, hf, -, -, -, hcv, hx, hy⟩ :=
    Stands.step h hs
  obtain ⟨n, p, hn', hp', hexact, -⟩ := C41_jerks_partial hull w w' _ idx qp h.history hp w2.X _ hcv
  obtain rfl : n = 1 := Except.ok.inj (hn'.symm.trans hn)
  obtain rfl := hsup.unique hp'
  have hN0 : 0 < w'.lip.N := (h.history.inv.prepare hp).1.fresh.N
  obtain ⟨ex, ey⟩ := hexact (by
    rw [hf, hal'.N, hal'.T, hal'.height, Int.cast_one, one_mul]
    exact he) 0 hN0 0 (hrow 0 (hal'.N ▸ hN0))
  simp only [Spec.motionCop, Spec.copOf, Spec.jerkTrajectory, hf, hal'.height, Int.cast_one, one_mul, Nat.add_zero, px, py,
    Spec.plannedCop, Spec.previous, if_true, hal'.N, mul_zero, zero_div, sub_zero] at ex ey
  rw [← hx] at ex
  rw [← hy] at ey
  refine ⟨⟨w2.transformedX.get 0, ?_⟩, ⟨w2.transformedX.get w.lip.N, ?_⟩, ?_, ?_⟩
  · unfold Spec.comX
    rw [hal.mid, hx]
    simp only [Spec.cubic, State3.mk.injEq, and_true]
    ring
  · unfold Spec.comY
    rw [hal.mid, hy]
    simp only [Spec.cubic, State3.mk.injEq, and_true]
    ring
  · unfold Spec.comX
    rw [hal.mid]
    dsimp only
    linarith
  · unfold Spec.comY
    rw [hal.mid]
    dsimp only
    linarith

theorem Spec.StandsAlike.exactCop {w w' : HWalkgen K} (h : Spec.StandsAlike w w') (he : Spec.ExactCop w) :
    Spec.ExactCop w' := by
  unfold Spec.ExactCop
  rw [h.T, h.N, h.height]
  exact he

/-- What holds of a standing robot and is kept by every call of `solve`. -/
theorem Stands.runs [Archimedean K] {hull : Vec (Pt K) → Res (Polygon K)} {o : Oracle K} {w : HWalkgen K}
    (h : Spec.Stands hull w) {P : ℕ → HWalkgen K → Prop} (h0 : P 0 w)
    (hstep : ∀ n w1 w2 b, w.run hull o (Spec.standCalls w n) = .ok w1 → Spec.Stands hull w1 → Spec.StandsAlike w w1 →
      w1.calls = w.calls + n → P n w1 → w1.solve hull o w1.lip.T = .ok (b, w2) → Spec.StandsAlike w1 w2 → P (n + 1) w2) (n : ℕ) :
    ∃ w2, w.run hull o (Spec.standCalls w n) = .ok w2 ∧ Spec.Stands hull w2 ∧ Spec.StandsAlike w w2 ∧
      w2.calls = w.calls + n ∧ P n w2 := by
  induction n with
  | zero => exact ⟨w, rfl, h, .refl w, rfl, h0⟩
  | succ n ih =>
    obtain ⟨w1, e1, s1, a1, c1, p1⟩ := ih
    obtain ⟨b, w2, e2⟩ := Stands.solves s1 o
    obtain ⟨s2, a2, c2, -⟩ := Stands.step s1 e2
    refine ⟨w2, ?_, s2, a1.trans a2, by omega, hstep n w1 w2 b e1 s1 a1 c1 p1 e2 a2⟩
    unfold Spec.standCalls at e1 ⊢
    rw [List.replicate_succ', hrun_append, e1, ok_bind, HWalkgen.run, ← a1.T]
    change (w1.solve hull o w1.lip.T >>= _) = _
    rw [e2]
    rfl

/-! ### Only the CoP is centred -/

/-- When nothing else is weighted the only solution of the QP centres the CoP. -/
theorem Stands.centred [Archimedean K] {hull : Vec (Pt K) → Res (Polygon K)} {o : Oracle K} {w w2 : HWalkgen K} {b : Bool}
    (h : Spec.Stands hull w) (hT : 20 * EPS ≤ w.lip.T) (hc : 0 < w.weighting.copCentering)
    (hv : w.weighting.velocityTracking ≤ 0) (hj : w.weighting.jerkMinimization ≤ 0)
    (hin : w.withCop = true → ∀ q g, Spec.IsUnion w.sup ⟨w.sup.left.x.state.p, w.sup.left.y.state.p⟩
      ⟨w.sup.right.x.state.p, w.sup.right.y.state.p⟩ (Spec.midFeet w.sup) q → hull q = .ok g →
      Spec.SatisfiesConstraints g ⟨0, 0⟩) (hX : ∀ i < 2 * w.lip.N, w.X.get i = 0)
    (ho : ∀ qp it, (∃ d, Spec.IsSolution qp d) → Spec.IsSolution qp (o w.calls qp it).2)
    (hs : w.solve hull o w.lip.T = .ok (b, w2)) : ∀ i < 2 * w.lip.N, w2.X.get i = 0 := by
  obtain ⟨-, -, -, w', idx, qp, hp, hg, hal', hcalls, -, px, py, hM, hrow, hsup, hX', hT', ht, hn, hf, hpoly, hsz, hw2, -⟩ :=
    Stands.step h hs
  have hr := h.history
  obtain ⟨cop, kin, q, f1, -, f3⟩ := hum_feasible hg
  obtain ⟨c, S, J, hc0, -, -, -, hcost⟩ := C40_cost hull w w' _ qp hr hg
  have huniq := (C62_convex_partial hull w w' _ qp hr hg (by rw [hT']; exact hT) ht.le).2.2.2 (by rw [hal'.weighting]; exact hc)
  rw [hal'.N] at *
  have hX0 : ∀ i < 2 * w.lip.N, w'.X.get i = 0 := fun i hi => by rw [hX' i hi, hX i hi]
  have hfeas : Spec.Feasible qp fun _ => 0 := by
    rw [f3]
    refine ⟨fun i _ => ?_, fun hw i hi => ?_, fun _ i hi => by rw [hM] at hi; omega⟩
    · rw [abs_zero, MAXBOUND]; norm_num
    · obtain ⟨q, hq, hg⟩ := hpoly i hi _ (f1 hw i hi)
      constructor
      · have := hin (hal'.withCop ▸ hw) q _ hq hg
        unfold Spec.localCop
        beta_reduce
        rw [hX0 i (by omega), hX0 (w.lip.N + i) (by omega), add_zero]
        exact this
      · intro r _
        simp only [Spec.localCop, mul_zero, add_zero, abs_zero, MAXBOUND]
        norm_num
  have hsol : Spec.IsSolution qp fun _ => 0 := by
    refine ⟨hfeas, fun y _ => ?_⟩
    rw [hcost, hcost y]
    refine mul_le_mul_of_nonneg_left (sub_le_sub_right ?_ _) hc0.le
    unfold Spec.humCost
    rw [hal'.weighting, max_eq_right hv, max_eq_right hj, zero_div, zero_mul, zero_mul, zero_mul, zero_mul]
    refine add_le_add_right (mul_le_mul_of_nonneg_left ?_ (div_nonneg (le_max_right _ _) zero_le_two)) _
    refine sum_le_sum fun i hi => ?_
    beta_reduce
    rw [hX0 i (mem_range.1 hi), add_zero, zero_pow two_ne_zero]
    exact sq_nonneg _
  intro i hi
  rw [hw2 i (by omega), hX0 i hi, huniq _ _ (ho qp 10000 ⟨_, hsol⟩) hsol i hi, zero_add]

/-! ### The CoP is constrained -/

/-- The plan of a standing robot stays inside of the polygon `g` of both feet. -/
theorem Stands.inside [Archimedean K] {hull : Vec (Pt K) → Res (Polygon K)} {o : Oracle K} {w w2 : HWalkgen K} {b : Bool}
    {g : Polygon K} (h : Spec.Stands hull w) (hcop : w.withCop = true)
    (hin : ∀ q, Spec.IsUnion w.sup ⟨w.sup.left.x.state.p, w.sup.left.y.state.p⟩
      ⟨w.sup.right.x.state.p, w.sup.right.y.state.p⟩ (Spec.midFeet w.sup) q → hull q = .ok g)
    (hX : ∀ i < w.lip.N, Spec.SatisfiesConstraints g (Spec.localCop w.lip.N w.X.get i))
    (ho : ∀ qp it, (∃ d, Spec.Feasible qp d) → Spec.Feasible qp (o w.calls qp it).2)
    (hs : w.solve hull o w.lip.T = .ok (b, w2)) :
    ∀ i < w.lip.N, Spec.SatisfiesConstraints g (Spec.localCop w.lip.N w2.X.get i) := by
  obtain ⟨-, -, -, w', idx, qp, hp, hg, hal', hcalls, -, px, py, hM, hrow, hsup, hX', hT', ht, hn, hf, hpoly, hsz, hw2, -⟩ :=
    Stands.step h hs
  obtain ⟨cop, kin, q, f1, -, f3⟩ := hum_feasible hg
  rw [hal'.N] at *
  have hw : w'.withCop = true := by rw [hal'.withCop, hcop]
  have hc : ∀ i < w.lip.N, cop i = g := fun i hi => by
    obtain ⟨q, hq, hg⟩ := hpoly i hi _ (f1 hw i hi)
    exact Except.ok.inj (hg.symm.trans (hin q hq))
  have hfeas : Spec.Feasible qp fun _ => 0 := by
    rw [f3]
    refine ⟨fun i _ => ?_, fun hw i hi => ?_, fun _ i hi => by rw [hM] at hi; omega⟩
    · rw [abs_zero, MAXBOUND]; norm_num
    · rw [hc i hi]
      constructor
      · have := hX i hi
        unfold Spec.localCop at this ⊢
        beta_reduce
        rw [hX' i (by omega), hX' (w.lip.N + i) (by omega), add_zero, add_zero]
        exact this
      · intro r _
        simp only [Spec.localCop, mul_zero, add_zero, abs_zero, MAXBOUND]
        norm_num
  intro i hi
  have := (((f3 _).1 (ho qp 10000 ⟨_, hfeas⟩)).2.1 hw i hi).1
  rw [hc i hi] at this
  unfold Spec.localCop at this ⊢
  rw [hw2 i (by omega), hw2 (w.lip.N + i) (by omega)]
  exact this

/-! ### One sample -/

theorem best_jerk {A B C D U T v s j k : K} (hD : D = A * (T ^ 2 / 2) ^ 2 + C + B * U ^ 2) (hD0 : 0 ≤ D)
    (hk : D * k = -(A * (T ^ 2 / 2) * v + B * U * s)) :
    A * (v + k * T ^ 2 / 2) ^ 2 + C * k ^ 2 + B * (s + U * k) ^ 2
      ≤ A * (v + j * T ^ 2 / 2) ^ 2 + C * j ^ 2 + B * (s + U * j) ^ 2 := by
  have e : A * (v + j * T ^ 2 / 2) ^ 2 + C * j ^ 2 + B * (s + U * j) ^ 2
      - (A * (v + k * T ^ 2 / 2) ^ 2 + C * k ^ 2 + B * (s + U * k) ^ 2) = D * (j - k) ^ 2 := by
    subst hD
    linear_combination (2 * (j - k)) * hk
  nlinarith [mul_nonneg hD0 (sq_nonneg (j - k))]

/-- The weight of the only sample. -/
theorem Stands.weight [Archimedean K] {hull : Vec (Pt K) → Res (Polygon K)} {w w' : HWalkgen K} {idx : ℕ}
    {qp : QPMatrices K} (h : Spec.Stands hull w) (hp : w.prepare hull w.lip.T = .ok (w', idx, qp)) (hN : w.lip.N = 1) :
    w'.sup.weight.get 0 0 = 1 / 20 := by
  have hE : (0 : K) < EPS := EPS_pos
  have hr := h.history
  have hT0 : EPS < w.lip.T := h.usable.grid.pos
  obtain ⟨hu, -⟩ := hprepare_keeps hr.inv hp h.planned
  obtain ⟨f, -, -, e1, e2, -, -, -, -, -, -, -, hw⟩ := Sup.updateTimeline_running hu
  obtain ⟨i, n, hn, hn1, hn2, ht⟩ := C34_calls_partial (w.sup, w.X) w.lip.T h.reach h.usable.grid 1
    (by rw [Nat.cast_one, one_mul]; exact hr.inv.T) _ _ hu
  obtain rfl : n = 1 := by omega
  have hsT : w'.sup.T = w.lip.T := by rw [e2, hr.inv.T]
  have hsN : w'.sup.N = 1 := by rw [e1, hr.inv.N, hN]
  obtain ⟨k, w1, k1, k2, k3, k4, k5, k6⟩ := Sup.sampleWeight_ok (s := w'.sup) (by omega) (by rw [hsT]; linarith)
  rw [hw] at k1
  cases k1
  rw [hsT, Nat.cast_one, one_mul] at ht
  rw [ht, hsT] at k2 k3
  have hk : k = i := by
    have h1 : (i : K) < k + 1 := by
      by_contra hc
      push Not at hc
      nlinarith
    have h1' : i < k + 1 := by exact_mod_cast h1
    rcases k3 with h | h
    · omega
    · have h2 : (k : K) < i + 1 := by
        by_contra hc
        push Not at hc
        nlinarith
      have h2' : k < i + 1 := by exact_mod_cast h2
      omega
  subst hk
  rw [k6, hsN, if_pos ⟨rfl, rfl⟩, ht, hsT, add_sub_cancel_left, div_self (by linarith)]
  norm_num

theorem sum_one (f : ℕ → K) : ∑ i ∈ range 1, f i = f 0 := by simp

/-- The next state of the CoM of a standing robot with a horizon of one sample, while the bounds of the QP and the CoP
constraint are not reached. -/
theorem Stands.best [Archimedean K] {hull : Vec (Pt K) → Res (Polygon K)} {o : Oracle K} {w w2 : HWalkgen K} {b : Bool}
    (h : Spec.Stands hull w) (he : Spec.ExactCop w) (hN : w.lip.N = 1) (hT : 20 * EPS ≤ w.lip.T)
    (hc : 0 < w.weighting.copCentering)
    (hv : 0 < w.weighting.velocityTracking → ∀ i < 2, w.velRef.get i = 0)
    (hcop : w.withCop = true → ∀ q g, Spec.IsUnion w.sup ⟨w.sup.left.x.state.p, w.sup.left.y.state.p⟩
      ⟨w.sup.right.x.state.p, w.sup.right.y.state.p⟩ (Spec.midFeet w.sup) q → hull q = .ok g →
      Spec.SatisfiesConstraints g ⟨Spec.bestCop w.weighting w.lip.T (w.lip.comHeight / GRAVITY_NORM) (Spec.comX w),
        Spec.bestCop w.weighting w.lip.T (w.lip.comHeight / GRAVITY_NORM) (Spec.comY w)⟩ ∧
      Spec.RowsFinite g ⟨Spec.bestCop w.weighting w.lip.T (w.lip.comHeight / GRAVITY_NORM) (Spec.comX w) - w.X.get 0,
        Spec.bestCop w.weighting w.lip.T (w.lip.comHeight / GRAVITY_NORM) (Spec.comY w) - w.X.get 1⟩)
    (hx : |Spec.bestCop w.weighting w.lip.T (w.lip.comHeight / GRAVITY_NORM) (Spec.comX w) - w.X.get 0| ≤ MAXBOUND)
    (hy : |Spec.bestCop w.weighting w.lip.T (w.lip.comHeight / GRAVITY_NORM) (Spec.comY w) - w.X.get 1| ≤ MAXBOUND)
    (ho : ∀ qp it, (∃ d, Spec.IsSolution qp d) → Spec.IsSolution qp (o w.calls qp it).2)
    (hs : w.solve hull o w.lip.T = .ok (b, w2)) :
    Spec.comX w2 = Spec.cubic (Spec.comX w)
      (Spec.bestJerk w.weighting w.lip.T (w.lip.comHeight / GRAVITY_NORM) (Spec.comX w)) w.lip.T ∧
    Spec.comY w2 = Spec.cubic (Spec.comY w)
      (Spec.bestJerk w.weighting w.lip.T (w.lip.comHeight / GRAVITY_NORM) (Spec.comY w)) w.lip.T ∧
    w2.X.get 0 = Spec.bestCop w.weighting w.lip.T (w.lip.comHeight / GRAVITY_NORM) (Spec.comX w) ∧
    w2.X.get 1 = Spec.bestCop w.weighting w.lip.T (w.lip.comHeight / GRAVITY_NORM) (Spec.comY w) := by
  obtain ⟨-, hal, -, w', idx, qp, hp, hg, hal', hcalls, -, px, py, hM, hrow, hsup, hX', hT', ht, hn, hf, hpoly, hsz, hw2, hcv, -⟩ :=
    Stands.step h hs
  have hr := h.history
  have hwt := Stands.weight h hp hN
  have hI := (hr.inv.prepare hp).1
  have hsh := (hr.inv.prepare hp).2.1
  obtain ⟨cx, cy, zx, zy⟩ := Stands.cop h he hs
  obtain ⟨cop, kin, q, f1, -, f3⟩ := hum_feasible hg
  obtain ⟨c, S, J, hc0, hS, hJ, -, hcost⟩ := C40_cost hull w w' _ qp hr hg
  have huniq := (C62_convex_partial hull w w' _ qp hr hg (by rw [hT']; exact hT) ht.le).2.2.2 (by rw [hal'.weighting]; exact hc)
  have hS := hS 1 hn
  rw [Int.cast_one, one_mul, hf] at hS
  have hT0 : 0 < w.lip.T := lt_of_lt_of_le (by have := EPS_pos (K := K); linarith) hT
  have hU : Spec.copStep w.lip.T (w.lip.comHeight / GRAVITY_NORM) ≠ 0 := by
    have h1 := h.usable.regular 1 le_rfl (by rw [Nat.cast_one, one_mul])
    rw [Nat.cast_one, one_mul] at h1
    have hG : (GRAVITY_NORM : K) ≠ 0 := by unfold GRAVITY_NORM; norm_num
    intro h2
    apply h1
    unfold Spec.copStep at h2
    field_simp at h2
    have := hT0.ne'
    have h3 : w.lip.T * (w.lip.T ^ 2 * GRAVITY_NORM - 6 * w.lip.comHeight) = 0 := by linear_combination h2
    rcases mul_eq_zero.1 h3 with h4 | h4
    · exact absurd h4 this
    · linarith
  set l := w.lip.comHeight / GRAVITY_NORM with hl
  set U := Spec.copStep w.lip.T l with hUd
  have hD0 : 0 < Spec.jerkCurve w.weighting w.lip.T l := by
    unfold Spec.jerkCurve
    have h1 : 0 < max w.weighting.copCentering 0 := lt_max_of_lt_left hc
    have h2 : (0 : K) ≤ max w.weighting.velocityTracking 0 := le_max_right _ _
    have h3 : (0 : K) ≤ max w.weighting.jerkMinimization 0 := le_max_right _ _
    rw [← hUd]
    positivity
  -- the jerks of a plan
  have hjerk : ∀ X : ℕ → K, Spec.freeCop w.lip.T l (Spec.comX w) + U * J X 0 = X 0 ∧
      Spec.freeCop w.lip.T l (Spec.comY w) + U * J X 1 = X 1 := by
    intro X
    obtain ⟨hXs, nb, dx, dy, Bx, By, ppx, ppy, hD⟩ := convert_data (w := { w' with X := w2.X }) hI.fresh hcv
    obtain ⟨t, ht', -⟩ := convert_ok (w := { w' with X := ⟨w2.X.size, X⟩ }) hD hsh hI.N hXs
    obtain ⟨n, p, hn', hp', hexact, -⟩ := C41_jerks_partial hull w w' _ idx qp hr hp ⟨w2.X.size, X⟩ t ht'
    obtain rfl : n = 1 := Except.ok.inj (hn'.symm.trans hn)
    obtain rfl := hsup.unique hp'
    obtain ⟨ex, ey⟩ := hexact (by
      rw [hf, hal'.N, hal'.T, hal'.height, Int.cast_one, one_mul]
      exact he) 0 (by rw [hal'.N]; omega) 0 (hrow 0 (by omega))
    simp only [Spec.motionCop, Spec.copOf, Spec.jerkTrajectory, hf, hal'.height, Int.cast_one, one_mul, Nat.add_zero, px, py,
      Spec.plannedCop, Spec.previous, if_true, hal'.N, hN, mul_zero, zero_div, sub_zero, ← hl] at ex ey
    have j0 : t.get 0 = J X 0 := hJ ⟨w2.X.size, X⟩ t ht' 0 (by rw [hal'.N]; omega)
    have j1 : t.get 1 = J X 1 := hJ ⟨w2.X.size, X⟩ t ht' 1 (by rw [hal'.N]; omega)
    rw [j0] at ex
    rw [j1] at ey
    simp only [Spec.cubic] at ex ey
    constructor
    · simp only [hUd, Spec.freeCop, Spec.copStep, Spec.comX]
      linear_combination ex
    · simp only [hUd, Spec.freeCop, Spec.copStep, Spec.comY]
      linear_combination ey
  -- the best plan
  set kx := Spec.bestJerk w.weighting w.lip.T l (Spec.comX w) with hkx
  set ky := Spec.bestJerk w.weighting w.lip.T l (Spec.comY w) with hky
  let d0 : ℕ → K := fun k => if k = 0 then Spec.bestCop w.weighting w.lip.T l (Spec.comX w) - w.X.get 0 else
    if k = 1 then Spec.bestCop w.weighting w.lip.T l (Spec.comY w) - w.X.get 1 else 0
  have hX0 : w'.X.get 0 = w.X.get 0 := hX' 0 (by omega)
  have hX1 : w'.X.get 1 = w.X.get 1 := hX' 1 (by omega)
  have hfeas : Spec.Feasible qp d0 := by
    rw [f3]
    refine ⟨fun i _ => ?_, fun hw i hi => ?_, fun _ i hi => by rw [hM] at hi; omega⟩
    · simp only [d0]
      split_ifs
      · exact hx
      · exact hy
      · rw [abs_zero, MAXBOUND]; norm_num
    · obtain rfl : i = 0 := by rw [hal'.N, hN] at hi; omega
      obtain ⟨q, hq, hgq⟩ := hpoly 0 (by omega) _ (f1 hw 0 hi)
      have := hcop (hal'.withCop ▸ hw) q _ hq hgq
      simpa only [Spec.localCop, d0, hal'.N, hN, if_true, one_ne_zero, if_false, hX0, hX1, add_sub_cancel, Nat.add_zero] using this
  have hsol : Spec.IsSolution qp d0 := by
    refine ⟨hfeas, fun y _ => ?_⟩
    rw [hcost, hcost y]
    refine mul_le_mul_of_nonneg_left (sub_le_sub_right ?_ _) hc0.le
    have hD := hjerk fun k => w'.X.get k + d0 k
    have hY := hjerk fun k => w'.X.get k + y k
    generalize (J fun k => w'.X.get k + d0 k) = j at *
    generalize (J fun k => w'.X.get k + y k) = j' at *
    have g0 : j 0 = kx := by
      have := hD.1
      simp only [d0, if_true, hX0, Spec.bestCop, ← hUd, ← hkx] at this
      exact mul_left_cancel₀ hU (by linarith)
    have g1 : j 1 = ky := by
      have := hD.2
      simp only [d0, if_true, one_ne_zero, if_false, hX1, Spec.bestCop, ← hUd, ← hky] at this
      exact mul_left_cancel₀ hU (by linarith)
    unfold Spec.humCost
    rw [hal'.N, hN, sum_one, sum_one, sum_one, sum_one]
    simp only [sum_range_succ, sum_range_zero, zero_add, mul_one, Nat.mul_one]
    rw [← hD.1, ← hD.2, ← hY.1, ← hY.2, hwt, hal'.weighting, hal'.velRef]
    simp only [Spec.jerkTrajectory, Spec.cubic, hS, px, py, Nat.add_zero, g0, g1]
    have bx := best_jerk (A := max w.weighting.velocityTracking 0 / 20) (B := max w.weighting.copCentering 0)
      (C := max w.weighting.jerkMinimization 0 / 20) (U := U) (T := w.lip.T) (v := (Spec.comX w).v + (Spec.comX w).a * w.lip.T)
      (s := Spec.freeCop w.lip.T l (Spec.comX w)) (j := j' 0) (k := kx) (D := Spec.jerkCurve w.weighting w.lip.T l) rfl hD0.le
      (by rw [hkx, Spec.bestJerk, mul_div_cancel₀ _ hD0.ne'])
    have by_ := best_jerk (A := max w.weighting.velocityTracking 0 / 20) (B := max w.weighting.copCentering 0)
      (C := max w.weighting.jerkMinimization 0 / 20) (U := U) (T := w.lip.T) (v := (Spec.comY w).v + (Spec.comY w).a * w.lip.T)
      (s := Spec.freeCop w.lip.T l (Spec.comY w)) (j := j' 1) (k := ky) (D := Spec.jerkCurve w.weighting w.lip.T l) rfl hD0.le
      (by rw [hky, Spec.bestJerk, mul_div_cancel₀ _ hD0.ne'])
    have hvz : ∀ a b c d : K, max w.weighting.velocityTracking 0 * ((a - w.velRef.get 0) ^ 2 + (b - w.velRef.get 1) ^ 2)
        = max w.weighting.velocityTracking 0 * (a ^ 2 + b ^ 2) := by
      intro a b _ _
      by_cases h0 : 0 < w.weighting.velocityTracking
      · rw [hv h0 0 (by omega), hv h0 1 (by omega), sub_zero, sub_zero]
      · rw [max_eq_right (not_lt.1 h0)]; ring
    have e1 := hvz (w.lip.x.v + w.lip.x.a * w.lip.T + kx * w.lip.T ^ 2 / 2) (w.lip.y.v + w.lip.y.a * w.lip.T + ky * w.lip.T ^ 2 / 2) 0 0
    have e2 := hvz (w.lip.x.v + w.lip.x.a * w.lip.T + j' 0 * w.lip.T ^ 2 / 2)
      (w.lip.y.v + w.lip.y.a * w.lip.T + j' 1 * w.lip.T ^ 2 / 2) 0 0
    simp only [Spec.comX, Spec.comY] at bx by_ ⊢
    linarith
  have hall : ∀ i < 2, w2.X.get i = w'.X.get i + d0 i := fun i hi => by
    rw [hw2 i (by omega), huniq _ _ (ho qp 10000 ⟨_, hsol⟩) hsol i (by rw [hal'.N]; omega)]
  have x0 : w2.X.get 0 = Spec.bestCop w.weighting w.lip.T l (Spec.comX w) := by
    rw [hall 0 (by omega), hX0]; simp [d0]
  have x1 : w2.X.get 1 = Spec.bestCop w.weighting w.lip.T l (Spec.comY w) := by
    rw [hall 1 (by omega), hX1]; simp [d0]
  obtain ⟨jx, cx⟩ := cx
  obtain ⟨jy, cy⟩ := cy
  refine ⟨?_, ?_, x0, x1⟩
  · rw [cx] at zx ⊢
    rw [x0] at zx
    simp only [Spec.cubic, Spec.bestCop, Spec.freeCop, ← hUd, ← hkx, ← hl] at zx
    have : U * jx = U * kx := by
      rw [hUd, Spec.copStep] at zx ⊢
      linear_combination zx
    rw [mul_left_cancel₀ hU this]
  · rw [cy] at zy ⊢
    rw [hN, x1] at zy
    simp only [Spec.cubic, Spec.bestCop, Spec.freeCop, ← hUd, ← hky, ← hl] at zy
    have : U * jy = U * ky := by
      rw [hUd, Spec.copStep] at zy ⊢
      linear_combination zy
    rw [mul_left_cancel₀ hU this]

end MPC
