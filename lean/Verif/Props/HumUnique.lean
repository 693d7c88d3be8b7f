import Verif.Lemmas.HumUnique
import Verif.Lemmas.QPExist
import Verif.Spec.HumUnique
import Verif.Spec.Recede
import Verif.Props.Config

/-!
# Property C79: the whole plan of the humanoid generator is determined
-/

set_option linter.unusedSectionVars false

namespace MPC

open Finset

section
variable {K : Type} [Field K] [LinearOrder K] [IsStrictOrderedRing K] [FloorRing K]

/-- **C79, footsteps.** On a grid of times, every footstep of the preview supports a sample and the current phase is not
over when the QP is stated. -/
theorem C79_steps [Archimedean K] (hull : Vec (Pt K) → Res (Polygon K)) (w w' : HWalkgen K) (fb : K) (qp : QPMatrices K)
    (hR : Reach (· = fb) CanStop (w.sup, w.X)) (hg : Grid fb w.sup) (hG : HumGives hull w fb w' qp) :
    Spec.StepsUsed w'.sup := by
  obtain ⟨idx, nv, nc, hp, hd⟩ := hG
  obtain ⟨X, hX, -⟩ := hprepare_timeline hp
  obtain ⟨h1, h2⟩ := steps_support hR hg hX
  exact ⟨EPS_pos.trans_le h2, h1⟩

/-- **C79, uniqueness.** In every reachable state, if every previewed footstep supports a sample, the QP given to the
solver has at most one solution: CoP and footsteps are determined. -/
theorem C79_unique (hull : Vec (Pt K) → Res (Polygon K)) (w w' : HWalkgen K) (fb : K) (qp : QPMatrices K)
    (hr : HumHistory hull w) (hG : HumGives hull w fb w' qp) (hu : Spec.Usual w') (hs : Spec.StepsUsed w'.sup)
    (x y : ℕ → K) (hx : Spec.IsSolution qp x) (hy : Spec.IsSolution qp y) :
    ∀ i < 2 * w'.lip.N + 2 * w'.sup.M, x i = y i := by
  obtain ⟨ht, hs⟩ := hs
  have hc := C62_convex_partial hull w w' fb qp hr hG
  obtain ⟨idx, nv, nc, hp, hd⟩ := hG
  obtain ⟨hI, hsh, -, -⟩ := hr.inv.prepare hp
  have hT : 20 * EPS < w'.sup.T := by rw [hI.T]; exact hu.long
  obtain ⟨-, -, hnn, hcop⟩ := hc hT.le ht.le
  have hcop := hcop hu.centering x y hx hy
  have hzero : bil qp.Q (fun i => x i - y i) (fun i => x i - y i) = 0 := by
    have h1 := solution_unique qp x y hx hy
    have h2 := hnn fun i => x i - y i
    unfold quadForm at h1
    rw [quad_eq_dot] at h1 h2
    exact le_antisymm h1 h2
  have hk := hprepare_kernel hr hp (hprepare_weight_pos hr hp hT ht) hu.short hu.height hu.motion hzero
  have step : ∀ (o f : ℕ), o + w'.lip.N ≤ 2 * w'.lip.N →
      (∀ k < w'.lip.N, planT w'.sup.M w'.sup.V o f (fun i => x i - y i) k = 0) →
      ∀ c < w'.sup.M, x (f + c) = y (f + c) := by
    intro o f ho hz c hc
    obtain ⟨r, hr, -, h2, h3⟩ := hs c hc
    rw [hI.N] at hr
    have e := hz r hr
    unfold planT at e
    dsimp only at e
    rw [hcop (o + r) (by omega), sub_self, zero_add, sum_eq_single c] at e
    · rw [h3 c (by rw [hsh.Vc]; exact hc), if_pos rfl, one_mul] at e
      exact sub_eq_zero.1 e
    · intro c' hc' hne
      rw [h3 c' (by rw [hsh.Vc]; exact mem_range.1 hc'), if_neg (by omega), zero_mul]
    · intro hn
      exact absurd (mem_range.2 hc) hn
  intro i hi
  by_cases h1 : i < 2 * w'.lip.N
  · exact hcop i h1
  by_cases h2 : i < 2 * w'.lip.N + w'.sup.M
  · obtain ⟨c, rfl⟩ : ∃ c, i = 2 * w'.lip.N + c := ⟨i - 2 * w'.lip.N, by omega⟩
    exact step 0 (2 * w'.lip.N) (by omega) (fun k hk' => (hk k hk').1) c (by omega)
  · obtain ⟨c, rfl⟩ : ∃ c, i = 2 * w'.lip.N + w'.sup.M + c := ⟨i - (2 * w'.lip.N + w'.sup.M), by omega⟩
    exact step w'.lip.N (2 * w'.lip.N + w'.sup.M) (by omega) (fun k hk' => (hk k hk').2) c (by omega)

/-- `solve` only reads the answer of the solver. -/
theorem hsolve_congr {hull : Vec (Pt K) → Res (Polygon K)} {o o' : Oracle K} {w w' : HWalkgen K} {fb : K} {idx : ℕ}
    {qp : QPMatrices K} (hp : w.prepare hull fb = .ok (w', idx, qp))
    (h : ∀ i < qp.p.size, (o w'.calls qp 10000).2 i = (o' w'.calls qp 10000).2 i) :
    w.solve hull o fb = w.solve hull o' fb := by
  unfold HWalkgen.solve
  rw [hp, ok_bind, ok_bind]
  dsimp only
  cases hl : listAt w'.solvers idx with
  | error e => rfl
  | ok sv =>
    rw [ok_bind, ok_bind]
    have : solverSolve o { sv with calls := w'.calls } qp 10000 ⟨2 * w'.lip.N + 2 * w'.sup.M, w'.dX.get⟩ false false
        = solverSolve o' { sv with calls := w'.calls } qp 10000 ⟨2 * w'.lip.N + 2 * w'.sup.M, w'.dX.get⟩ false false := by
      unfold solverSolve
      by_cases hd : qp.DimensionsAreConsistent sv.nbVar sv.nbCtr
      · have hn : qp.p.size = sv.nbVar := by
          unfold QPMatrices.DimensionsAreConsistent at hd
          omega
        have e : ∀ i, (if i < sv.nbVar then (o w'.calls qp 10000).2 i else w'.dX.get i)
            = if i < sv.nbVar then (o' w'.calls qp 10000).2 i else w'.dX.get i := by
          intro i
          split
          · exact h i (by omega)
          · rfl
        simp [usedQP, e]
      · simp [require, hd]
    rw [this]

theorem hrun_append (hull : Vec (Pt K) → Res (Polygon K)) (o : Oracle K) (cs cs' : List (HCall K)) (w : HWalkgen K) :
    w.run hull o (cs ++ cs') = w.run hull o cs >>= fun w => w.run hull o cs' := by
  induction cs generalizing w with
  | nil => rfl
  | cons c cs ih =>
    rw [List.cons_append, HWalkgen.run, HWalkgen.run]
    cases h : w.step hull o c with
    | error e => rfl
    | ok r =>
      obtain ⟨b, w1⟩ := r
      rw [ok_bind, ok_bind]
      exact ih w1

end

/-- The call has the same effect with both solvers. -/
theorem hum_step_eq {hull : Vec (Pt ℝ) → Res (Polygon ℝ)} {o o' : Oracle ℝ} (ho : Spec.FindsSolution o)
    (ho' : Spec.FindsSolution o') {w : HWalkgen ℝ} (hr : HumHistory hull w) (c : HCall ℝ)
    (hs : ∀ fb, c = .solve fb → ∀ w' qp, HumGives hull w fb w' qp →
      Spec.Usual w' ∧ Spec.StepsUsed w'.sup ∧ ∃ d, Spec.Feasible qp d) {r : Bool × HWalkgen ℝ}
    (e : w.step hull o c = .ok r) : w.step hull o' c = .ok r := by
  cases c with
  | solve fb =>
    obtain ⟨b, w2⟩ := r
    change w.solve hull o fb = .ok (b, w2) at e
    obtain ⟨w', idx, qp, t, lip, hp, ⟨nv, nc, hd⟩, hz, hz', -⟩ := hsolve_ok e
    obtain ⟨h1, h2, h3⟩ := hs fb rfl w' qp ⟨idx, nv, nc, hp, hd⟩
    have hex := solution_exists hd h3
    have hu := C79_unique hull w w' fb qp hr ⟨idx, nv, nc, hp, hd⟩ h1 h2 _ _ (ho w'.calls qp 10000 hex)
      (ho' w'.calls qp 10000 hex)
    have hn : qp.p.size = 2 * w'.lip.N + 2 * w'.sup.M := by
      rw [← hprepare_rows hp h1.centering]
      unfold QPMatrices.DimensionsAreConsistent at hd
      omega
    change w.solve hull o' fb = .ok (b, w2)
    rw [← hsolve_congr hp fun i hi => hu i (hn ▸ hi)]
    exact e
  | setComState a v => cases a <;> exact e
  | _ => exact e

/-- **C79, independence.** Two solvers that find solutions lead the humanoid generator to the same state after any calls,
as long as the objectives that determine the plan are in use and the QPs have feasible points. -/
theorem C79_independent (hull : Vec (Pt ℝ) → Res (Polygon ℝ)) (o o' : Oracle ℝ) (ho : Spec.FindsSolution o)
    (ho' : Spec.FindsSolution o') (cs : List (HCall ℝ)) (w w₂ : HWalkgen ℝ) (hr : HumHistory hull w)
    (hs : ∀ cs₁ fb cs₂ w₁ w' qp, cs = cs₁ ++ .solve fb :: cs₂ → w.run hull o cs₁ = .ok w₁ → HumGives hull w₁ fb w' qp →
      Spec.Usual w' ∧ Spec.StepsUsed w'.sup ∧ ∃ d, Spec.Feasible qp d) (h : w.run hull o cs = .ok w₂) :
    w.run hull o' cs = .ok w₂ := by
  induction cs using List.reverseRecOn generalizing w₂ with
  | nil => exact h
  | append_singleton cs c ih =>
    rw [hrun_append] at h ⊢
    obtain ⟨w₁, h1, h⟩ := bind_eq_ok.1 h
    rw [ih w₁ (fun cs₁ fb cs₂ w₁ w' qp hc => hs cs₁ fb (cs₂ ++ [c]) w₁ w' qp (by simp [hc])) h1, ok_bind]
    rw [HWalkgen.run] at h ⊢
    obtain ⟨r, h2, h⟩ := bind_eq_ok.1 h
    rw [hum_step_eq ho ho' (hr.run h1) c (fun fb hc w' qp hg => hs cs fb [] w₁ w' qp (by rw [hc]) h1 hg) h2, ok_bind]
    exact h

theorem Spec.Usual.congr {K : Type} [Field K] [LinearOrder K] {w w' : HWalkgen K} (h : Spec.Usual w)
    (e : w'.lip.T = w.lip.T ∧ w'.lip.comHeight = w.lip.comHeight ∧ w'.weighting = w.weighting) : Spec.Usual w' := by
  obtain ⟨e1, e2, e3⟩ := e
  exact ⟨e1 ▸ h.long, e1 ▸ h.short, e2 ▸ h.height, e3 ▸ h.centering, e3 ▸ h.motion⟩

/-- **C79, walks.** On a grid of times, two solvers that find solutions make the same walk, as long as the QPs have
feasible points. -/
theorem C79_walk (hull : Vec (Pt ℝ) → Res (Polygon ℝ)) (o o' : Oracle ℝ) (ho : Spec.FindsSolution o)
    (ho' : Spec.FindsSolution o') (fb : ℝ) (w w₂ : HWalkgen ℝ) (hr : HumHistory hull w) (h0 : Ready (w.sup, w.X))
    (hg : Grid fb w.sup) (hu : Spec.Usual w)
    (hf : ∀ w₁ w' qp, HumWalks hull o fb w w₁ → HumGives hull w₁ fb w' qp → ∃ d, Spec.Feasible qp d)
    (h : HumWalks hull o fb w w₂) : HumWalks hull o' fb w w₂ := by
  have hfb : 0 < fb := (EPS_pos (K := ℝ)).trans hg.pos
  have key : HumHistory hull w₂ ∧ Reach (· = fb) CanStop (w₂.sup, w₂.X) ∧ Grid fb w₂.sup ∧ Spec.Usual w₂ ∧
      HumWalks hull o' fb w w₂ := by
    induction h with
    | refl => exact ⟨hr, .start h0, hg, hu, .refl⟩
    | @solve w₁ w₂ b hw₁ e ih =>
      obtain ⟨hr', hR, hg', hu', ih⟩ := ih
      have hcyc := C64_cycle hull o w₁ w₂ fb b hr' e
      obtain ⟨f, mv, R, hI⟩ := hR.ginv hfb.le hg'
      obtain ⟨c1, c2, c3, c4, -⟩ := hcyc.params hI.hist
      obtain ⟨p1, p2, p3, -⟩ := solve_params hr'.inv e
      refine ⟨hr'.call e, .cycle hR rfl hcyc, hg'.congr c1 c2 c3 c4, hu'.congr ⟨p1, p2, p3⟩,
        .solve ih (hum_step_eq ho ho' hr' (.solve fb) (fun fb' hc w' qp hG => ?_) e)⟩
      obtain rfl : fb = fb' := HCall.solve.inj hc
      refine ⟨?_, C79_steps hull w₁ w' fb qp hR hg' hG, hf w₁ w' qp hw₁ hG⟩
      obtain ⟨idx, nv, nc, hp, -⟩ := hG
      obtain ⟨q1, q2, q3, -⟩ := prepare_params hr'.inv hp
      exact hu'.congr ⟨q1, q2, q3⟩
    | @setMove w₁ w₂ m b _ hm e ih =>
      obtain ⟨hr', hR, hg', hu', ih⟩ := ih
      refine ⟨hr'.call e, ?_⟩
      have e' := e
      unfold HWalkgen.step at e
      obtain ⟨ds, -, e⟩ := bind_eq_ok.1 e
      obtain ⟨-, rfl⟩ := Prod.mk.inj (Except.ok.inj e)
      exact ⟨.setMove hR hm, hg'.congr rfl rfl rfl rfl, hu'.congr ⟨rfl, rfl, rfl⟩, .setMove ih hm e'⟩
    | @setVelRef w₁ w₂ v b _ e ih =>
      obtain ⟨hr', hR, hg', hu', ih⟩ := ih
      refine ⟨hr'.call e, ?_⟩
      have e' := e
      unfold HWalkgen.step at e
      obtain ⟨_, hv, e⟩ := bind_eq_ok.1 e
      obtain ⟨-, rfl⟩ := Prod.mk.inj (Except.ok.inj e)
      exact ⟨hR, hg', hu'.congr ⟨rfl, rfl, rfl⟩, .setVelRef ih e'⟩
    | @setComX w₁ w₂ v b _ e ih =>
      obtain ⟨hr', hR, hg', hu', ih⟩ := ih
      refine ⟨hr'.call e, ?_⟩
      have e' := e
      unfold HWalkgen.step at e
      obtain ⟨l, hl, e⟩ := bind_eq_ok.1 e
      obtain ⟨-, rfl⟩ := Prod.mk.inj (Except.ok.inj e)
      obtain ⟨_, -, hl⟩ := bind_eq_ok.1 hl
      obtain rfl := Except.ok.inj hl
      exact ⟨hR, hg', hu'.congr ⟨rfl, rfl, rfl⟩, .setComX ih e'⟩
    | @setComY w₁ w₂ v b _ e ih =>
      obtain ⟨hr', hR, hg', hu', ih⟩ := ih
      refine ⟨hr'.call e, ?_⟩
      have e' := e
      unfold HWalkgen.step at e
      obtain ⟨l, hl, e⟩ := bind_eq_ok.1 e
      obtain ⟨-, rfl⟩ := Prod.mk.inj (Except.ok.inj e)
      obtain ⟨_, -, hl⟩ := bind_eq_ok.1 hl
      obtain rfl := Except.ok.inj hl
      exact ⟨hR, hg', hu'.congr ⟨rfl, rfl, rfl⟩, .setComY ih e'⟩
  exact key.2.2.2.2

theorem walks_frame {K : Type} [Field K] [LinearOrder K] [IsStrictOrderedRing K] [FloorRing K]
    {hull : Vec (Pt K) → Res (Polygon K)} {o : Oracle K} {fb : K} {w w' : HWalkgen K} (hr : HumHistory hull w)
    (h : HumWalks hull o fb w w') : HumHistory hull w' ∧ HumFrame w w' := by
  induction h with
  | refl => exact ⟨hr, .refl w⟩
  | solve _ e ih => exact ⟨ih.1.call e, ih.2.trans (HWalkgen.solve_frame ih.1.inv e)⟩
  | setMove _ _ e ih => exact ⟨ih.1.call e, ih.2.trans (HWalkgen.step_frame ih.1.inv (by trivial) e)⟩
  | setVelRef _ e ih => exact ⟨ih.1.call e, ih.2.trans (HWalkgen.step_frame ih.1.inv (by trivial) e)⟩
  | setComX _ e ih => exact ⟨ih.1.call e, ih.2.trans (HWalkgen.step_frame ih.1.inv (by trivial) e)⟩
  | setComY _ e ih => exact ⟨ih.1.call e, ih.2.trans (HWalkgen.step_frame ih.1.inv (by trivial) e)⟩

/-- **C79, walks without constraints.** On a grid of times and with the constraints off, the walks that are possible are
the same for all solvers that find solutions. -/
theorem C79_walk_free (hull : Vec (Pt ℝ) → Res (Polygon ℝ)) (o o' : Oracle ℝ) (ho : Spec.FindsSolution o)
    (ho' : Spec.FindsSolution o') (fb : ℝ) (w w₂ : HWalkgen ℝ) (hr : HumHistory hull w) (h0 : Ready (w.sup, w.X))
    (hg : Grid fb w.sup) (hu : Spec.Usual w) (hc : w.withCop = false) (hk : w.withFeet = false) :
    HumWalks hull o fb w w₂ ↔ HumWalks hull o' fb w w₂ := by
  have key : ∀ o : Oracle ℝ, ∀ w₁ w' qp, HumWalks hull o fb w w₁ → HumGives hull w₁ fb w' qp →
      ∃ d, Spec.Feasible qp d := by
    intro o w₁ w' qp hw hG
    obtain ⟨hr', hf⟩ := walks_frame hr hw
    obtain ⟨cop, kin, p, -, -, h⟩ := hum_feasible hG
    obtain ⟨idx, nv, nc, hp, -⟩ := hG
    obtain ⟨-, -, -, e1, e2⟩ := prepare_params hr'.inv hp
    have e1 : w'.withCop = false := by rw [e1, hf.withCop, hc]
    have e2 : w'.withFeet = false := by rw [e2, hf.withFeet, hk]
    refine ⟨fun _ => 0, (h _).2 ⟨fun i _ => ?_, fun h => ?_, fun h => ?_⟩⟩
    · rw [abs_zero]
      norm_num [MAXBOUND]
    · rw [e1] at h; cases h
    · rw [e2] at h; cases h
  exact ⟨C79_walk hull o o' ho ho' fb w w₂ hr h0 hg hu (key o),
    C79_walk hull o' o ho' ho fb w w₂ hr h0 hg hu (key o')⟩

section
variable {K : Type} [Field K] [LinearOrder K] [IsStrictOrderedRing K] [FloorRing K]

/-- **C79, CoP centering is needed.** Without it a footstep may be moved in one direction and the CoP under the foot in
the other at no cost. -/
theorem C79_centering_needed (hull : Vec (Pt K) → Res (Polygon K)) (w w' : HWalkgen K) (fb : K) (qp : QPMatrices K)
    (hr : HumHistory hull w) (hG : HumGives hull w fb w' qp) (hc : w'.weighting.copCentering ≤ 0) (c : ℕ)
    (hM : c < w'.sup.M) (t : K) (x y : ℕ → K) (h1 : y (2 * w'.lip.N + c) = x (2 * w'.lip.N + c) + t)
    (h2 : ∀ i < w'.lip.N, y i = x i - w'.sup.V.get i c * t)
    (h3 : ∀ i, w'.lip.N ≤ i → i ≠ 2 * w'.lip.N + c → y i = x i) : Spec.cost qp y = Spec.cost qp x := by
  obtain ⟨idx, nv, nc, hp, -⟩ := hG
  obtain ⟨k, S, J, hJ, hcost⟩ := hprepare_cost hr hp
  rw [hcost, hcost]
  congr 2
  by_cases hw : 0 < w'.weighting.velocityTracking ∨ 0 < w'.weighting.jerkMinimization
  · obtain ⟨nb, dx, dy, Bx, By, px, py, hD, rfl⟩ := hJ hw
    have e : humJerk w'.lip w'.sup dx dy Bx By px py (fun k => w'.X.get k + y k)
        = humJerk w'.lip w'.sup dx dy Bx By px py (fun k => w'.X.get k + x k) := by
      funext i
      refine humJerk_congr hD (fun k hk => ?_) (fun k hk => ?_) i
      · rw [planT_add, planT_add]
        congr 1
        unfold planT
        rw [zero_add, h2 k hk]
        have : ∀ d ∈ range w'.sup.M, w'.sup.V.get k d * y (2 * w'.lip.N + d)
            = w'.sup.V.get k d * x (2 * w'.lip.N + d) + if d = c then w'.sup.V.get k c * t else 0 := by
          intro d hd
          by_cases hdc : d = c
          · rw [if_pos hdc, hdc, h1]; ring
          · rw [if_neg hdc, h3 _ (by omega) (by omega), add_zero]
        rw [sum_congr rfl this, sum_add_distrib, sum_ite_eq' (range w'.sup.M) c, if_pos (mem_range.2 hM)]
        ring
      · rw [planT_add, planT_add]
        congr 1
        unfold planT
        rw [h3 _ (by omega) (by omega)]
        congr 1
        exact sum_congr rfl fun d _ => by rw [h3 _ (by omega) (by omega)]
    rw [e]
    unfold Spec.humCost
    rw [max_eq_right hc]
    ring
  · obtain ⟨a1, a2⟩ := not_or.1 hw
    unfold Spec.humCost
    rw [max_eq_right hc, max_eq_right (not_lt.1 a1), max_eq_right (not_lt.1 a2)]
    ring

/-- **C79, an objective on the motion is needed.** If neither velocities nor jerks count, the cost does not depend on
the footsteps. -/
theorem C79_motion_needed (hull : Vec (Pt K) → Res (Polygon K)) (w w' : HWalkgen K) (fb : K) (qp : QPMatrices K)
    (hr : HumHistory hull w) (hG : HumGives hull w fb w' qp) (hv : w'.weighting.velocityTracking ≤ 0)
    (hj : w'.weighting.jerkMinimization ≤ 0) (x y : ℕ → K) (h : ∀ i < 2 * w'.lip.N, y i = x i) :
    Spec.cost qp y = Spec.cost qp x := by
  obtain ⟨idx, nv, nc, hp, -⟩ := hG
  obtain ⟨k, S, J, -, hcost⟩ := hprepare_cost hr hp
  rw [hcost, hcost]
  congr 2
  unfold Spec.humCost
  have e : ∑ i ∈ range (2 * w'.lip.N), (w'.X.get i + y i) ^ 2 = ∑ i ∈ range (2 * w'.lip.N), (w'.X.get i + x i) ^ 2 :=
    sum_congr rfl fun i hi => by rw [h i (mem_range.1 hi)]
  rw [max_eq_right hv, max_eq_right hj, e]
  ring

end

/-! ### Examples -/

set_option maxRecDepth 100000 in
theorem unique_checks : okAnd (fun r => decide (r.1.lip.T = 1 ∧ r.1.lip.comHeight = 1 ∧
      0 < r.1.weighting.copCentering ∧ 0 < r.1.weighting.velocityTracking ∧ r.2.2.DimensionsAreConsistent 10 0) &&
      decide (0 < r.1.sup.ttnp ∧ r.1.sup.M = 2 ∧ r.1.sup.N = 3 ∧ r.1.sup.V.cols = 2 ∧ r.1.sup.V0.get 1 0 = 0 ∧
        r.1.sup.V0.get 2 0 = 0) &&
      decide (r.1.sup.V.get 1 0 = 1 ∧ r.1.sup.V.get 1 1 = 0 ∧ r.1.sup.V.get 2 0 = 0 ∧ r.1.sup.V.get 2 1 = 1))
    (do
      let w ← HWalkgen.make >>= fun w => w.run (fun _ => .ok demoRect) oneOracle demoCostCalls
      w.prepare (fun _ => .ok demoRect) 1) = true := by
  decide +kernel

/-- The hypotheses of `C79_unique` are met with three samples and two footsteps. -/
example : ∃ w w' qp, HumReaches (fun _ => .ok demoRect) oneOracle demoCostCalls w ∧
    HumGives (fun _ => .ok demoRect) w 1 w' qp ∧ Spec.Usual w' ∧ Spec.StepsUsed w'.sup ∧ w'.sup.M = 2 := by
  obtain ⟨⟨w', idx, qp⟩, h, hc⟩ := okAnd_true unique_checks
  obtain ⟨w, hw, hp⟩ := bind_eq_ok.1 h
  obtain ⟨w0, h0, hw⟩ := bind_eq_ok.1 hw
  simp only [Bool.and_eq_true, decide_eq_true_eq] at hc
  obtain ⟨⟨⟨c1, c2, c3, c4, c5⟩, d1, d2, d3, d4, d5, d6⟩, e1, e2, e3, e4⟩ := hc
  refine ⟨w, w', qp, ⟨w0, h0, hw⟩, ⟨idx, 10, 0, hp, c5⟩, ⟨?_, ?_, ?_, c3, .inl c4⟩, ⟨d1, fun c hc => ?_⟩, d2⟩
  · rw [c1]; norm_num [EPS]
  · rw [c1]; norm_num
  · rw [c2]; norm_num
  · rw [d2] at hc
    refine ⟨c + 1, by omega, by omega, ?_, fun d hd => ?_⟩
    · interval_cases c
      · exact d5
      · exact d6
    · rw [d4] at hd
      interval_cases c <;> interval_cases d
      · exact e1
      · exact e2
      · exact e3
      · exact e4

/-- A foot with one vertex. -/
noncomputable def freeFoot : Polygon ℝ := Polygon.start ⟨1, fun _ => ⟨0, 0⟩⟩

/-- A user of three samples of one second, without constraints. -/
noncomputable def freeCalls : List (HCall ℝ) :=
  [.setInitialDoubleSupportLength 1, .setKin true freeFoot, .setKin false freeFoot, .setNbSamples 3, .setStepPeriod 2,
    .setWeightings ⟨1, 1, 1 / 100⟩, .setVelRef (Vec.const 6 1)]

theorem exists_fit {w : HWalkgen ℝ} (h : w.sup.N = w.lip.N) : ∃ sv, SolversFit { w with solvers := sv } := by
  refine ⟨HWalkgen.table w.sup.N w.maxCtr fun i j => SolverState.make (2 * w.lip.N + 2 * i) j, fun M hM c hc => ?_⟩
  have hM : M ≤ w.lip.N := hM
  have hc : c ≤ w.maxCtr := hc
  have hlt := index_lt hM hc
  refine ⟨SolverState.make (2 * w.lip.N + 2 * M) c, ?_, rfl, rfl⟩
  have e1 : (M * (w.maxCtr + 1) + c) / (w.maxCtr + 1) = M := by
    rw [Nat.mul_comm, Nat.mul_add_div (by omega), Nat.div_eq_of_lt (by omega), Nat.add_zero]
  have e2 : (M * (w.maxCtr + 1) + c) % (w.maxCtr + 1) = c := by
    rw [Nat.mul_comm, Nat.mul_add_mod, Nat.mod_eq_of_lt (by omega)]
  simp only [HWalkgen.table, h]
  rw [List.getElem?_map, List.getElem?_range hlt]
  simp only [Option.map_some, e1, e2]

/-- The hypotheses of `C79_walk_free` are met by a generator that may walk for ever, solvers of the right sizes
being given. -/
example (o : Oracle ℝ) : ∃ w, HumHistory (fun _ => .ok freeFoot) w ∧ Ready (w.sup, w.X) ∧ Grid (1 / 2) w.sup ∧
    Spec.Usual w ∧ w.withCop = false ∧ w.withFeet = false ∧ w.lip.N = 3 ∧
    ∀ w', HumWalks (fun _ => .ok freeFoot) o (1 / 2) w w' →
      (∃ b w'', w'.step (fun _ => .ok freeFoot) o (.solve (1 / 2)) = .ok (b, w'')) ∧
      ∀ m, ∃ w'', w'.step (fun _ => .ok freeFoot) o (.setMove m) = .ok (true, w'') := by
  have ha : Spec.HumSettings.AcceptsAll .default freeCalls := by
    refine ⟨.inr ?_, trivial, trivial, ?_, ⟨?_, ?_⟩, ⟨?_, ?_, ?_⟩, ?_, trivial⟩
    · norm_num [EPS]
    · show 0 < 3; omega
    · norm_num
    · show (1 : ℝ) < 2 + EPS; norm_num [EPS]
    · exact le_refl (0 : ℝ)
    · exact le_refl (0 : ℝ)
    · exact le_refl (0 : ℝ)
    · show 6 = 2 * 3; rfl
  have hc := AcceptsAll_setting ha
  obtain ⟨w, hr⟩ := (C72_runs (fun _ => .ok freeFoot) o freeCalls hc).2 ha
  have hH := C72_settings _ o _ w hr hc
  have h1 : (Spec.humSettingsOf freeCalls).period = 1 := rfl
  have h2 : (Spec.humSettingsOf freeCalls).stepPeriod = 2 := rfl
  have h3 : (Spec.humSettingsOf freeCalls).dsPeriod = 1 := rfl
  have h4 : (Spec.humSettingsOf freeCalls).nbSamples = 3 := rfl
  have h5 : (Spec.humSettingsOf freeCalls).height = 1 := rfl
  have hW : (Spec.humSettingsOf freeCalls).Walkable (1 / 2) := by
    refine ⟨by norm_num [EPS], ⟨2, by omega, by rw [h1]; norm_num⟩, ⟨4, by omega, by rw [h2]; norm_num⟩,
      ⟨2, by omega, by rw [h3]; norm_num⟩, by rw [h1, h2, h4]; norm_num, .inr ?_, fun _ => rfl, ?_,
      ⟨Nat.one_pos, Nat.one_pos⟩, (fun h => by cases h), (fun h => by cases h)⟩
    · rw [h1]; norm_num [EPS, abs_of_neg]
    · rw [h1, h5]
      intro c hc1 hc2
      have h2 : (c : ℝ) ≤ 2 := by linarith
      have h3 : c ≤ 2 := by exact_mod_cast h2
      interval_cases c <;> norm_num [GRAVITY_NORM]
  obtain ⟨sv, hsv⟩ := exists_fit (hr.inv.N)
  refine ⟨{ w with solvers := sv }, .solvers _ hr.history, ?_, ?_, ⟨?_, ?_, ?_, ?_, .inl ?_⟩, hH.withCop, hH.withFeet,
    hH.lipN, fun w' hw => C72_walk_partial _ o [.setInitialDoubleSupportLength 1, .setKin true freeFoot, .setKin false freeFoot]
      [.setStepPeriod 2, .setWeightings ⟨1, 1, 1 / 100⟩, .setVelRef (Vec.const 6 1)] (.setNbSamples 3) w w' _ _ hr hc trivial
      (fun d hd => ?_) hW (fun h => by cases h) hsv hw⟩
  · refine (C72_ready _ o _ w hr hc).2 ⟨?_, ?_, ?_, hW.kin⟩
    · rw [h1]; norm_num [EPS]
    · rw [h2]; norm_num [EPS]
    · rw [h3]; norm_num [EPS]
  · refine ⟨hW.pos, ?_, ?_, ?_, ?_⟩
    · show ∃ n : ℕ, 0 < n ∧ w.sup.T = _
      rw [hH.supT]; exact hW.period
    · show ∃ n : ℕ, 0 < n ∧ w.sup.stepPeriod = _
      rw [hH.stepPeriod]; exact hW.stepPeriod
    · show ∃ n : ℕ, 0 < n ∧ w.sup.dsPeriod = _
      rw [hH.dsPeriod]; exact hW.dsPeriod
    · show w.sup.stepPeriod ≤ w.sup.N * w.sup.T
      rw [hH.stepPeriod, hH.supN, hH.supT]; exact hW.horizon
  · show 20 * EPS < w.lip.T
    rw [hH.lipT, h1]; norm_num [EPS]
  · show w.lip.T ≤ 10
    rw [hH.lipT, h1]; norm_num
  · show |w.lip.comHeight| ≤ 1000
    rw [hH.height, h5]; norm_num
  · show 0 < w.weighting.copCentering
    rw [hH.weighting]; exact one_pos
  · show 0 < w.weighting.velocityTracking
    rw [hH.weighting]; exact one_pos
  · simp only [List.mem_cons, List.not_mem_nil, or_false] at hd
    rcases hd with rfl | rfl | rfl <;> exact id

end MPC
