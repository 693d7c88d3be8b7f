import Verif.Lemmas.HumShift

/-! # `solve` on a moved generator -/

set_option linter.unusedSectionVars false

namespace MPC

open Finset Spec

variable {K : Type} [Field K] [LinearOrder K] [IsStrictOrderedRing K] [FloorRing K] {a b : K}

/-! ### Lines 319-356 -/

theorem Lip.refresh_state {l l1 : Lip K} (x y : State3 K) (e : l.refresh = .ok l1) :
    Lip.refresh { l with x := x, y := y } = .ok { l1 with x := x, y := y } := by
  unfold Lip.refresh at e ⊢
  dsimp only
  cases ha : l.auto
  · rw [ha] at e
    simp only [Bool.false_eq_true, if_false] at e ⊢
    obtain rfl := Except.ok.inj e
    rw [ha]
    rfl
  rw [ha, if_pos rfl] at e
  rw [if_pos rfl]
  unfold Lip.computeDynamics at e ⊢
  dsimp only at e ⊢
  by_cases h0 : l.fb = 0
  · rw [if_pos h0] at e; exact absurd e (by simp)
  rw [if_neg h0] at e ⊢
  by_cases h1 : truncInt ((l.T + EPS) / l.fb) < 0
  · rw [if_pos h1] at e; exact absurd e (by simp)
  rw [if_neg h1] at e ⊢
  unfold Lip.computeCopX Lip.computeCopY Lip.computeCom at e ⊢
  dsimp only at e ⊢
  obtain ⟨l2, e2, e⟩ := bind_eq_ok.1 e
  obtain ⟨v2, f2, e2⟩ := bind_eq_ok.1 e2
  obtain rfl := Except.ok.inj e2
  obtain ⟨l3, e3, e⟩ := bind_eq_ok.1 e
  obtain ⟨v3, f3, e3⟩ := bind_eq_ok.1 e3
  obtain rfl := Except.ok.inj e3
  obtain ⟨v4, f4, e⟩ := bind_eq_ok.1 e
  obtain ⟨v5, f5, e⟩ := bind_eq_ok.1 e
  obtain ⟨v6, f6, e⟩ := bind_eq_ok.1 e
  obtain ⟨_, f7, e⟩ := bind_eq_ok.1 e
  obtain rfl := Except.ok.inj e
  dsimp only at f2 f3 f4 f5 f6 f7
  rw [f2]
  simp only [ok_bind, pure_bind]
  rw [f3]
  simp only [ok_bind, pure_bind]
  rw [f4]
  simp only [ok_bind, pure_bind]
  rw [f5]
  simp only [ok_bind, pure_bind]
  rw [f6]
  simp only [ok_bind, pure_bind]
  rw [f7, ha]
  rfl

/-- The LIP model moved. -/
def lipMove (a b : K) (l : Lip K) : Lip K := { l with x := State3.shift l.x a, y := State3.shift l.y b }

theorem Lip.refresh_move {l l1 : Lip K} (ha : l.auto = true) (e : l.refresh = .ok l1) :
    (lipMove a b l).refresh = .ok (lipMove a b l1) := by
  obtain ⟨-, hp⟩ := Lip.refresh_fresh ha e
  unfold lipMove
  rw [hp.2.2.2.2.1, hp.2.2.2.2.2.1]
  exact Lip.refresh_state _ _ e

theorem setSegment_moved {N o n : ℕ} {X X' Y v : Vec K} (h : PlanMoved a b N X X') (ho : o + n ≤ 2 * N)
    (e : X.setSegment? o n v = .ok Y) : ∃ Y', X'.setSegment? o n v = .ok Y' ∧ PlanMoved a b N Y Y' ∧ Y.size = X.size := by
  obtain ⟨z1, z2, rfl⟩ := Vec.setSegment?_eq_ok e
  refine ⟨_, Vec.setSegment?_ok (by rw [h.size]; exact z1) z2, ⟨h.size, fun i hi => ?_⟩, rfl⟩
  dsimp only
  by_cases hc : o ≤ i ∧ i < o + n
  · rw [if_pos hc, if_pos hc, planShift, if_pos (by omega), add_zero]
  · rw [if_neg hc, if_neg hc]
    exact h.get i hi

theorem firstGuess_moved {w w' w1 : HWalkgen K} (h : HumMoved a b w w') (hN : w.sup.N = w.lip.N)
    (e : w.firstGuess = .ok w1) :
    ∃ w1', w'.firstGuess = .ok w1' ∧ HumMoved a b w1 w1' ∧ w1.sup = w.sup ∧ w1'.sup = w'.sup ∧ w1.X.size = w.X.size ∧
      (∀ i, 2 * w.sup.N ≤ i → w1.X.get i = w.X.get i) ∧ (∀ i, 2 * w.sup.N ≤ i → w1'.X.get i = w'.X.get i) ∧
      w1.lip = w.lip := by
  have hlN : w'.lip.N = w.lip.N := by rw [h.lip]
  have hrot : w'.sup.rotation = w.sup.rotation := by
    unfold Sup.rotation
    rw [h.sup.rest]
  have gx : copGuess w'.lip.x w'.lip.z.p - w'.sup.left.x.state.p = copGuess w.lip.x w.lip.z.p - w.sup.left.x.state.p := by
    rw [h.sup.left.x, h.lip]
    unfold copGuess
    simp only [State3.shift]
    ring
  have gy : copGuess w'.lip.y w'.lip.z.p - w'.sup.left.y.state.p = copGuess w.lip.y w.lip.z.p - w.sup.left.y.state.p := by
    rw [h.sup.left.y, h.lip]
    unfold copGuess
    simp only [State3.shift]
    ring
  unfold HWalkgen.firstGuess at e ⊢
  rw [h.first]
  cases hf : w.first
  · rw [hf] at e
    simp only [Bool.false_eq_true, if_false] at e ⊢
    obtain rfl := Except.ok.inj e
    exact ⟨_, rfl, h, rfl, rfl, rfl, fun _ _ => rfl, fun _ _ => rfl, rfl⟩
  · rw [hf, if_pos rfl] at e
    rw [if_pos rfl]
    dsimp only at e ⊢
    rw [hlN, hrot, gx, gy]
    obtain ⟨R1, f1, e⟩ := bind_eq_ok.1 e
    obtain ⟨v1, f2, e⟩ := bind_eq_ok.1 e
    obtain ⟨R2, f3, e⟩ := bind_eq_ok.1 e
    obtain ⟨v2, f4, e⟩ := bind_eq_ok.1 e
    obtain ⟨v3, f5, e⟩ := bind_eq_ok.1 e
    obtain ⟨X1, f6, e⟩ := bind_eq_ok.1 e
    obtain ⟨R3, f7, e⟩ := bind_eq_ok.1 e
    obtain ⟨v4, f8, e⟩ := bind_eq_ok.1 e
    obtain ⟨R4, f9, e⟩ := bind_eq_ok.1 e
    obtain ⟨v5, f10, e⟩ := bind_eq_ok.1 e
    obtain ⟨v6, f11, e⟩ := bind_eq_ok.1 e
    obtain ⟨X2, f12, e⟩ := bind_eq_ok.1 e
    obtain rfl := Except.ok.inj e
    obtain ⟨X1', f6', p1, y1⟩ := setSegment_moved h.plan (by omega) f6
    obtain ⟨X2', f12', p2, y2⟩ := setSegment_moved p1 (by omega) f12
    rw [f1, ok_bind, f2, ok_bind, f3, ok_bind, f4, ok_bind, f5, ok_bind, f6', ok_bind, f7, ok_bind, f8, ok_bind, f9, ok_bind,
      f10, ok_bind, f11, ok_bind, f12', ok_bind]
    refine ⟨_, rfl, ⟨h.sup, h.lip, p2, ?_, h.velRef, h.boundSize, h.weighting, h.withCop, h.withFeet, h.maxCtr, rfl, h.calls,
      h.dX, h.solvers, h.qps⟩, rfl, rfl, by dsimp only; omega, ?_, ?_, rfl⟩
    · obtain ⟨m, hm⟩ := h.even
      exact ⟨m, by dsimp only; omega⟩
    · intro i hi
      obtain ⟨-, -, rfl⟩ := Vec.setSegment?_eq_ok f12
      obtain ⟨-, -, rfl⟩ := Vec.setSegment?_eq_ok f6
      dsimp only
      rw [if_neg (by omega), if_neg (by omega)]
    · intro i hi
      obtain ⟨-, -, rfl⟩ := Vec.setSegment?_eq_ok f12'
      obtain ⟨-, -, rfl⟩ := Vec.setSegment?_eq_ok f6'
      dsimp only
      rw [if_neg (by omega), if_neg (by omega)]

/-- The generator and the moved one before the QP is filled. -/
theorem begin_moved {w w' w1 : HWalkgen K} {fb : K} (hi : HumInv w) (h : HumMoved a b w w') (hp : StepPlanned w.sup w.X)
    (e : w.begin fb = .ok w1) :
    ∃ w1', w'.begin fb = .ok w1' ∧ HumMoved a b w1 w1' ∧ w1'.sup.stepVec.size = w1.sup.stepVec.size ∧
      w1.sup.stepVec.size = w1.X.size - 2 * w1.sup.N ∧
      (∀ i, w1.sup.stepVec.get i = w1.X.get (2 * w1.sup.N + i)) ∧
      ∀ i, w1'.sup.stepVec.get i = w1'.X.get (2 * w1.sup.N + i) := by
  unfold HWalkgen.begin at e ⊢
  obtain ⟨⟨t, v⟩, e1, e⟩ := bind_eq_ok.1 e
  dsimp only at e
  have hN0 : 0 < w.sup.N := hi.N ▸ hi.fresh.N
  obtain ⟨t', v', e1', hS, hP, hN, k1, k2, k3, k4, ev⟩ := updateTimeline_moved h.sup hN0 h.plan h.even hp e1
  rw [e1', ok_bind]
  dsimp only
  have hmove : ∀ {l1 : Lip K}, (if EPS < |fb - w.lip.fb| then w.lip.setFeedbackPeriod fb else pure w.lip) = .ok l1 →
      (if EPS < |fb - w'.lip.fb| then w'.lip.setFeedbackPeriod fb else pure w'.lip) = .ok (lipMove a b l1) := by
    intro l1 el
    have hw : w'.lip = lipMove a b w.lip := h.lip
    rw [hw]
    have hfb : (lipMove a b w.lip).fb = w.lip.fb := rfl
    rw [hfb]
    by_cases hc : EPS < |fb - w.lip.fb|
    · rw [if_pos hc] at el ⊢
      unfold Lip.setFeedbackPeriod at el ⊢
      obtain ⟨_, r1, el⟩ := bind_eq_ok.1 el
      rw [r1, ok_bind]
      exact Lip.refresh_move (l := { w.lip with fb := fb }) hi.fresh.auto el
    · rw [if_neg hc] at el ⊢
      obtain rfl := Except.ok.inj el
      rfl
  obtain ⟨l1, el, e⟩ : ∃ l1, (if EPS < |fb - w.lip.fb| then w.lip.setFeedbackPeriod fb else pure w.lip) = .ok l1 ∧
      (do require (0 < fb); require (t.N = l1.N); HWalkgen.firstGuess { w with sup := t, X := v, lip := l1 }) = .ok w1 := by
    by_cases hc : EPS < |fb - w.lip.fb|
    · rw [if_pos hc] at e ⊢
      exact bind_eq_ok.1 e
    · rw [if_neg hc] at e ⊢
      exact ⟨_, rfl, e⟩
  obtain ⟨_, f1, e⟩ := bind_eq_ok.1 e
  obtain ⟨_, f2, e⟩ := bind_eq_ok.1 e
  have f2' := require_eq_ok.1 f2
  obtain ⟨w1', ew, hm, g1, g2, g3, g4, g5, g6⟩ := firstGuess_moved (w := { w with sup := t, X := v, lip := l1 })
    (w' := { w' with sup := t', X := v', lip := lipMove a b l1 })
    ⟨hS, rfl, hP, ev, h.velRef, h.boundSize, h.weighting, h.withCop, h.withFeet, h.maxCtr, h.first, h.calls,
      h.dX, h.solvers, h.qps⟩ f2' e
  refine ⟨w1', ?_, hm, ?_⟩
  · have goal : (do
        let lip ← (if EPS < |fb - w'.lip.fb| then w'.lip.setFeedbackPeriod fb else pure w'.lip)
        require (0 < fb)
        require (t'.N = lip.N)
        HWalkgen.firstGuess { w' with sup := t', X := v', lip := lip }) = .ok w1' := by
      rw [hmove el, ok_bind, f1, ok_bind, require_pos (show t'.N = (lipMove a b l1).N by rw [hS.rest]; exact f2'), ok_bind]
      exact ew
    by_cases hc : EPS < |fb - w'.lip.fb|
    · rw [if_pos hc] at goal ⊢; exact goal
    · rw [if_neg hc] at goal ⊢; exact goal
  · dsimp only at g1 g2 g3 g4 g5
    rw [g1, g2]
    refine ⟨k1, by rw [g3, hN]; exact k2, fun i => ?_, fun i => ?_⟩
    · rw [k3, g4 _ (by omega), hN]
    · rw [k4, g5 _ (by omega), hN]

/-! ### The rest of `solve` -/

theorem nbCtr_moved {hull : Vec (Pt K) → Res (Polygon K)} {w w' : HWalkgen K} (hs : SupMoved a b w.sup w'.sup)
    (hlN : w'.lip.N = w.lip.N) (hd : w'.sup.dsCopPoints = w.sup.dsCopPoints) (h4 : w'.withCop = w.withCop)
    (h5 : w'.withFeet = w.withFeet) : w'.nbCtr hull = w.nbCtr hull := by
  unfold HWalkgen.nbCtr
  rw [h4, h5, hlN, copPolygons_moved hs hd, kinPolygons_moved hs]

theorem listAt_map {α β : Type} {f : α → β} {l l' : List α} (h : l'.map f = l.map f) {i : ℕ} {x : α}
    (e : listAt l i = .ok x) : ∃ x', listAt l' i = .ok x' ∧ f x' = f x := by
  unfold listAt at e ⊢
  have h2 : (l'.map f)[i]? = (l.map f)[i]? := by rw [h]
  rw [List.getElem?_map, List.getElem?_map] at h2
  cases h3 : l[i]? with
  | none => rw [h3] at e; exact absurd e (by simp)
  | some y =>
    rw [h3] at e h2
    obtain rfl := Except.ok.inj e
    cases h4 : l'[i]? with
    | none => rw [h4] at h2; exact absurd h2 (by simp)
    | some y' =>
      rw [h4] at h2
      exact ⟨y', rfl, by simpa using h2⟩

theorem QPMatrices.Same.reset {q q' : QPMatrices K} (h : q.Same q') : q'.reset = q.reset := by
  unfold QPMatrices.reset Vec.fill
  rw [h.Q.1, h.Q.2.1, h.A.1, h.A.2.1, h.p.1, h.bl.1, h.bu.1, h.xl.1, h.xu.1]

theorem stateStep_shift (j T δ : K) (x : State3 K) : stateStep j T (State3.shift x δ) = State3.shift (stateStep j T x) δ := by
  unfold stateStep State3.shift
  simp only [State3.mk.injEq, and_true]
  ring

theorem solverSolve_moved {o : Oracle K} (ho : o.Reads) {s s' r : SolverState K} {q q' : QPMatrices K} {n : ℕ}
    {x y : Vec K} {os f : Bool} (h1 : s'.nbVar = s.nbVar) (h2 : s'.nbCtr = s.nbCtr) (h3 : s'.calls = s.calls)
    (hq : q.Same q') (e : solverSolve o s q n x false os = .ok (f, y, r)) :
    ∃ r', solverSolve o s' q' n x false os = .ok (f, y, r') ∧ r'.nbVar = r.nbVar ∧ r'.nbCtr = r.nbCtr := by
  unfold solverSolve usedQP at e ⊢
  simp only [Bool.and_false, Bool.false_eq_true, if_false] at e ⊢
  obtain ⟨_, a1, e⟩ := bind_eq_ok.1 e
  obtain ⟨_, a2, e⟩ := bind_eq_ok.1 e
  rw [h1, h2, h3, ← ho s.calls q q' n hq, require_pos (hq.dims (require_eq_ok.1 a1)), ok_bind, a2, ok_bind]
  by_cases hc : (o s.calls q n).1 = false ∧ os = true
  · rw [if_pos hc] at e ⊢
    simp only [pure, Except.pure, Except.ok.injEq, Prod.mk.injEq] at e ⊢
    obtain ⟨rfl, rfl, rfl⟩ := e
    exact ⟨_, ⟨rfl, rfl, rfl⟩, rfl, rfl⟩
  · rw [if_neg hc] at e ⊢
    simp only [pure, Except.pure, Except.ok.injEq, Prod.mk.injEq] at e ⊢
    obtain ⟨rfl, rfl, rfl⟩ := e
    exact ⟨_, ⟨rfl, rfl, rfl⟩, rfl, rfl⟩

theorem finish_moved {w w' w1 : HWalkgen K} {fb : K} (hi : HumInv w) (hSh : w.sup.Shaped) (hc : Covered w.sup)
    (h : HumMoved a b w w') (hz : w.X.size = 2 * w.sup.N + 2 * w.sup.M) (e : w.finish fb = .ok w1) :
    ∃ w1', w'.finish fb = .ok w1' ∧ HumMoved a b w1 w1' := by
  have hM : w'.sup.M = w.sup.M := by rw [h.sup.rest]
  have hN' : w'.sup.N = w.sup.N := by rw [h.sup.rest]
  have hlN : w'.lip.N = w.lip.N := by rw [h.lip]
  have hN := hi.N
  have hN0 := hi.fresh.N
  unfold HWalkgen.finish at e ⊢
  obtain ⟨X1, e1, e⟩ := bind_eq_ok.1 e
  dsimp only at e
  obtain ⟨t, e2, e⟩ := bind_eq_ok.1 e
  obtain ⟨j0, e3, e⟩ := bind_eq_ok.1 e
  obtain ⟨l1, e4, e⟩ := bind_eq_ok.1 e
  obtain ⟨j1, e5, e⟩ := bind_eq_ok.1 e
  obtain ⟨l2, e6, e⟩ := bind_eq_ok.1 e
  obtain ⟨sv, e7, e⟩ := bind_eq_ok.1 e
  obtain ⟨s2, e8, e⟩ := bind_eq_ok.1 e
  obtain rfl := Except.ok.inj e
  obtain ⟨z1, rfl⟩ := Vec.add?_eq_ok e1
  have hp : PlanMoved a b w.sup.N ⟨w.X.size, fun i => w.X.get i + w.dX.get i⟩
      ⟨w'.X.size, fun i => w'.X.get i + w'.dX.get i⟩ := by
    refine ⟨h.plan.size, fun i hi => ?_⟩
    dsimp only at hi ⊢
    rw [h.plan.get i hi, h.dX]
    ring
  rw [Vec.add?_ok (by rw [h.plan.size, h.dX]; exact z1), ok_bind]
  dsimp only
  obtain ⟨-, nb, dx, dy, Bx, By, px, py, hD⟩ := convert_data
    (w := { w with X := ⟨w.X.size, fun i => w.X.get i + w.dX.get i⟩ }) hi.fresh e2
  obtain ⟨px', py', hD', hx, hy⟩ := hD.moved h.sup h.lip
  obtain ⟨-, q1, q2, q3⟩ := (planMoved_iff (X := ⟨w.X.size, fun i => w.X.get i + w.dX.get i⟩) hz).1 hp
  rw [hN] at q1 q2 q3
  obtain ⟨b1, b2⟩ := jerks_moved hD hi.fresh hi.mass hi.total h.sup hN hc h.lip hx hy (Y := fun i => w.X.get i + w.dX.get i)
    (Y' := fun i => w'.X.get i + w'.dX.get i) ⟨q1, q2, q3⟩
  obtain ⟨t1, c1, c2, c3, c4, c5⟩ := convert_ok (w := { w with X := ⟨w.X.size, fun i => w.X.get i + w.dX.get i⟩ }) hD hSh hN
    (by dsimp only; omega)
  obtain rfl := Except.ok.inj (c1.symm.trans e2)
  obtain ⟨t1', c1', c2', c3', c4', c5'⟩ := convert_ok
    (w := { w' with X := ⟨w'.X.size, fun i => w'.X.get i + w'.dX.get i⟩ }) hD' (Shaped_moved h.sup hSh) (by dsimp only; omega)
    (by dsimp only; rw [h.plan.size]; omega)
  dsimp only at c2 c3 c4 c5 c2' c3' c4' c5'
  rw [hlN] at c3' c4' c5'
  rw [b1] at c3'
  rw [b2] at c4'
  rw [c1', ok_bind, hlN, hN', hM]
  have ht : ∀ i < w.lip.N, t1'.get i = t1.get i := fun i hi => (c3' i hi).trans (c3 i hi).symm
  have ht2 : ∀ i < w.lip.N, t1'.get (w.lip.N + i) = t1.get (w.lip.N + i) := fun i hi => (c4' i hi).trans (c4 i hi).symm
  have ht2' : t1'.get w.lip.N = t1.get w.lip.N := by simpa using ht2 0 hN0
  have hts : t1'.size = t1.size := by rw [c2', c2, h.plan.size]
  obtain ⟨y1, y2⟩ := Vec.at?_eq_ok.1 e3
  obtain ⟨y3, y4⟩ := Vec.at?_eq_ok.1 e5
  rw [Vec.at?_eq_ok.2 ⟨hts ▸ y1, (ht 0 hN0).trans y2⟩, ok_bind]
  unfold Lip.updateStateX updateState at e4 ⊢
  obtain ⟨x1, e4, e4'⟩ := bind_eq_ok.1 e4
  obtain ⟨_, r1, e4⟩ := bind_eq_ok.1 e4
  obtain rfl := Except.ok.inj e4
  obtain rfl := Except.ok.inj e4'
  rw [r1, ok_bind]
  simp only [pure_bind]
  rw [Vec.at?_eq_ok.2 ⟨hts ▸ y3, ht2'.trans y4⟩, ok_bind]
  unfold Lip.updateStateY updateState at e6 ⊢
  obtain ⟨x2, e6, e6'⟩ := bind_eq_ok.1 e6
  obtain ⟨_, r2, e6⟩ := bind_eq_ok.1 e6
  obtain rfl := Except.ok.inj e6
  obtain rfl := Except.ok.inj e6'
  rw [r2, ok_bind]
  simp only [pure_bind]
  obtain ⟨y5, rfl⟩ := Vec.segment?_eq_ok e7
  rw [Vec.segment?_ok (by rw [hts]; exact y5), ok_bind]
  obtain ⟨s2', e8', hs2⟩ := updateFeet_moved (sv := ⟨2 * w.sup.M, fun i => t1.get (2 * w.sup.N + i)⟩)
    (sv' := ⟨2 * w.sup.M, fun i => t1'.get (2 * w.sup.N + i)⟩) h.sup rfl
    (fun h0 => by
      dsimp only at h0 ⊢
      rw [c5' _ (by omega), c5 _ (by omega), hN]
      exact q2 0 (by omega)) (fun h0 => by
      dsimp only at h0 ⊢
      rw [c5' _ (by omega), c5 _ (by omega), hN]
      exact q3 0 (by omega)) e8
  rw [e8', ok_bind]
  refine ⟨_, rfl, hs2, ?_, ?_, ⟨w.sup.M, ?_⟩, h.velRef, h.boundSize, h.weighting, h.withCop, h.withFeet, h.maxCtr, h.first,
    h.calls, h.dX, h.solvers, h.qps⟩
  · dsimp only
    rw [h.lip]
    dsimp only
    rw [stateStep_shift, stateStep_shift]
  · dsimp only
    rw [(Sup.updateFeet_frame e8).1]
    exact hp
  · dsimp only
    rw [(Sup.updateFeet_frame e8).1]
    exact hz

theorem prepare_moved {hull : Vec (Pt K) → Res (Polygon K)} {w w' w1 : HWalkgen K} {fb : K} {idx : ℕ} {qp : QPMatrices K}
    (hi : HumInv w) (h : HumMoved a b w w') (hp : StepPlanned w.sup w.X) (hc : ∀ w1, w.begin fb = .ok w1 → Covered w1.sup)
    (hz : w1.X.size = 2 * w1.lip.N + 2 * w1.sup.M)
    (hD : ∃ nb dx dy Bx By px py, HumData w1.lip w1.sup nb dx dy Bx By px py)
    (e : w.prepare hull fb = .ok (w1, idx, qp)) :
    ∃ w1' qp', w'.prepare hull fb = .ok (w1', idx, qp') ∧ HumMoved a b w1 w1' ∧ qp.Same qp' ∧ Covered w1.sup := by
  obtain ⟨hI, hSh, -, -⟩ := hi.prepare e
  unfold HWalkgen.prepare at e ⊢
  obtain ⟨w0, eb, e⟩ := bind_eq_ok.1 e
  obtain ⟨⟨n1, n2⟩, en, e⟩ := bind_eq_ok.1 e
  obtain ⟨q, eq, e⟩ := bind_eq_ok.1 e
  obtain ⟨q1, ef, e⟩ := bind_eq_ok.1 e
  obtain ⟨q2, ez, e⟩ := bind_eq_ok.1 e
  obtain ⟨rfl, h2⟩ := Prod.mk.inj (Except.ok.inj e)
  obtain ⟨rfl, rfl⟩ := Prod.mk.inj h2
  clear e h2
  dsimp only at hz hD hSh
  obtain ⟨nb, dx, dy, Bx, By, px, py, hD⟩ := hD
  have hI0 : HumInv w0 := hI.congr rfl rfl rfl
  obtain ⟨w0', eb', hw, v1, v2, v3, v4⟩ := begin_moved hi h hp eb
  have hN := hI0.N
  have hc0 := hc _ eb
  obtain ⟨-, k1, k2, k3⟩ := (planMoved_iff (X := w0.X) (m := w0.sup.M) (by rw [hz, hN])).1 hw.plan
  have hM : w0'.sup.M = w0.sup.M := by rw [hw.sup.rest]
  have hlN : w0'.lip.N = w0.lip.N := by rw [hw.lip]
  have hds := dsCopPoints_moved hw.sup v1 (by rw [v2, hz, hN]; omega)
    (fun i hi => by rw [v4, v3]; exact k2 i hi)
    (fun i hi => by rw [v4, v3, ← add_assoc]; exact k3 i hi)
  rw [hN] at k1 k2 k3
  have hidx : w0'.index (n1 + n2) = w0.index (n1 + n2) := by
    unfold HWalkgen.index
    rw [hM, hw.maxCtr]
  obtain ⟨q', eq', hq'⟩ := listAt_map hw.qps eq
  obtain ⟨q1', ef', s1⟩ := fillQP_moved hI0 hSh hc0 hD hw.sup hw.lip hw.plan.size ⟨k1, k2, k3⟩ hds hw.velRef hw.boundSize
    hw.weighting hw.withCop hw.withFeet hq' ef
  obtain ⟨q2', ez', s2⟩ := normalize_moved s1 ez
  refine ⟨{ w0' with qps := w0'.qps.set (w0.index (n1 + n2)) q2' }, q2', ?_,
    ⟨hw.sup, hw.lip, hw.plan, hw.even, hw.velRef, hw.boundSize, hw.weighting, hw.withCop, hw.withFeet, hw.maxCtr, hw.first,
      hw.calls, hw.dX, hw.solvers, ?_⟩, s2, hc0⟩
  · rw [eb', ok_bind, nbCtr_moved hw.sup hlN hds hw.withCop hw.withFeet, en, ok_bind]
    dsimp only
    rw [hidx, eq', ok_bind, ef', ok_bind, ez', ok_bind]
    rfl
  · dsimp only
    rw [List.map_set, List.map_set, hw.qps, s2.reset]

theorem solve_moved {hull : Vec (Pt K) → Res (Polygon K)} {o : Oracle K} (ho : o.Reads) {w w' w2 : HWalkgen K} {fb : K}
    {f : Bool} (hi : HumInv w) (h : HumMoved a b w w') (hp : StepPlanned w.sup w.X)
    (hc : ∀ w1, w.begin fb = .ok w1 → Covered w1.sup) (e : w.solve hull o fb = .ok (f, w2)) :
    ∃ w2', w'.solve hull o fb = .ok (f, w2') ∧ HumMoved a b w2 w2' := by
  obtain ⟨w1, idx, qp, _, _, ep, -, p2, p3, -, p4, -⟩ := hsolve_ok e
  unfold HWalkgen.solve at e ⊢
  rw [ep, ok_bind] at e
  dsimp only at e
  obtain ⟨hI, hSh, -, -⟩ := hi.prepare ep
  obtain ⟨-, hD⟩ := convert_data (w := { w1 with X := w2.X }) hI.fresh p4
  dsimp only at hD
  obtain ⟨w1', qp', ep', hw, s2, hc0⟩ := prepare_moved hi h hp hc p3 hD ep
  clear ep hD p4 p2 hc
  rw [ep', ok_bind]
  clear ep'
  dsimp only
  have hM : w1'.sup.M = w1.sup.M := by rw [hw.sup.rest]
  have hlN : w1'.lip.N = w1.lip.N := by rw [hw.lip]
  obtain ⟨sv, e1, e⟩ := bind_eq_ok.1 e
  obtain ⟨⟨fd, dX, sv2⟩, e2, e⟩ := bind_eq_ok.1 e
  obtain ⟨w3, e3, e⟩ := bind_eq_ok.1 e
  obtain ⟨rfl, rfl⟩ := Prod.mk.inj (Except.ok.inj e)
  clear e
  obtain ⟨sv', e1', hv'⟩ := listAt_map hw.solvers e1
  obtain ⟨g1, g2⟩ := Prod.mk.inj hv'
  rw [hlN, hM, e1', ok_bind, hw.calls, hw.dX]
  obtain ⟨r', e2', g3, g4⟩ := solverSolve_moved (s := { sv with calls := w1.calls })
    (s' := { sv' with calls := w1.calls }) ho g1 g2 rfl s2 e2
  rw [e2', ok_bind]
  clear e2' e2 e1 e1'
  dsimp only
  have hz : w1.X.size = 2 * w1.sup.N + 2 * w1.sup.M := by rw [p3, hI.N]
  have hw2 : HumMoved a b { w1 with dX := dX, solvers := w1.solvers.set idx sv2, calls := w1.calls + 1 }
      { w1' with dX := dX, solvers := w1'.solvers.set idx r', calls := w1.calls + 1 } :=
    ⟨hw.sup, hw.lip, hw.plan, hw.even, hw.velRef, hw.boundSize, hw.weighting, hw.withCop, hw.withFeet, hw.maxCtr, hw.first,
      rfl, rfl, by
        dsimp only
        rw [List.map_set, List.map_set, hw.solvers, g3, g4], hw.qps⟩
  obtain ⟨w4, e4, h4⟩ := finish_moved (w := { w1 with dX := dX, solvers := w1.solvers.set idx sv2, calls := w1.calls + 1 })
    (hI.congr rfl rfl rfl) hSh hc0 hw2 hz e3
  rw [e4, ok_bind]
  exact ⟨_, rfl, h4⟩

end MPC
