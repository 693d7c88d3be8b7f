import Verif.Lemmas.HumShiftSolve

/-! # The other calls on a moved generator -/

set_option linter.unusedSectionVars false

namespace MPC

open Finset Spec

variable {K : Type} [Field K] [LinearOrder K] [IsStrictOrderedRing K] [FloorRing K] {a b : K}

theorem Spec.HumMoved.withSup {w w' : HWalkgen K} (h : HumMoved a b w w') {s s' : Sup K} (hs : SupMoved a b s s')
    (hN : s.N = w.sup.N) : HumMoved a b { w with sup := s } { w' with sup := s' } :=
  ⟨hs, h.lip, by dsimp only; rw [hN]; exact h.plan, by dsimp only; rw [hN]; exact h.even, h.velRef, h.boundSize,
    h.weighting, h.withCop, h.withFeet, h.maxCtr, h.first, h.calls, h.dX, h.solvers, h.qps⟩

theorem Spec.HumMoved.withLip {w w' : HWalkgen K} (h : HumMoved a b w w') {l l' : Lip K} (hl : l' = lipMove a b l) :
    HumMoved a b { w with lip := l } { w' with lip := l' } :=
  ⟨h.sup, hl, h.plan, h.even, h.velRef, h.boundSize,
    h.weighting, h.withCop, h.withFeet, h.maxCtr, h.first, h.calls, h.dX, h.solvers, h.qps⟩

theorem mapFoot_moved {s s' : Sup K} (h : SupMoved a b s s') (left : Bool) {f f' : Foot K → Foot K}
    (hf : ∀ u u', FootMoved a b u u' → FootMoved a b (f u) (f' u')) :
    SupMoved a b (s.mapFoot left f) (s'.mapFoot left f') := by
  obtain ⟨L, R, v, rfl, hL, hR⟩ := h.with_eq
  unfold Sup.mapFoot
  cases left
  · exact ⟨rfl, hL, hf _ _ hR⟩
  · exact ⟨rfl, hf _ _ hL, hR⟩

theorem table_moved {w w' : HWalkgen K} (h : HumMoved a b w w') :
    HumMoved a b w.computeConstantPart w'.computeConstantPart := by
  have hm : w'.computeConstantPart.maxCtr = w.computeConstantPart.maxCtr := by
    unfold HWalkgen.computeConstantPart Sup.maxNbCop Sup.maxNbKin
    dsimp only
    rw [h.withCop, h.withFeet, h.maxCtr, h.sup.left.kin, h.sup.left.cop, h.sup.right.kin, h.sup.right.cop]
    obtain ⟨L, R, v, hs, -, -⟩ := h.sup.with_eq
    rw [hs]
  have hN : w'.sup.N = w.sup.N := by rw [h.sup.rest]
  have hlN : w'.lip.N = w.lip.N := by rw [h.lip]
  have hq : w'.computeConstantPart.qps = w.computeConstantPart.qps := by
    show HWalkgen.table w'.sup.N w'.computeConstantPart.maxCtr (fun i j => zeroQP (2 * w'.lip.N + 2 * i) j) = _
    rw [hm, hN, hlN]
    rfl
  have hs : w'.computeConstantPart.solvers.map (fun s => (s.nbVar, s.nbCtr)) =
      w.computeConstantPart.solvers.map fun s => (s.nbVar, s.nbCtr) := by
    show List.map _ (w'.solvers ++ HWalkgen.table w'.sup.N w'.computeConstantPart.maxCtr
      (fun i j => SolverState.make (2 * w'.lip.N + 2 * i) j)) = List.map _ (w.solvers ++ HWalkgen.table w.sup.N
        w.computeConstantPart.maxCtr (fun i j => SolverState.make (2 * w.lip.N + 2 * i) j))
    rw [List.map_append, List.map_append, h.solvers, hm, hN, hlN]
  exact ⟨h.sup, h.lip, h.plan, h.even, h.velRef, h.boundSize, h.weighting, h.withCop, h.withFeet, hm, h.first, h.calls,
    h.dX, hs, by rw [hq]⟩

theorem Lip.refreshCop_move {l l1 : Lip K} (e : l.refreshCop = .ok l1) :
    (lipMove a b l).refreshCop = .ok (lipMove a b l1) := by
  unfold Lip.refreshCop lipMove at *
  dsimp only at *
  cases ha : l.auto
  · rw [ha] at e
    simp only [Bool.false_eq_true, if_false] at e ⊢
    obtain rfl := Except.ok.inj e
    rw [ha]
    rfl
  rw [ha, if_pos rfl] at e
  rw [if_pos rfl]
  unfold Lip.computeCopX Lip.computeCopY at e ⊢
  dsimp only at e ⊢
  obtain ⟨l2, e2, e⟩ := bind_eq_ok.1 e
  obtain ⟨v2, f2, e2⟩ := bind_eq_ok.1 e2
  obtain rfl := Except.ok.inj e2
  obtain ⟨v3, f3, e3⟩ := bind_eq_ok.1 e
  obtain rfl := Except.ok.inj e3
  dsimp only at f2 f3
  rw [f2]
  simp only [ok_bind, pure_bind]
  rw [f3, ha]
  rfl

theorem moveFirst_state (v : Vec K) (d : K) :
    (⟨(moveFirst v d).get 0, (moveFirst v d).get 1, (moveFirst v d).get 2⟩ : State3 K) =
      State3.shift ⟨v.get 0, v.get 1, v.get 2⟩ d := rfl

theorem call_moved {hull : Vec (Pt K) → Res (Polygon K)} {o o' : Oracle K} {w w' w1 : HWalkgen K} {c : HCall K} {f : Bool}
    (hi : HumInv w) (h : HumMoved a b w w') (hc : ∀ fb, c ≠ .solve fb) (hn : ∀ n, c = .setNbSamples n → w.sup.M = 0)
    (e : w.step hull o c = .ok (f, w1)) :
    ∃ w1', w'.step hull o' (c.moved a b) = .ok (f, w1') ∧ HumMoved a b w1 w1' := by
  have ha := hi.fresh.auto
  have hl : w'.lip = lipMove a b w.lip := h.lip
  have hlN : w'.lip.N = w.lip.N := by rw [h.lip]
  have hM : w'.sup.M = w.sup.M := by rw [h.sup.rest]
  have hT : w'.sup.T = w.sup.T := by rw [h.sup.rest]
  cases c with
  | solve fb => exact absurd rfl (hc fb)
  | setNbSamples n =>
    have hM0 := hn n rfl
    unfold HWalkgen.step HCall.moved at *
    dsimp only at e ⊢
    obtain ⟨_, e1, e⟩ := bind_eq_ok.1 e
    obtain ⟨l1, e2, e⟩ := bind_eq_ok.1 e
    obtain ⟨s1, e3, e⟩ := bind_eq_ok.1 e
    obtain ⟨rfl, rfl⟩ := Prod.mk.inj (Except.ok.inj e)
    unfold Lip.setNbSamples at e2 ⊢
    obtain ⟨_, -, e2⟩ := bind_eq_ok.1 e2
    have e2' := Lip.refresh_move (a := a) (b := b) (l := { w.lip with N := n }) ha e2
    unfold Sup.setNbSamples at e3 ⊢
    obtain ⟨_, -, e3⟩ := bind_eq_ok.1 e3
    obtain rfl := Except.ok.inj e3
    rw [e1, ok_bind]
    simp only [bind_assoc, ok_bind]
    rw [hl]
    have e2'' : Lip.refresh { lipMove a b w.lip with N := n } = .ok (lipMove a b l1) := e2'
    rw [e2'', ok_bind, pure_bind]
    refine ⟨_, rfl, table_moved ⟨?_, rfl, ?_, ⟨w.sup.M, rfl⟩, h.velRef, rfl, h.weighting, h.withCop, h.withFeet,
      h.maxCtr, h.first, h.calls, ?_, h.solvers, h.qps⟩⟩
    · obtain ⟨L, R, v, hs, hL, hR⟩ := h.sup.with_eq
      rw [hs]
      exact ⟨rfl, hL, hR⟩
    · dsimp only
      rw [hM, hM0]
      refine ⟨rfl, fun i hi => ?_⟩
      rw [planShift, if_pos (by simpa [Vec.const] using hi)]
      simp [Vec.const]
    · dsimp only
      rw [hM]
      rfl
  | setSamplingPeriod T =>
    unfold HWalkgen.step HCall.moved at *
    dsimp only at e ⊢
    obtain ⟨_, e1, e⟩ := bind_eq_ok.1 e
    obtain ⟨l1, e2, e⟩ := bind_eq_ok.1 e
    obtain ⟨s1, e3, e⟩ := bind_eq_ok.1 e
    obtain ⟨rfl, rfl⟩ := Prod.mk.inj (Except.ok.inj e)
    unfold Lip.setSamplingPeriod at e2 ⊢
    obtain ⟨_, r2, e2⟩ := bind_eq_ok.1 e2
    have e2' := Lip.refresh_move (a := a) (b := b) (l := { w.lip with T := T, fb := T }) ha e2
    unfold Sup.setSamplingPeriod at e3 ⊢
    obtain ⟨_, -, e3⟩ := bind_eq_ok.1 e3
    obtain ⟨_, -, e3⟩ := bind_eq_ok.1 e3
    obtain rfl := Except.ok.inj e3
    rw [e1, ok_bind, r2]
    simp only [bind_assoc, ok_bind]
    rw [hl]
    have e2'' : Lip.refresh { lipMove a b w.lip with T := T, fb := T } = .ok (lipMove a b l1) := e2'
    rw [e2'', ok_bind, pure_bind]
    refine ⟨_, rfl, ?_, rfl, h.plan, h.even, h.velRef, rfl, h.weighting, h.withCop, h.withFeet,
      h.maxCtr, h.first, h.calls, h.dX, h.solvers, h.qps⟩
    obtain ⟨L, R, v, hs, hL, hR⟩ := h.sup.with_eq
    rw [hs]
    exact ⟨rfl, hL, hR⟩
  | setStepPeriod p =>
    unfold HWalkgen.step HCall.moved at *
    dsimp only at e ⊢
    obtain ⟨_, e1, e⟩ := bind_eq_ok.1 e
    obtain ⟨_, e2, e⟩ := bind_eq_ok.1 e
    obtain ⟨s1, e3, e⟩ := bind_eq_ok.1 e
    obtain ⟨rfl, rfl⟩ := Prod.mk.inj (Except.ok.inj e)
    rw [e1, ok_bind, hT, e2, ok_bind]
    obtain ⟨L, R, v, hs, hL, hR⟩ := h.sup.with_eq
    have key : ∃ s1', w'.sup.setStepPeriod p = .ok s1' ∧ SupMoved a b s1 s1' ∧ s1.N = w.sup.N := by
      unfold Sup.setStepPeriod at e3 ⊢
      rw [isInDS_moved h.sup]
      obtain ⟨_, e1, e3⟩ := bind_eq_ok.1 e3
      obtain ⟨ds, e2, e3⟩ := bind_eq_ok.1 e3
      rw [e1, ok_bind, e2, ok_bind, hs]
      cases ds
      · simp only [Bool.false_eq_true, if_false] at e3 ⊢
        obtain ⟨_, e4, e3⟩ := bind_eq_ok.1 e3
        obtain ⟨tl, e5, e3⟩ := bind_eq_ok.1 e3
        obtain rfl := Except.ok.inj e3
        rw [e4, ok_bind, e5, ok_bind]
        exact ⟨_, rfl, ⟨rfl, hL, hR⟩, rfl⟩
      · simp only [if_true] at e3 ⊢
        obtain rfl := Except.ok.inj e3
        exact ⟨_, rfl, ⟨rfl, hL, hR⟩, rfl⟩
    obtain ⟨s1', k1, k2, k3⟩ := key
    rw [k1, ok_bind]
    exact ⟨_, rfl, h.withSup k2 k3⟩
  | setInitialDoubleSupportLength p =>
    unfold HWalkgen.step HCall.moved at *
    dsimp only at e ⊢
    obtain ⟨s1, e3, e⟩ := bind_eq_ok.1 e
    obtain ⟨rfl, rfl⟩ := Prod.mk.inj (Except.ok.inj e)
    obtain ⟨L, R, v, hs, hL, hR⟩ := h.sup.with_eq
    have key : ∃ s1', w'.sup.setInitialDoubleSupportLength p = .ok s1' ∧ SupMoved a b s1 s1' ∧ s1.N = w.sup.N := by
      unfold Sup.setInitialDoubleSupportLength at e3 ⊢
      rw [isInDS_moved h.sup]
      obtain ⟨ds, e2, e3⟩ := bind_eq_ok.1 e3
      rw [e2, ok_bind, hs]
      cases ds
      · simp only [Bool.false_eq_true, if_false] at e3 ⊢
        obtain rfl := Except.ok.inj e3
        exact ⟨_, rfl, ⟨rfl, hL, hR⟩, rfl⟩
      · simp only [if_true] at e3 ⊢
        by_cases hp : p < w.sup.dsPeriod - EPS
        · rw [if_pos hp] at e3 ⊢
          obtain ⟨_, e4, e3⟩ := bind_eq_ok.1 e3
          obtain ⟨tl, e5, e3⟩ := bind_eq_ok.1 e3
          obtain rfl := Except.ok.inj e3
          rw [e4, ok_bind, e5, ok_bind]
          exact ⟨_, rfl, ⟨rfl, hL, hR⟩, rfl⟩
        · rw [if_neg hp] at e3 ⊢
          obtain ⟨tl, e5, e3⟩ := bind_eq_ok.1 e3
          obtain rfl := Except.ok.inj e3
          rw [e5, ok_bind]
          exact ⟨_, rfl, ⟨rfl, hL, hR⟩, rfl⟩
    obtain ⟨s1', k1, k2, k3⟩ := key
    rw [k1, ok_bind]
    exact ⟨_, rfl, h.withSup k2 k3⟩
  | setKin left g =>
    obtain ⟨rfl, rfl⟩ := Prod.mk.inj (Except.ok.inj e)
    exact ⟨_, rfl, h.withSup (mapFoot_moved h.sup left fun u u' k =>
      ⟨k.x, k.y, k.z, k.fx, k.fy, k.maxHeight, rfl, k.cop⟩) (Sup.mapFoot_frame _ _ _).1⟩
  | setCop left g =>
    obtain ⟨rfl, rfl⟩ := Prod.mk.inj (Except.ok.inj e)
    exact ⟨_, rfl, h.withSup (mapFoot_moved h.sup left fun u u' k =>
      ⟨k.x, k.y, k.z, k.fx, k.fy, k.maxHeight, k.kin, rfl⟩) (Sup.mapFoot_frame _ _ _).1⟩
  | setMaxHeight left g =>
    obtain ⟨rfl, rfl⟩ := Prod.mk.inj (Except.ok.inj e)
    exact ⟨_, rfl, h.withSup (mapFoot_moved h.sup left fun u u' k =>
      ⟨k.x, k.y, k.z, k.fx, k.fy, rfl, k.kin, k.cop⟩) (Sup.mapFoot_frame _ _ _).1⟩
  | setVelRef v =>
    unfold HWalkgen.step HCall.moved at *
    dsimp only at e ⊢
    obtain ⟨_, e1, e⟩ := bind_eq_ok.1 e
    obtain ⟨rfl, rfl⟩ := Prod.mk.inj (Except.ok.inj e)
    rw [hlN, e1, ok_bind]
    exact ⟨_, rfl, h.sup, h.lip, h.plan, h.even, rfl, h.boundSize, h.weighting, h.withCop, h.withFeet, h.maxCtr, h.first,
      h.calls, h.dX, h.solvers, h.qps⟩
  | setAngularVelRef v =>
    unfold HWalkgen.step HCall.moved at *
    dsimp only at e ⊢
    obtain ⟨_, e1, e⟩ := bind_eq_ok.1 e
    obtain ⟨rfl, rfl⟩ := Prod.mk.inj (Except.ok.inj e)
    rw [hlN, e1, ok_bind]
    exact ⟨_, rfl, h⟩
  | setFootState left ax v =>
    cases ax <;>
    · unfold HWalkgen.step HCall.moved at *
      dsimp only at e ⊢
      obtain ⟨_, e1, e⟩ := bind_eq_ok.1 e
      obtain ⟨rfl, rfl⟩ := Prod.mk.inj (Except.ok.inj e)
      rw [require_pos (by exact require_eq_ok.1 e1), ok_bind]
      refine ⟨_, rfl, h.withSup (mapFoot_moved h.sup left fun u u' k => ?_) (Sup.mapFoot_frame _ _ _).1⟩
      unfold Foot.setState
      dsimp only
      refine ⟨?_, ?_, ?_, k.fx, k.fy, k.maxHeight, k.kin, k.cop⟩
      all_goals first | rfl | exact k.x | exact k.y | exact k.z | (dsimp only; rw [k.z])
  | setComState ax v =>
    cases ax
    · unfold HWalkgen.step HCall.moved at *
      dsimp only at e ⊢
      obtain ⟨l1, e1, e⟩ := bind_eq_ok.1 e
      obtain ⟨rfl, rfl⟩ := Prod.mk.inj (Except.ok.inj e)
      unfold Lip.setStateX at e1 ⊢
      obtain ⟨_, e2, e1⟩ := bind_eq_ok.1 e1
      obtain rfl := Except.ok.inj e1
      rw [show require ((moveFirst v a).size = 3) = _ from e2, ok_bind, pure_bind, hl]
      exact ⟨_, rfl, h.withLip rfl⟩
    · unfold HWalkgen.step HCall.moved at *
      dsimp only at e ⊢
      obtain ⟨l1, e1, e⟩ := bind_eq_ok.1 e
      obtain ⟨rfl, rfl⟩ := Prod.mk.inj (Except.ok.inj e)
      unfold Lip.setStateY at e1 ⊢
      obtain ⟨_, e2, e1⟩ := bind_eq_ok.1 e1
      obtain rfl := Except.ok.inj e1
      rw [show require ((moveFirst v b).size = 3) = _ from e2, ok_bind, pure_bind, hl]
      exact ⟨_, rfl, h.withLip rfl⟩
    · unfold HWalkgen.step HCall.moved at *
      dsimp only at e ⊢
      obtain ⟨_, r1, e⟩ := bind_eq_ok.1 e
      obtain ⟨_, r2, e⟩ := bind_eq_ok.1 e
      obtain ⟨_, r3, e⟩ := bind_eq_ok.1 e
      obtain ⟨l1, e1, e⟩ := bind_eq_ok.1 e
      obtain ⟨rfl, rfl⟩ := Prod.mk.inj (Except.ok.inj e)
      unfold Lip.setComHeight at e1 ⊢
      have e2 := Lip.refreshCop_move (a := a) (b := b) e1
      rw [r1, ok_bind, r2, ok_bind, r3, ok_bind, hl]
      have e3 : Lip.refreshCop { lipMove a b w.lip with
        comHeight := v.get 0, z := { (lipMove a b w.lip).z with p := v.get 0 } } = .ok (lipMove a b l1) := e2
      rw [e3, ok_bind]
      exact ⟨_, rfl, h.withLip rfl⟩
  | setWeightings wt =>
    unfold HWalkgen.step HCall.moved at *
    dsimp only at e ⊢
    obtain ⟨_, r1, e⟩ := bind_eq_ok.1 e
    obtain ⟨_, r2, e⟩ := bind_eq_ok.1 e
    obtain ⟨_, r3, e⟩ := bind_eq_ok.1 e
    obtain ⟨rfl, rfl⟩ := Prod.mk.inj (Except.ok.inj e)
    rw [h.weighting, r1, ok_bind, r2, ok_bind, r3, ok_bind]
    exact ⟨_, rfl, h.sup, h.lip, h.plan, h.even, h.velRef, h.boundSize, rfl, h.withCop, h.withFeet, h.maxCtr, h.first,
      h.calls, h.dX, h.solvers, h.qps⟩
  | setConfig c1 c2 =>
    obtain ⟨rfl, rfl⟩ := Prod.mk.inj (Except.ok.inj e)
    exact ⟨_, rfl, table_moved ⟨h.sup, h.lip, h.plan, h.even, h.velRef, h.boundSize, h.weighting, rfl, rfl, h.maxCtr,
      h.first, h.calls, h.dX, h.solvers, h.qps⟩⟩
  | setMove m =>
    unfold HWalkgen.step HCall.moved at *
    dsimp only at e ⊢
    obtain ⟨ds, e1, e⟩ := bind_eq_ok.1 e
    obtain ⟨rfl, rfl⟩ := Prod.mk.inj (Except.ok.inj e)
    have hs : SupMoved a b (w.sup.setMove m) (w'.sup.setMove m) := by
      obtain ⟨L, R, v, hs, hL, hR⟩ := h.sup.with_eq
      rw [hs]
      exact ⟨rfl, hL, hR⟩
    rw [isInDS_moved hs, e1, ok_bind]
    exact ⟨_, rfl, hs, h.lip, h.plan, h.even, h.velRef, h.boundSize, h.weighting, h.withCop, h.withFeet, h.maxCtr, by
      dsimp only
      rw [h.first], h.calls, h.dX, h.solvers, h.qps⟩

end MPC
