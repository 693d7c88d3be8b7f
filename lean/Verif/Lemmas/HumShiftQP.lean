import Verif.Lemmas.HumShiftFeet
import Verif.Lemmas.ZebGives

/-! # The QP of a moved generator -/

set_option linter.unusedSectionVars false

namespace MPC

open Finset Spec

variable {K : Type} [Field K] [LinearOrder K] [IsStrictOrderedRing K] {a b : K}

/-! ### Operations on QPs with the same entries -/

theorem QPMatrices.Same.refl (q : QPMatrices K) : q.Same q :=
  ⟨⟨rfl, rfl, fun _ _ _ _ => rfl⟩, ⟨rfl, fun _ _ => rfl⟩, ⟨rfl, fun _ _ => rfl⟩, ⟨rfl, fun _ _ => rfl⟩,
    ⟨rfl, rfl, fun _ _ _ _ => rfl⟩, ⟨rfl, fun _ _ => rfl⟩, ⟨rfl, fun _ _ => rfl⟩⟩

theorem QPMatrices.Same.dims {q q' : QPMatrices K} (h : q.Same q') {n m : ℕ}
    (hd : q.DimensionsAreConsistent n m) : q'.DimensionsAreConsistent n m := by
  obtain ⟨h1, h2, h3, h4, h5, h6, h7⟩ := h
  unfold QPMatrices.DimensionsAreConsistent at hd ⊢
  rw [← h1.1, ← h1.2.1, ← h2.1, ← h3.1, ← h4.1, ← h5.1, ← h5.2.1, ← h6.1, ← h7.1]
  exact hd

theorem addObjective_moved {q q' r : QPMatrices K} {w : K} {h : Res (Mat K)} {g g' : Res (Vec K)} (hq : q.Same q')
    (hg : 0 < w → ∀ H G, h = .ok H → g = .ok G → ∃ G', g' = .ok G' ∧ G.Same G') (e : q.addObjective w h g = .ok r) :
    ∃ r', q'.addObjective w h g' = .ok r' ∧ r.Same r' := by
  unfold QPMatrices.addObjective at e ⊢
  by_cases hw : 0 < w
  · rw [if_pos hw] at e ⊢
    obtain ⟨H, eH, e⟩ := bind_eq_ok.1 e
    obtain ⟨Q, eQ, e⟩ := bind_eq_ok.1 e
    obtain ⟨G, eG, e⟩ := bind_eq_ok.1 e
    obtain ⟨p, ep, e⟩ := bind_eq_ok.1 e
    obtain rfl := Except.ok.inj e
    obtain ⟨G', eG', hG⟩ := hg hw H G eH eG
    unfold Mat.add? at eQ
    obtain ⟨_, s1, eQ⟩ := bind_eq_ok.1 eQ
    obtain rfl := Except.ok.inj eQ
    have s1 := requireSize_eq_ok.1 s1
    obtain ⟨s2, rfl⟩ := Vec.add?_eq_ok ep
    rw [eH, ok_bind, eG']
    unfold Mat.add? Vec.add?
    rw [requireSize_pos ⟨hq.Q.1.symm.trans s1.1, hq.Q.2.1.symm.trans s1.2⟩, ok_bind]
    simp only [pure_bind, ok_bind]
    rw [requireSize_pos (show q'.p.size = (Vec.smul w G').size from
      hq.p.1.symm.trans (s2.trans hG.1)), ok_bind]
    refine ⟨_, rfl, ⟨hq.Q.1, hq.Q.2.1, fun i hi j hj => ?_⟩, ⟨hq.p.1, fun i hi => ?_⟩, hq.xl, hq.xu, hq.A, hq.bu,
      hq.bl⟩
    · exact congrArg (· + (Mat.smul w H).get i j) (hq.Q.2.2 i hi j hj)
    · have hi' : i < G.size := by
        have : i < q.p.size := hi
        rw [s2] at this
        exact this
      exact congrArg₂ (· + ·) (hq.p.2 i hi) (congrArg (w * ·) (hG.2 i hi'))
  · rw [if_neg hw] at e ⊢
    obtain rfl := Except.ok.inj e
    exact ⟨_, rfl, hq⟩

/-- The same entries. -/
structure ConstraintAt.Same (c c' : ConstraintAt K) : Prop where
  A : c.A.Same c'.A
  f : c.f.Same c'.f
  inf : c.inf.Same c'.inf
  sup : c.sup.Same c'.sup

theorem addConstraint_moved {q q' r : QPMatrices K} {r0 n c0 len sz : ℕ} {c c' : ConstraintAt K} (hq : q.Same q')
    (hc : c.Same c') (e : q.addConstraint r0 n c0 len sz c = .ok r) :
    ∃ r', q'.addConstraint r0 n c0 len sz c' = .ok r' ∧ r.Same r' := by
  obtain ⟨⟨z1, z2, z3, z4, z5, z6, z7, z8, z9, z10⟩, rfl⟩ := addConstraint_ok e
  obtain ⟨h1, h2, h3, h4, h5, h6, h7⟩ := hq
  obtain ⟨c1, c2, c3, c4⟩ := hc
  have y1 := h5.1
  have y2 := h5.2.1
  have y3 := h6.1
  have y4 := h3.1
  have y5 := h4.1
  have y6 := c1.1
  have y7 := c1.2.1
  have y8 := c2.1
  have y9 := c3.1
  have y10 := c4.1
  have e' : ∃ r', q'.addConstraint r0 n c0 len sz c' = .ok r' := by
    unfold QPMatrices.addConstraint Mat.addBlock?
    rw [requireIndex_pos ⟨by omega, by omega⟩, ok_bind, requireSize_pos ⟨by omega, by omega⟩]
    simp only [ok_bind, pure_bind]
    rw [Vec.segment?_ok (by omega), ok_bind]
    unfold Vec.cwiseMin? Vec.cwiseMax?
    rw [requireSize_pos (show n = c'.f.neg.size from (z6.symm.trans y8))]
    simp only [ok_bind, pure_bind]
    rw [Vec.setSegment?_ok (by omega) (by rfl), ok_bind, Vec.segment?_ok (by omega), ok_bind, requireSize_pos (show len = c'.inf.size by omega)]
    simp only [ok_bind, pure_bind]
    rw [Vec.setSegment?_ok (by omega) (by rfl), ok_bind, Vec.segment?_ok (by omega), ok_bind, requireSize_pos (show len = c'.sup.size by omega)]
    simp only [ok_bind, pure_bind]
    rw [Vec.setSegment?_ok (by omega) (by rfl)]
    exact ⟨_, rfl⟩
  obtain ⟨r', e'⟩ := e'
  refine ⟨r', e', ?_⟩
  obtain ⟨-, rfl⟩ := addConstraint_ok e'
  refine ⟨h1, h2, ⟨y4, fun i hi => ?_⟩, ⟨y5, fun i hi => ?_⟩, ⟨y1, y2, fun i hi j hj => ?_⟩, ⟨y3, fun i hi => ?_⟩, h7⟩
  · dsimp only at hi ⊢
    split_ifs with k
    · rw [h3.2 _ (by omega), c3.2 _ (by omega)]
    · exact h3.2 i hi
  · dsimp only at hi ⊢
    split_ifs with k
    · rw [h4.2 _ (by omega), c4.2 _ (by omega)]
    · exact h4.2 i hi
  · dsimp only at hi hj ⊢
    split_ifs with k
    · rw [h5.2.2 _ hi _ hj, c1.2.2 _ (by omega) _ (by omega)]
    · exact h5.2.2 i hi j hj
  · dsimp only at hi ⊢
    split_ifs with k
    · rw [h6.2 _ (by omega), c2.2 _ (by omega)]
    · exact h6.2 i hi

theorem normalize_moved [FloorRing K] {q q' r : QPMatrices K} {ε : K} (hq : q.Same q') (e : normalizeMatrices q ε = .ok r) :
    ∃ r', normalizeMatrices q' ε = .ok r' ∧ r.Same r' := by
  unfold normalizeMatrices getNormalizationFactor at e ⊢
  rw [← smallestSignificant_congr hq.Q, ← smallestSignificant_congr hq.A]
  obtain ⟨fo, eo, e⟩ := bind_eq_ok.1 e
  obtain ⟨fc, ec, e⟩ := bind_eq_ok.1 e
  obtain rfl := Except.ok.inj e
  rw [eo, ok_bind, ec, ok_bind]
  refine ⟨_, rfl, ⟨hq.Q.1, hq.Q.2.1, fun i hi j hj => ?_⟩, ⟨hq.p.1, fun i hi => ?_⟩, hq.xl, hq.xu,
    ⟨hq.A.1, hq.A.2.1, fun i hi j hj => ?_⟩, ⟨hq.bu.1, fun i hi => ?_⟩, ⟨hq.bl.1, fun i hi => ?_⟩⟩
  · exact congrArg (fo * ·) (hq.Q.2.2 i hi j hj)
  · exact congrArg (fo * ·) (hq.p.2 i hi)
  · exact congrArg (fc * ·) (hq.A.2.2 i hi j hj)
  · exact congrArg (fc * ·) (hq.bu.2 i hi)
  · exact congrArg (fc * ·) (hq.bl.2 i hi)

/-! ### Constraints -/

theorem copConstraint_moved {hull : Vec (Pt K) → Res (Polygon K)} {l l' : Lip K} {s s' : Sup K} {bs : ℕ}
    {X X' : Vec K} {c : ConstraintAt K} (hl : l'.N = l.N) (hN : s'.N = s.N) (hM : s'.M = s.M)
    (hps : s'.copPolygons hull l.N = s.copPolygons hull l.N) (hz : X'.size = X.size)
    (hX : ∀ i < 2 * l.N, X'.get i = X.get i) (e : copConstraint hull l s bs X = .ok c) :
    ∃ c', copConstraint hull l' s' bs X' = .ok c' ∧ c.Same c' := by
  have hok := copConstraint_ok e
  unfold copConstraint at e
  obtain ⟨_, e1, e⟩ := bind_eq_ok.1 e
  obtain ⟨_, e2, e⟩ := bind_eq_ok.1 e
  obtain ⟨ps, e3, e⟩ := bind_eq_ok.1 e
  obtain ⟨r, e4, e⟩ := bind_eq_ok.1 e
  obtain ⟨m, e5, e⟩ := bind_eq_ok.1 e
  obtain ⟨f, e6, e⟩ := bind_eq_ok.1 e
  obtain ⟨x0, e7, e⟩ := bind_eq_ok.1 e
  obtain ⟨⟨inf, sup⟩, e8, e⟩ := bind_eq_ok.1 e
  obtain rfl := Except.ok.inj e
  have e1 := require_eq_ok.1 e1
  have e2 := require_eq_ok.1 e2
  obtain ⟨z7, rfl⟩ := Vec.segment?_eq_ok e7
  obtain ⟨z5, rfl⟩ := Mat.mulVec?_eq_ok e5
  obtain ⟨z6, rfl⟩ := Vec.add?_eq_ok e6
  obtain ⟨g1, g2, g3, -⟩ := generalRows_ok (copStep_spec l.N) e4
  unfold copBounds at e8
  obtain ⟨_, b1, e8⟩ := bind_eq_ok.1 e8
  obtain ⟨_, b2, e8⟩ := bind_eq_ok.1 e8
  obtain ⟨i1, b3, e8⟩ := bind_eq_ok.1 e8
  obtain ⟨i2, b4, e8⟩ := bind_eq_ok.1 e8
  obtain ⟨z3, rfl⟩ := Vec.sub?_eq_ok b3
  obtain ⟨z4, rfl⟩ := Vec.sub?_eq_ok b4
  obtain ⟨rfl, rfl⟩ := Prod.mk.inj (Except.ok.inj e8)
  have b2 := requireIndex_eq_ok.1 b2
  dsimp only at z3 z4
  have E : ∃ c', copConstraint hull l' s' bs X' = .ok c' ∧ c'.A = r.A ∧ c'.f.size = r.A.rows ∧ c'.inf.size = bs ∧
      c'.sup.size = bs := by
    unfold copConstraint
    rw [hl, hN, hM, hz, hps, require_pos e1, ok_bind, require_pos e2, ok_bind, e3, ok_bind, e4, ok_bind]
    unfold Mat.mulVec?
    rw [requireSize_pos (z5.trans hz.symm)]
    simp only [ok_bind, pure_bind]
    rw [Vec.add?_ok (by exact z6), ok_bind, Vec.segment?_ok (by rw [hz]; exact z7), ok_bind]
    unfold copBounds
    dsimp only
    rw [require_pos rfl, ok_bind, requireIndex_pos b2, ok_bind, Vec.sub?_ok (by exact z3), ok_bind, Vec.sub?_ok (by exact z4)]
    exact ⟨_, rfl, rfl, rfl, rfl, rfl⟩
  obtain ⟨c', ec, cA, cf, ci, cs⟩ := E
  refine ⟨c', ec, ⟨by rw [cA], by rw [cA], fun i _ j _ => by rw [cA]⟩, ?_, ?_, ?_⟩
  all_goals
    obtain ⟨-, -, qs, p1, p2, p3, p4⟩ := hok
    obtain ⟨-, -, qs', p1', p2', p3', p4'⟩ := copConstraint_ok ec
    rw [hl, hps] at p1'
    obtain rfl := Except.ok.inj (p1'.symm.trans p1)
    obtain rfl := Except.ok.inj (p1.symm.trans e3)
    rw [hl] at p3' p4'
  · refine ⟨cf.symm, fun k hk => ?_⟩
    have hk : k < nbRows qs' := g1 ▸ hk
    refine (forall_rows qs' (fun k => _ = c'.f.get k)).2 (fun i hi t ht => ?_) k hk
    rw [p2] at hi
    rw [(p4 i hi t ht).2, (p4' i hi t ht).2, hX i (by omega), hX (l.N + i) (by omega)]
  · refine ⟨ci.symm, fun k hk => ?_⟩
    have hk : k < 2 * l.N := z3 ▸ hk
    by_cases h : k < l.N
    · rw [(p3 k h).1, (p3' k h).1, hX k (by omega)]
    · obtain ⟨j, rfl⟩ := Nat.exists_eq_add_of_le (not_lt.1 h)
      rw [(p3 j (by omega)).2.1, (p3' j (by omega)).2.1, hX _ (by omega)]
  · refine ⟨cs.symm, fun k hk => ?_⟩
    have hk : k < 2 * l.N := z3 ▸ hk
    by_cases h : k < l.N
    · rw [(p3 k h).2.2.1, (p3' k h).2.2.1, hX k (by omega)]
    · obtain ⟨j, rfl⟩ := Nat.exists_eq_add_of_le (not_lt.1 h)
      rw [(p3 j (by omega)).2.2.2, (p3' j (by omega)).2.2.2, hX _ (by omega)]

theorem footRows_moved {N M n : ℕ} {sx sy sx' sy' : K} {ps : Vec (Polygon K)} {r₀ : Rows K} :
    ∀ (k : ℕ) {r : Rows K}, rowsLoop (footStep N M sx sy) ps r₀ k = .ok r →
      ∃ r', rowsLoop (footStep N M sx' sy') ps r₀ k = .ok r' ∧ r'.A = r.A ∧ r'.b.size = r.b.size ∧ r'.since = r.since
  | 0, r, e => by
    obtain rfl := Except.ok.inj e
    exact ⟨_, rfl, rfl, rfl, rfl⟩
  | k + 1, r, e => by
    unfold rowsLoop at e ⊢
    obtain ⟨r1, e1, e⟩ := bind_eq_ok.1 e
    obtain ⟨g, e2, e⟩ := bind_eq_ok.1 e
    obtain ⟨r1', e1', hA, hb, hs⟩ := footRows_moved (sx' := sx') (sy' := sy') (n := n) k e1
    rw [e1', ok_bind, e2, ok_bind]
    unfold footStep at e ⊢
    dsimp only at e ⊢
    obtain ⟨_, e3, e⟩ := bind_eq_ok.1 e
    obtain ⟨_, e4, e⟩ := bind_eq_ok.1 e
    obtain rfl := Except.ok.inj e
    rw [e3, ok_bind, hA, hb, hs, e4, ok_bind]
    exact ⟨_, rfl, rfl, rfl, rfl⟩

theorem footConstraint_moved {l l' : Lip K} {s s' : Sup K} {X X' : Vec K} {c : ConstraintAt K} (hl : l'.N = l.N)
    (hN : s'.N = s.N) (hM : s'.M = s.M) (h : SupMoved a b s s') (hz : X'.size = X.size)
    (hx : ∀ i < s.M, X'.get (2 * l.N + i) = X.get (2 * l.N + i) + a)
    (hy : ∀ i < s.M, X'.get (2 * l.N + s.M + i) = X.get (2 * l.N + s.M + i) + b)
    (e : footConstraint l s X = .ok c) : ∃ c', footConstraint l' s' X' = .ok c' ∧ c.Same c' := by
  have hok := footConstraint_ok e
  unfold footConstraint at e
  obtain ⟨_, e1, e⟩ := bind_eq_ok.1 e
  obtain ⟨_, e2, e⟩ := bind_eq_ok.1 e
  obtain ⟨ps, e3, e⟩ := bind_eq_ok.1 e
  obtain ⟨px, ex, e⟩ := bind_eq_ok.1 e
  obtain ⟨py, ey, e⟩ := bind_eq_ok.1 e
  obtain ⟨r, e4, e⟩ := bind_eq_ok.1 e
  obtain ⟨m, e5, e⟩ := bind_eq_ok.1 e
  obtain ⟨f, e6, e⟩ := bind_eq_ok.1 e
  obtain ⟨x0, e7, e⟩ := bind_eq_ok.1 e
  obtain ⟨⟨inf, sup⟩, e8, e⟩ := bind_eq_ok.1 e
  obtain rfl := Except.ok.inj e
  have e1 := require_eq_ok.1 e1
  have e2 := require_eq_ok.1 e2
  obtain ⟨z7, rfl⟩ := Vec.segment?_eq_ok e7
  obtain ⟨z5, rfl⟩ := Mat.mulVec?_eq_ok e5
  obtain ⟨z6, rfl⟩ := Vec.add?_eq_ok e6
  obtain ⟨g1, g2, g3, -⟩ := generalRows_ok (footStep_spec s.N s.M px.p py.p) e4
  obtain ⟨px', ex', hpx⟩ := supportX_moved h ex
  obtain ⟨py', ey', hpy⟩ := supportY_moved h ey
  obtain ⟨r', e4', hA, hb, -⟩ := footRows_moved (n := X.size) (sx' := px'.p) (sy' := py'.p) ps.size e4
  unfold footBounds at e8
  obtain ⟨_, b1, e8⟩ := bind_eq_ok.1 e8
  obtain ⟨i1, b3, e8⟩ := bind_eq_ok.1 e8
  obtain ⟨i2, b4, e8⟩ := bind_eq_ok.1 e8
  obtain ⟨z3, rfl⟩ := Vec.sub?_eq_ok b3
  obtain ⟨z4, rfl⟩ := Vec.sub?_eq_ok b4
  obtain ⟨rfl, rfl⟩ := Prod.mk.inj (Except.ok.inj e8)
  have E : ∃ c', footConstraint l' s' X' = .ok c' ∧ c'.A = r.A ∧ c'.f.size = r.A.rows ∧ c'.inf.size = 2 * s.M ∧
      c'.sup.size = 2 * s.M := by
    unfold footConstraint
    rw [hl, hN, hM, hz, kinPolygons_moved h, require_pos e1, ok_bind, require_pos e2, ok_bind, e3, ok_bind, ex', ok_bind,
      ey', ok_bind]
    dsimp only
    rw [show generalRows (footStep s.N s.M px'.p py'.p) ps X.size = .ok r' from e4', ok_bind]
    unfold Mat.mulVec?
    rw [requireSize_pos (by rw [hA, hz]; exact z5)]
    simp only [ok_bind, pure_bind]
    rw [Vec.add?_ok (by dsimp only; rw [hA, hb]; exact z6), ok_bind, Vec.segment?_ok (by rw [hz]; exact z7), ok_bind]
    unfold footBounds
    dsimp only
    rw [require_pos rfl, ok_bind, Vec.sub?_ok (by rfl), ok_bind, Vec.sub?_ok (by rfl)]
    exact ⟨_, rfl, hA, by dsimp only; rw [hA], rfl, rfl⟩
  obtain ⟨c', ec, cA, cf, ci, cs⟩ := E
  have prev : ∀ k, 0 < k → k < s.M → X'.get (2 * l.N + k - 1) = X.get (2 * l.N + k - 1) + a ∧
      X'.get (2 * l.N + s.M + k - 1) = X.get (2 * l.N + s.M + k - 1) + b := by
    intro k h0 hk
    obtain ⟨j, rfl⟩ : ∃ j, k = j + 1 := ⟨k - 1, by omega⟩
    exact ⟨hx j (by omega), hy j (by omega)⟩
  refine ⟨c', ec, ⟨by rw [cA], by rw [cA], fun i _ j _ => by rw [cA]⟩, ?_, ?_, ?_⟩
  all_goals
    obtain ⟨-, -, qs, sx, sy, p1, p2, px1, py1, p3, p4⟩ := hok
    obtain ⟨-, -, qs', sx', sy', p1', p2', px1', py1', p3', p4'⟩ := footConstraint_ok ec
    rw [kinPolygons_moved h] at p1'
    obtain rfl := Except.ok.inj (p1'.symm.trans p1)
    obtain rfl := Except.ok.inj (p1.symm.trans e3)
    obtain rfl := Except.ok.inj (px1.symm.trans ex)
    obtain rfl := Except.ok.inj (py1.symm.trans ey)
    obtain rfl := Except.ok.inj (px1'.symm.trans ex')
    obtain rfl := Except.ok.inj (py1'.symm.trans ey')
    rw [hl, hM] at p3' p4'
  · refine ⟨cf.symm, fun k hk => ?_⟩
    have hk : k < nbRows qs' := g1 ▸ hk
    refine (forall_rows qs' (fun k => _ = c'.f.get k)).2 (fun i hi t ht => ?_) k hk
    rw [p2] at hi
    have ho : stepOffset l.N s.M sx'.p sy'.p X'.get i = stepOffset l.N s.M sx.p sy.p X.get i := by
      unfold stepOffset
      rw [hx i hi, hy i hi, hpx, hpy]
      by_cases h0 : i = 0
      · rw [if_pos h0, if_pos h0, if_pos h0, if_pos h0, add_sub_add_right_eq_sub, add_sub_add_right_eq_sub]
      · rw [if_neg h0, if_neg h0, if_neg h0, if_neg h0, (prev i (by omega) hi).1, (prev i (by omega) hi).2,
          add_sub_add_right_eq_sub, add_sub_add_right_eq_sub]
    rw [(p4 i hi t ht).2, (p4' i hi t ht).2, ho]
  · refine ⟨ci.symm, fun k hk => ?_⟩
    have hk : k < 2 * s.M := hk
    by_cases h : k < s.M
    · rw [(p3 k h).1, (p3' k h).1, hx k h, hpx]
      split_ifs with h0
      · ring
      · rw [(prev k (by omega) h).1]; ring
    · obtain ⟨j, rfl⟩ := Nat.exists_eq_add_of_le (not_lt.1 h)
      rw [(p3 j (by omega)).2.1, (p3' j (by omega)).2.1, hy j (by omega), hpy]
      split_ifs with h0
      · ring
      · rw [(prev j (by omega) (by omega)).2]; ring
  · refine ⟨cs.symm, fun k hk => ?_⟩
    have hk : k < 2 * s.M := hk
    by_cases h : k < s.M
    · rw [(p3 k h).2.2.1, (p3' k h).2.2.1, hx k h, hpx]
      split_ifs with h0
      · ring
      · rw [(prev k (by omega) h).1]; ring
    · obtain ⟨j, rfl⟩ := Nat.exists_eq_add_of_le (not_lt.1 h)
      rw [(p3 j (by omega)).2.2.2, (p3' j (by omega)).2.2.2, hy j (by omega), hpy]
      split_ifs with h0
      · ring
      · rw [(prev j (by omega) (by omega)).2]; ring

end MPC
