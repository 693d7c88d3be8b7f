import Verif.Lemmas.HumShiftQP
import Verif.Props.HumCost

/-! # `solve` on a moved generator -/

set_option linter.unusedSectionVars false

namespace MPC

open Finset Spec

variable {K : Type} [Field K] [LinearOrder K] [IsStrictOrderedRing K] [FloorRing K] {a b : K}

/-! ### Objectives -/

theorem mv_shift {A : Mat K} (hc : A.cols = 3) (st : State3 K) (δ : K) (i : ℕ) :
    mv A (State3.shift st δ).toVec.get i = mv A st.toVec.get i + A.get i 0 * δ := by
  unfold mv
  rw [hc]
  simp only [sum_range_succ, range_zero, sum_empty, State3.toVec, State3.shift]
  norm_num
  ring

theorem copX_column {l : Lip K} (hf : l.Fresh) (hm : l.mass = 1) (ht : l.totalMass = 1) {nb : ℤ}
    {d : LinearDynamic K} (hd : l.dyn l.copX nb = .ok d) (i : ℕ) : d.S.get i 0 = 1 := by
  obtain ⟨k, -, hk, rfl⟩ := Lip.dyn_ok hd
  rw [hf.copX k hk]
  simp [copDyn, copS, hm, ht]

theorem copY_column {l : Lip K} (hf : l.Fresh) (hm : l.mass = 1) (ht : l.totalMass = 1) {nb : ℤ}
    {d : LinearDynamic K} (hd : l.dyn l.copY nb = .ok d) (i : ℕ) : d.S.get i 0 = 1 := by
  obtain ⟨k, -, hk, rfl⟩ := Lip.dyn_ok hd
  rw [hf.copY k hk]
  simp [copDyn, copS, hm, ht]

theorem vel_column {l : Lip K} (hf : l.Fresh) {nb : ℤ} {d : LinearDynamic K} (hd : l.dyn l.vel nb = .ok d) :
    d.S.rows = l.N ∧ d.S.cols = 3 ∧ ∀ i, d.S.get i 0 = 0 := by
  obtain ⟨k, -, hk, rfl⟩ := Lip.dyn_ok hd
  rw [hf.vel k hk]
  exact ⟨rfl, rfl, fun i => by simp [velDyn, velS]⟩

/-- Moving the plan, the support and the CoM does not change the jerks. -/
theorem axisJerk_moved {N M : ℕ} {B V V0 : Mat K} {d : LinearDynamic K} (hd : AxisDyn N d B)
    (h1 : ∀ i, d.S.get i 0 = 1) (hc : ∀ i < N, V0.get i 0 + ∑ c ∈ range M, V.get i c = 1) {o f : ℕ} {s0 s0' δ : K}
    (hs : s0' = s0 + δ) (st : State3 K) {Y Y' : ℕ → K} (h2 : ∀ i < N, Y' (o + i) = Y (o + i))
    (h3 : ∀ c < M, Y' (f + c) = Y (f + c) + δ) :
    axisJerk B V0 d s0' (State3.shift st δ) (planT M V o f Y') = axisJerk B V0 d s0 st (planT M V o f Y) := by
  funext k
  refine mv_congr (fun i hi => ?_) k
  rw [hd.cols] at hi
  unfold planT axisOff
  rw [mv_shift hd.Sc, h1, h2 i hi, hs]
  have e : ∑ c ∈ range M, V.get i c * Y' (f + c) = ∑ c ∈ range M, V.get i c * Y (f + c) + δ * ∑ c ∈ range M, V.get i c := by
    rw [mul_sum, ← sum_add_distrib]
    exact sum_congr rfl fun c hc => by rw [h3 c (mem_range.1 hc)]; ring
  rw [e]
  have := hc i hi
  linear_combination δ * this

theorem dot_unit (n : ℕ) (x : ℕ → K) {i : ℕ} (hi : i < n) : dot n x (fun j => if j = i then 1 else 0) = x i := by
  unfold dot
  rw [sum_eq_single i (fun j _ hj => by simp [hj]) (fun h => absurd (mem_range.2 hi) h)]
  simp

/-- Two gradients that give the same cost are the same. -/
theorem gradient_same {n : ℕ} {G G' : Vec K} (h1 : G.size = n) (h2 : G'.size = n)
    (h : ∀ x : ℕ → K, dot n G.get x = dot n G'.get x) : G.Same G' :=
  ⟨h1.trans h2.symm, fun i hi => by
    have := h fun j => if j = i then 1 else 0
    rwa [dot_unit n _ (h1 ▸ hi), dot_unit n _ (h1 ▸ hi)] at this⟩

section Solve

variable {w w' : HWalkgen K} {nb : ℤ} {dx dy : LinearDynamic K} {Bx By : Mat K} {px py : State3 K}

/-- What the moved generator reads. -/
theorem HumData.moved {l l' : Lip K} {s s' : Sup K} (h : HumData l s nb dx dy Bx By px py) (hs : SupMoved a b s s')
    (hl : l' = { l with x := State3.shift l.x a, y := State3.shift l.y b }) :
    ∃ px' py', HumData l' s' nb dx dy Bx By px' py' ∧ px'.p = px.p + a ∧ py'.p = py.p + b := by
  obtain ⟨px', e1, h1⟩ := supportX_moved hs h.hpx
  obtain ⟨py', e2, h2⟩ := supportY_moved hs h.hpy
  subst hl
  obtain ⟨L, R, v, hs', -, -⟩ := hs.with_eq
  subst hs'
  exact ⟨px', py', ⟨h.hnb, h.hdx, h.hdy, h.hBx, h.hBy, e1, e2⟩, h1, h2⟩

/-- The decision vectors of a generator and of the moved one, at the sizes read by the objectives. -/
structure PlansMoved (a b : K) (N M : ℕ) (Y Y' : ℕ → K) : Prop where
  cop : ∀ i < 2 * N, Y' i = Y i
  x : ∀ i < M, Y' (2 * N + i) = Y (2 * N + i) + a
  y : ∀ i < M, Y' (2 * N + M + i) = Y (2 * N + M + i) + b

theorem PlansMoved.add {N M : ℕ} {Y Y' : ℕ → K} (h : PlansMoved a b N M Y Y') (x : ℕ → K) :
    PlansMoved a b N M (fun i => Y i + x i) (fun i => Y' i + x i) :=
  ⟨fun i hi => by rw [h.cop i hi], fun i hi => by rw [h.x i hi]; ring, fun i hi => by rw [h.y i hi]; ring⟩

theorem jerks_moved {l l' : Lip K} {s s' : Sup K} (hD : HumData l s nb dx dy Bx By px py) (hf : l.Fresh)
    (hm : l.mass = 1) (ht : l.totalMass = 1) (hs : SupMoved a b s s') (hN : s.N = l.N) (hc : Covered s)
    (hl : l' = { l with x := State3.shift l.x a, y := State3.shift l.y b }) {px' py' : State3 K}
    (hx : px'.p = px.p + a) (hy : py'.p = py.p + b) {Y Y' : ℕ → K} (hY : PlansMoved a b l.N s.M Y Y') :
    jerkX l' s' dx Bx px' Y' = jerkX l s dx Bx px Y ∧ jerkY l' s' dy By py' Y' = jerkY l s dy By py Y := by
  subst hl
  obtain ⟨L, R, v, hs', -, -⟩ := hs.with_eq
  subst hs'
  rw [Covered, hN] at hc
  exact ⟨axisJerk_moved hD.hBx (copX_column hf hm ht hD.hdx) hc hx l.x
      (fun i hi => by rw [Nat.zero_add]; exact hY.cop i (by omega)) hY.x,
    axisJerk_moved hD.hBy (copY_column hf hm ht hD.hdy) hc hy l.y
      (fun i hi => hY.cop _ (show l.N + i < 2 * l.N by omega)) hY.y⟩

theorem axisVel_moved {l : Lip K} (hf : l.Fresh) {dv : LinearDynamic K} (hdv : l.dyn l.vel nb = .ok dv)
    (st : State3 K) (δ : K) (J : ℕ → K) (k : ℕ) : axisVel dv (State3.shift st δ) J k = axisVel dv st J k := by
  obtain ⟨-, h2, h3⟩ := vel_column hf hdv
  unfold axisVel
  rw [mv_shift h2, h3, zero_mul, add_zero]

theorem Shaped_moved {s s' : Sup K} (hs : SupMoved a b s s') (h : s.Shaped) : s'.Shaped := by
  obtain ⟨L, R, v, hs', -, -⟩ := hs.with_eq
  subst hs'
  obtain ⟨h1, h2, h3, h4, h5, h6, h7, h8, h9⟩ := h
  exact ⟨h1, h2, h3, h4, h5, h6, h7, h8, h9⟩

variable {l l' : Lip K} {s s' : Sup K}

theorem jerkGradient_moved (hD : HumData l s nb dx dy Bx By px py) (hf : l.Fresh) (hm : l.mass = 1)
    (ht : l.totalMass = 1) (hs : SupMoved a b s s') (hSh : s.Shaped) (hN : s.N = l.N) (hc : Covered s)
    (hl : l' = { l with x := State3.shift l.x a, y := State3.shift l.y b }) {X X' : Vec K} (hz : X'.size = X.size)
    (hX : PlansMoved a b l.N s.M X.get X'.get) {H : Mat K} {G : Vec K} (eH : jerkHessian l s = .ok H)
    (eG : jerkGradient l s X = .ok G) : ∃ G', jerkGradient l' s' X' = .ok G' ∧ G.Same G' := by
  obtain ⟨px', py', hD', hx, hy⟩ := hD.moved hs hl
  have hM : s'.M = s.M := by rw [hs.rest]
  have hN' : s'.N = s.N := by rw [hs.rest]
  have hlN : l'.N = l.N := by rw [hl]
  have hW : s'.weight = s.weight := by rw [hs.rest]
  have eH' : jerkHessian l' s' = .ok H := by
    obtain ⟨L, R, v, hs', -, -⟩ := hs.with_eq
    subst hs' hl
    exact eH
  obtain ⟨z1, z2, h1⟩ := jerkGradient_ok hD hSh eH eG
  obtain ⟨G', eG', z3⟩ := jerkGradientE hD' (Shaped_moved hs hSh) (by omega) (X := X') (by omega)
  refine ⟨G', eG', gradient_same z2 (by omega) fun x => ?_⟩
  obtain ⟨-, -, h2⟩ := jerkGradient_ok hD' (Shaped_moved hs hSh) eH' eG'
  have h1 := h1 x
  have h2 := h2 x
  obtain ⟨j1, j2⟩ := jerks_moved hD hf hm ht hs hN hc hl hx hy (hX.add x)
  obtain ⟨j3, j4⟩ := jerks_moved hD hf hm ht hs hN hc hl hx hy hX
  rw [j1, j2, j3, j4, hM, hlN, hW, ← h1] at h2
  linear_combination -h2

theorem velGradient_moved (hD : HumData l s nb dx dy Bx By px py) (hf : l.Fresh) (hm : l.mass = 1)
    (ht : l.totalMass = 1) (hs : SupMoved a b s s') (hSh : s.Shaped) (hN : s.N = l.N) (hc : Covered s)
    (hl : l' = { l with x := State3.shift l.x a, y := State3.shift l.y b }) {X X' ref : Vec K} (hz : X'.size = X.size)
    (hX : PlansMoved a b l.N s.M X.get X'.get) {H : Mat K} {G : Vec K} (eH : velHessian l s = .ok H)
    (eG : velGradient l s ref X = .ok G) : ∃ G', velGradient l' s' ref X' = .ok G' ∧ G.Same G' := by
  obtain ⟨nb1, dx1, dy1, Bx1, By1, px1, py1, dv, hD1, hdv⟩ := vel_data hf eH eG
  obtain ⟨rfl, rfl, rfl, rfl, rfl, rfl, rfl⟩ := humData_unique hD hD1
  obtain ⟨px', py', hD', hx, hy⟩ := hD.moved hs hl
  have hM : s'.M = s.M := by rw [hs.rest]
  have hN' : s'.N = s.N := by rw [hs.rest]
  have hlN : l'.N = l.N := by rw [hl]
  have hlx : l'.x = State3.shift l.x a := by rw [hl]
  have hly : l'.y = State3.shift l.y b := by rw [hl]
  have hW : s'.weight = s.weight := by rw [hs.rest]
  have hdv' : l'.dyn l'.vel nb1 = .ok dv := by subst hl; exact hdv
  have hv := hf.velDyn hdv
  obtain ⟨v1, v2, -⟩ := vel_column hf hdv
  have eH' : velHessian l' s' = .ok H := by
    obtain ⟨L, R, v, hs', -, -⟩ := hs.with_eq
    subst hs' hl
    exact eH
  obtain ⟨zr, z1, z2, h1⟩ := velGradient_ok hD hSh hdv hv eH eG
  obtain ⟨G', eG', z3⟩ := velGradientE hD' hdv' (hlN ▸ hv) (hlN ▸ v1) v2 (Shaped_moved hs hSh) (by omega) (X := X')
    (ref := ref) (by omega) (by omega)
  refine ⟨G', eG', gradient_same z2 (by omega) fun x => ?_⟩
  obtain ⟨-, -, -, h2⟩ := velGradient_ok hD' (Shaped_moved hs hSh) hdv' (hlN ▸ hv) eH' eG'
  have h1 := h1 x
  have h2 := h2 x
  obtain ⟨j1, j2⟩ := jerks_moved hD hf hm ht hs hN hc hl hx hy (hX.add x)
  obtain ⟨j3, j4⟩ := jerks_moved hD hf hm ht hs hN hc hl hx hy hX
  rw [j1, j2, j3, j4, hM, hlN, hW, hlx, hly] at h2
  simp only [axisVel_moved hf hdv] at h2
  rw [← h1] at h2
  linear_combination -h2

theorem centeringGradient_moved (hs : SupMoved a b s s')
    (hl : l' = { l with x := State3.shift l.x a, y := State3.shift l.y b }) {X X' : Vec K} (hz : X'.size = X.size)
    (hX : PlansMoved a b l.N s.M X.get X'.get) {H : Mat K} {G : Vec K} (eH : centeringHessian l s = .ok H)
    (eG : centeringGradient l s X = .ok G) : ∃ G', centeringGradient l' s' X' = .ok G' ∧ G.Same G' := by
  have hM : s'.M = s.M := by rw [hs.rest]
  have hN' : s'.N = s.N := by rw [hs.rest]
  have hlN : l'.N = l.N := by rw [hl]
  have eH' : centeringHessian l' s' = .ok H := by
    obtain ⟨L, R, v, hs', -, -⟩ := hs.with_eq
    subst hs' hl
    exact eH
  have hN : s.N = l.N := by
    unfold centeringGradient at eG
    obtain ⟨_, e1, -⟩ := bind_eq_ok.1 eG
    exact require_eq_ok.1 e1
  obtain ⟨z1, -, -, z2, h1⟩ := centering_ok eH eG
  obtain ⟨G', eG', z3⟩ := centeringGradientE (l := l') (s := s') (by omega) (X := X') (by omega)
  refine ⟨G', eG', gradient_same z2 (by omega) fun x => ?_⟩
  obtain ⟨-, -, -, -, h2⟩ := centering_ok eH' eG'
  have h1 := h1 x
  have h2 := h2 x
  rw [hM, hlN] at h2
  have q1 : ∑ k ∈ range (2 * l.N), (X'.get k + x k) ^ 2 = ∑ k ∈ range (2 * l.N), (X.get k + x k) ^ 2 :=
    sum_congr rfl fun k hk => by rw [hX.cop k (mem_range.1 hk)]
  have q2 : ∑ k ∈ range (2 * l.N), X'.get k ^ 2 = ∑ k ∈ range (2 * l.N), X.get k ^ 2 :=
    sum_congr rfl fun k hk => by rw [hX.cop k (mem_range.1 hk)]
  rw [q1, q2, ← h1] at h2
  linear_combination -h2


theorem fillQP_moved {hull : Vec (Pt K) → Res (Polygon K)} (hi : HumInv w) (hSh : w.sup.Shaped) (hc : Covered w.sup)
    (hD : HumData w.lip w.sup nb dx dy Bx By px py) (hs : SupMoved a b w.sup w'.sup)
    (hl : w'.lip = { w.lip with x := State3.shift w.lip.x a, y := State3.shift w.lip.y b })
    (hz : w'.X.size = w.X.size) (hX : PlansMoved a b w.lip.N w.sup.M w.X.get w'.X.get)
    (hd : w'.sup.dsCopPoints = w.sup.dsCopPoints) (h1 : w'.velRef = w.velRef) (h2 : w'.boundSize = w.boundSize)
    (h3 : w'.weighting = w.weighting) (h4 : w'.withCop = w.withCop) (h5 : w'.withFeet = w.withFeet) {m n : ℕ}
    {q q' r : QPMatrices K} (hq : q'.reset = q.reset) (e : w.fillQP hull m n q = .ok r) :
    ∃ r', w'.fillQP hull m n q' = .ok r' ∧ r.Same r' := by
  have hM : w'.sup.M = w.sup.M := by rw [hs.rest]
  have hN' : w'.sup.N = w.sup.N := by rw [hs.rest]
  have hlN : w'.lip.N = w.lip.N := by rw [hl]
  have eH1 : velHessian w'.lip w'.sup = velHessian w.lip w.sup := by
    rw [hl]
    obtain ⟨L, R, v, hs', -, -⟩ := hs.with_eq
    rw [hs']
    rfl
  have eH2 : jerkHessian w'.lip w'.sup = jerkHessian w.lip w.sup := by
    rw [hl]
    obtain ⟨L, R, v, hs', -, -⟩ := hs.with_eq
    rw [hs']
    rfl
  have eH3 : centeringHessian w'.lip w'.sup = centeringHessian w.lip w.sup := by
    rw [hl]
    obtain ⟨L, R, v, hs', -, -⟩ := hs.with_eq
    rw [hs']
    rfl
  unfold HWalkgen.fillQP at e ⊢
  dsimp only at e ⊢
  rw [hq, h1, h3, eH1, eH2, eH3, hlN, hM]
  obtain ⟨q1, e1, e⟩ := bind_eq_ok.1 e
  obtain ⟨q1', e1', s1⟩ := addObjective_moved (QPMatrices.Same.refl _) (fun _ H G a1 a2 =>
    velGradient_moved hD hi.fresh hi.mass hi.total hs hSh hi.N hc hl hz hX a1 a2) e1
  rw [e1', ok_bind]
  clear e1 e1'
  obtain ⟨q2, e2, e⟩ := bind_eq_ok.1 e
  obtain ⟨q2', e2', s2⟩ := addObjective_moved s1 (fun _ H G a1 a2 =>
    jerkGradient_moved hD hi.fresh hi.mass hi.total hs hSh hi.N hc hl hz hX a1 a2) e2
  rw [e2', ok_bind]
  clear e2 e2'
  obtain ⟨q3, e3, e⟩ := bind_eq_ok.1 e
  obtain ⟨q3', e3', s3⟩ := addObjective_moved s2 (fun _ H G a1 a2 =>
    centeringGradient_moved hs hl hz hX a1 a2) e3
  rw [e3', ok_bind]
  clear e3 e3'
  have feet : ∀ {q4 q4' : QPMatrices K}, q4.Same q4' → (if w.withFeet then do
        let c ← footConstraint w.lip w.sup w.X
        q4.addConstraint m n (2 * w.lip.N) (2 * w.sup.M) (2 * w.lip.N + 2 * w.sup.M) c
      else pure q4) = .ok r → ∃ r', (if w'.withFeet then do
        let c ← footConstraint w'.lip w'.sup w'.X
        q4'.addConstraint m n (2 * w.lip.N) (2 * w.sup.M) (2 * w.lip.N + 2 * w.sup.M) c
      else pure q4') = .ok r' ∧ r.Same r' := by
    intro q4 q4' s4 e
    rw [h5]
    cases hc : w.withFeet
    · rw [hc] at e
      simp only [Bool.false_eq_true, if_false] at e ⊢
      obtain rfl := Except.ok.inj e
      exact ⟨_, rfl, s4⟩
    · rw [hc, if_pos rfl] at e
      rw [if_pos rfl]
      obtain ⟨c, ec, e⟩ := bind_eq_ok.1 e
      obtain ⟨c', ec', sc⟩ := footConstraint_moved hlN hN' hM hs hz hX.x hX.y ec
      rw [ec', ok_bind]
      exact addConstraint_moved s4 sc e
  cases hc : w.withCop
  · rw [hc] at e
    rw [h4, hc]
    simp only [Bool.false_eq_true, if_false] at e ⊢
    exact feet s3 e
  · rw [hc] at e
    rw [h4, hc]
    simp only [if_true] at e ⊢
    obtain ⟨c, ec, e⟩ := bind_eq_ok.1 e
    obtain ⟨q4, e4, e⟩ := bind_eq_ok.1 e
    obtain ⟨c', ec', sc⟩ := copConstraint_moved hlN hN' hM (copPolygons_moved hs hd hull _) hz hX.cop ec
    rw [h2, ec', ok_bind]
    obtain ⟨q4', e4', s4⟩ := addConstraint_moved s3 sc e4
    rw [e4', ok_bind]
    exact feet s4 e

end Solve

end MPC
