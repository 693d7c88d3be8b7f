import Verif.Lemmas.HumRows
import Verif.Spec.Humanoid

/-! # Feasible set of the humanoid QP -/

set_option linter.unusedSectionVars false

namespace MPC

open Finset

variable {K : Type} [Field K] [LinearOrder K] [IsStrictOrderedRing K]

theorem Sup.dsCopPoints_spec {s : Sup K} {p : Vec (Pt K)} (h : s.dsCopPoints = .ok p) :
    ∃ l r t, Spec.DoubleSupport s l r t ∧ Spec.IsUnion s l r t p := by
  have hU : ∀ {l r t : Pt K}, (⟨s.left.cop.vertices.size + s.right.cop.vertices.size, fun i =>
      if i < s.left.cop.vertices.size then
        ⟨(s.left.cop.vertices.get i).x + l.x - t.x, (s.left.cop.vertices.get i).y + l.y - t.y⟩
      else ⟨(s.right.cop.vertices.get (i - s.left.cop.vertices.size)).x + r.x - t.x,
        (s.right.cop.vertices.get (i - s.left.cop.vertices.size)).y + r.y - t.y⟩⟩ : Vec (Pt K)) = p →
      Spec.IsUnion s l r t p := by
    rintro l r t rfl
    refine ⟨rfl, fun i hi => ?_, fun i hi => ?_⟩
    · simp [hi]
    · simp
  unfold Sup.dsCopPoints at h
  obtain ⟨ds, hds, h⟩ := bind_eq_ok.1 h
  obtain ⟨f, hf, hds⟩ := bind_eq_ok.1 hds
  have hf' := listAt_eq_ok.1 hf
  have hds := Except.ok.inj hds
  dsimp only at h
  by_cases hm : s.move = true
  · rw [if_neg (by simp [hm]), if_neg (by simp [hm]), res_pure, ok_bind] at h
    exact ⟨_, _, _, ⟨f, hf', by simp [hm]⟩, hU (Except.ok.inj h)⟩
  · have hm : s.move = false := by simpa using hm
    by_cases hd : f.type = .DS
    · rw [if_neg (by simp [← hds, hd]), if_pos (by simp [← hds, hd, hm]), res_pure, ok_bind] at h
      exact ⟨_, _, _, ⟨f, hf', by simp [hm, hd, add_comm]⟩, hU (Except.ok.inj h)⟩
    · rw [if_pos (by simp [← hds, hd, hm]), hf, ok_bind] at h
      obtain ⟨a, ha, h⟩ := bind_eq_ok.1 h
      obtain ⟨b, hb, h⟩ := bind_eq_ok.1 h
      obtain ⟨_, -, ha'⟩ := bind_eq_ok.1 ha
      obtain ⟨_, -, hb'⟩ := bind_eq_ok.1 hb
      have ha' := Except.ok.inj ha'
      have hb' := Except.ok.inj hb'
      by_cases hl : f.type = .leftSS
      · rw [if_pos hl, res_pure, ok_bind] at h
        exact ⟨_, _, _, ⟨f, hf', by simp [hm, hl, ha', hb']⟩, hU (Except.ok.inj h)⟩
      · rw [if_neg hl, res_pure, ok_bind] at h
        exact ⟨_, _, _, ⟨f, hf', by simp [hm, hl, hd, ha', hb']⟩, hU (Except.ok.inj h)⟩

theorem Sup.copPolygon_spec {s : Sup K} {hull : Vec (Pt K) → Res (Polygon K)} {i : ℕ} {g : Polygon K}
    (h : s.copPolygon hull i = .ok g) : Spec.SupportPolygon hull s i g := by
  unfold Sup.copPolygon at h
  obtain ⟨k, hk, h⟩ := bind_eq_ok.1 h
  obtain ⟨ph, hp, h⟩ := bind_eq_ok.1 h
  obtain ⟨_, -, hk'⟩ := bind_eq_ok.1 hk
  rw [← Except.ok.inj hk'] at hp
  refine ⟨ph, listAt_eq_ok.1 hp, ?_⟩
  cases ht : ph.type <;> rw [ht] at h
  · obtain ⟨p, hp, h⟩ := bind_eq_ok.1 h
    obtain ⟨l, r, t, h1, h2⟩ := Sup.dsCopPoints_spec hp
    exact ⟨fun h => (by cases h), fun h => (by cases h), fun _ => ⟨l, r, t, p, h1, h2, h⟩⟩
  · exact ⟨fun _ => (Except.ok.inj h).symm, fun h => (by cases h), fun h => (by cases h)⟩
  · exact ⟨fun h => (by cases h), fun _ => (Except.ok.inj h).symm, fun h => (by cases h)⟩

theorem Sup.kinPolygon_spec {s : Sup K} {i : ℕ} {g : Polygon K} (h : s.kinPolygon i = .ok g) :
    Spec.StepPolygon s i g := by
  unfold Sup.kinPolygon at h
  obtain ⟨_, -, h⟩ := bind_eq_ok.1 h
  obtain ⟨ds, hds, h⟩ := bind_eq_ok.1 h
  obtain ⟨ph, hp, h⟩ := bind_eq_ok.1 h
  obtain ⟨f, hf, hds⟩ := bind_eq_ok.1 hds
  have hds := Except.ok.inj hds
  have hp := listAt_eq_ok.1 hp
  refine ⟨f, ph, listAt_eq_ok.1 hf, ?_, ?_⟩
  · rw [← hp]; simp [← hds]
  · cases ht : ph.type <;> rw [ht] at h
    · cases h
    · exact Or.inl ⟨rfl, (Except.ok.inj h).symm⟩
    · exact Or.inr ⟨rfl, (Except.ok.inj h).symm⟩

theorem Sup.support_spec {s : Sup K} {sx sy : State3 K} (hx : s.supportX = .ok sx)
    (hy : s.supportY = .ok sy) : Spec.SupportAt s ⟨sx.p, sy.p⟩ := by
  unfold Sup.supportX at hx
  unfold Sup.supportY at hy
  obtain ⟨f, hf, hx⟩ := bind_eq_ok.1 hx
  rw [hf, ok_bind] at hy
  refine ⟨f, listAt_eq_ok.1 hf, ?_⟩
  unfold Sup.isInDS at hx hy
  rw [hf, ok_bind] at hx hy
  cases ht : f.type <;> cases hm : s.move <;> simp [ht, hm] at hx hy <;> subst hx hy <;> simp

/-- Bounds of the footstep `i`, which the code places at the previous footstep of the old plan `X`. -/
def FootBounds (N M : ℕ) (p : Pt K) (X x : ℕ → K) (i : ℕ) (g : Polygon K) : Prop :=
  g.xInf ≤ (Spec.seenFrom (Spec.footstep N M (fun k => X k + x k) i) (Spec.previous N M p X i)).x ∧
  (Spec.seenFrom (Spec.footstep N M (fun k => X k + x k) i) (Spec.previous N M p X i)).x ≤ g.xSup ∧
  g.yInf ≤ (Spec.seenFrom (Spec.footstep N M (fun k => X k + x k) i) (Spec.previous N M p X i)).y ∧
  (Spec.seenFrom (Spec.footstep N M (fun k => X k + x k) i) (Spec.previous N M p X i)).y ≤ g.ySup

/-- Rows of the footstep `i`, placed at the previous footstep of the new plan. -/
def FootRows (N M : ℕ) (p : Pt K) (X x : ℕ → K) (i : ℕ) (g : Polygon K) : Prop :=
  ∀ r < g.nbGeneral,
    g.coefX.get r * (Spec.seenFrom (Spec.footstep N M (fun k => X k + x k) i)
        (Spec.previous N M p (fun k => X k + x k) i)).x
      + g.coefY.get r * (Spec.seenFrom (Spec.footstep N M (fun k => X k + x k) i)
        (Spec.previous N M p (fun k => X k + x k) i)).y + g.const.get r ≤ 0

/-- The part of the plan `x` that the code's rows of the footstep `i` multiply. -/
def stepMove (N M : ℕ) (x : ℕ → K) (i : ℕ) : Pt K :=
  Spec.seenFrom (Spec.footstep N M x i) (Spec.previous N M ⟨0, 0⟩ x i)

theorem stepOffset_eq (N M : ℕ) (sx sy : K) (x : ℕ → K) (i : ℕ) :
    stepOffset N M sx sy x i
      = Spec.seenFrom (Spec.footstep N M x i) (Spec.previous N M ⟨sx, sy⟩ x i) := by
  unfold stepOffset Spec.seenFrom Spec.footstep
  cases i with
  | zero => rfl
  | succ i =>
    have e1 : 2 * N + (i + 1) - 1 = 2 * N + i := by omega
    have e2 : 2 * N + M + (i + 1) - 1 = 2 * N + M + i := by omega
    simp [Spec.previous, Spec.footstep, e1, e2]

theorem stepOffset_add (N M : ℕ) (sx sy : K) (X x : ℕ → K) (i : ℕ) :
    (stepOffset N M sx sy (fun k => X k + x k) i).x
      = (stepOffset N M sx sy X i).x + (stepOffset N M 0 0 x i).x ∧
    (stepOffset N M sx sy (fun k => X k + x k) i).y
      = (stepOffset N M sx sy X i).y + (stepOffset N M 0 0 x i).y := by
  unfold stepOffset
  by_cases h : i = 0
  · subst h; simp only [if_true]; constructor <;> ring
  · simp only [if_neg h]; constructor <;> ring

theorem copConstraint_feasible {hull : Vec (Pt K) → Res (Polygon K)} {l : Lip K} {s : Sup K} {bs : ℕ}
    {X : Vec K} {c : ConstraintAt K} (h : copConstraint hull l s bs X = .ok c) {ps : Vec (Polygon K)}
    (hps : s.copPolygons hull l.N = .ok ps) (x : ℕ → K) :
    ((∀ k < 2 * l.N, c.inf.get k ≤ x (0 + k) ∧ x (0 + k) ≤ c.sup.get k) ∧
      ∀ k < nbRows ps, -MAXBOUND ≤ rowDot c.A k x ∧ rowDot c.A k x ≤ MAXBOUND ∧
        rowDot c.A k x ≤ - c.f.get k) ↔
    ∀ i < l.N, Spec.SatisfiesConstraints (ps.get i) (Spec.localCop l.N (fun k => X.get k + x k) i) ∧
      Spec.RowsFinite (ps.get i) (Spec.localCop l.N x i) := by
  obtain ⟨-, -, ps', h1, h2, h3, h4⟩ := copConstraint_ok h
  rw [hps] at h1
  have h1 := Except.ok.inj h1
  subst h1
  rw [forall_rows, h2]
  unfold Spec.SatisfiesConstraints Spec.RowsFinite Spec.localCop
  constructor
  · rintro ⟨hb, hr⟩ i hi
    obtain ⟨e1, e2, e3, e4⟩ := h3 i hi
    have b1 := hb i (by omega)
    have b2 := hb (l.N + i) (by omega)
    rw [zero_add, e1, e3] at b1
    rw [zero_add, e2, e4] at b2
    refine ⟨⟨by linarith [b1.1], by linarith [b1.2], by linarith [b2.1], by linarith [b2.2],
      fun t ht => ?_⟩, fun t ht => ?_⟩
    · obtain ⟨r1, r2⟩ := h4 i hi t ht
      have := (hr i hi t ht).2.2
      rw [r1, r2] at this
      simp only
      linarith
    · obtain ⟨r1, r2⟩ := h4 i hi t ht
      have := hr i hi t ht
      rw [r1] at this
      exact abs_le.2 ⟨this.1, this.2.1⟩
  · intro H
    refine ⟨fun k hk => ?_, fun i hi t ht => ?_⟩
    · rw [zero_add]
      by_cases hkN : k < l.N
      · obtain ⟨e1, -, e3, -⟩ := h3 k hkN
        obtain ⟨⟨a1, a2, -⟩, -⟩ := H k hkN
        simp only at a1 a2
        rw [e1, e3]
        constructor <;> linarith
      · obtain ⟨i, rfl⟩ : ∃ i, k = l.N + i := ⟨k - l.N, by omega⟩
        obtain ⟨-, e2, -, e4⟩ := h3 i (by omega)
        obtain ⟨⟨-, -, a1, a2, -⟩, -⟩ := H i (by omega)
        simp only at a1 a2
        rw [e2, e4]
        constructor <;> linarith
    · obtain ⟨r1, r2⟩ := h4 i hi t ht
      obtain ⟨⟨-, -, -, -, a⟩, b⟩ := H i hi
      have a := a t ht
      have b := abs_le.1 (b t ht)
      simp only at a
      rw [r1, r2]
      exact ⟨b.1, b.2, by linarith⟩

theorem footConstraint_feasible {l : Lip K} {s : Sup K} {X : Vec K} {c : ConstraintAt K}
    (h : footConstraint l s X = .ok c) {ps : Vec (Polygon K)} (hps : s.kinPolygons = .ok ps) :
    ∃ p, Spec.SupportAt s p ∧ ∀ x : ℕ → K,
    ((∀ k < 2 * s.M, c.inf.get k ≤ x (2 * l.N + k) ∧ x (2 * l.N + k) ≤ c.sup.get k) ∧
      ∀ k < nbRows ps, -MAXBOUND ≤ rowDot c.A k x ∧ rowDot c.A k x ≤ MAXBOUND ∧
        rowDot c.A k x ≤ - c.f.get k) ↔
    ∀ i < s.M, FootBounds l.N s.M p X.get x i (ps.get i) ∧ FootRows l.N s.M p X.get x i (ps.get i) ∧
      Spec.RowsFinite (ps.get i) (stepMove l.N s.M x i) := by
  obtain ⟨-, -, ps', sx, sy, h1, h2, hsx, hsy, h3, h4⟩ := footConstraint_ok h
  rw [hps] at h1
  have h1 := Except.ok.inj h1
  subst h1
  refine ⟨⟨sx.p, sy.p⟩, Sup.support_spec hsx hsy, fun x => ?_⟩
  rw [forall_rows, h2]
  have hprev : ∀ i, (Spec.previous l.N s.M ⟨sx.p, sy.p⟩ X.get i)
      = ⟨if i = 0 then sx.p else X.get (2 * l.N + i - 1),
        if i = 0 then sy.p else X.get (2 * l.N + s.M + i - 1)⟩ := by
    intro i
    cases i with
    | zero => rfl
    | succ i =>
      have e1 : 2 * l.N + (i + 1) - 1 = 2 * l.N + i := by omega
      have e2 : 2 * l.N + s.M + (i + 1) - 1 = 2 * l.N + s.M + i := by omega
      simp [Spec.previous, Spec.footstep, e1, e2]
  unfold FootBounds FootRows Spec.RowsFinite stepMove
  simp only [← stepOffset_eq, hprev]
  simp only [Spec.seenFrom, Spec.footstep]
  constructor
  · rintro ⟨hb, hr⟩ i hi
    obtain ⟨e1, e2, e3, e4⟩ := h3 i hi
    have b1 := hb i (by omega)
    have b2 := hb (s.M + i) (by omega)
    rw [e1, e3] at b1
    rw [e2, e4, ← Nat.add_assoc] at b2
    refine ⟨⟨by linarith [b1.1], by linarith [b1.2], by linarith [b2.1], by linarith [b2.2]⟩,
      fun t ht => ?_, fun t ht => ?_⟩
    · obtain ⟨r1, r2⟩ := h4 i hi t ht
      have := (hr i hi t ht).2.2
      rw [r1, r2] at this
      rw [(stepOffset_add ..).1, (stepOffset_add ..).2]
      linarith
    · obtain ⟨r1, r2⟩ := h4 i hi t ht
      have := hr i hi t ht
      rw [r1] at this
      exact abs_le.2 ⟨this.1, this.2.1⟩
  · intro H
    refine ⟨fun k hk => ?_, fun i hi t ht => ?_⟩
    · by_cases hkN : k < s.M
      · obtain ⟨e1, -, e3, -⟩ := h3 k hkN
        obtain ⟨⟨a1, a2, -⟩, -⟩ := H k hkN
        rw [e1, e3]
        constructor <;> linarith
      · obtain ⟨i, rfl⟩ : ∃ i, k = s.M + i := ⟨k - s.M, by omega⟩
        obtain ⟨-, e2, -, e4⟩ := h3 i (by omega)
        obtain ⟨⟨-, -, a1, a2⟩, -⟩ := H i (by omega)
        rw [e2, e4, ← Nat.add_assoc]
        constructor <;> linarith
    · obtain ⟨r1, r2⟩ := h4 i hi t ht
      obtain ⟨-, a, b⟩ := H i hi
      have a := a t ht
      have b := abs_le.1 (b t ht)
      rw [(stepOffset_add ..).1, (stepOffset_add ..).2] at a
      rw [r1, r2]
      exact ⟨b.1, b.2, by linarith⟩

variable [FloorRing K]

/-- Stages of `prepare`. -/
theorem hprepare_ok {hull : Vec (Pt K) → Res (Polygon K)} {w w' : HWalkgen K} {fb : K} {idx : ℕ}
    {qp : QPMatrices K} (h : w.prepare hull fb = .ok (w', idx, qp)) :
    ∃ w0 a b q0 q1, w.begin fb = .ok w0 ∧ w0.nbCtr hull = .ok (a, b) ∧ idx = w0.index (a + b) ∧
      listAt w0.qps idx = .ok q0 ∧ w0.fillQP hull a b q0 = .ok q1 ∧
      qp = scaleQP q1 (1 / smallestSignificant q1.Q EPS) (1 / smallestSignificant q1.A EPS) ∧
      w' = { w0 with qps := w0.qps.set idx qp } := by
  unfold HWalkgen.prepare at h
  obtain ⟨w0, h0, h⟩ := bind_eq_ok.1 h
  obtain ⟨⟨a, b⟩, h1, h⟩ := bind_eq_ok.1 h
  obtain ⟨q0, h2, h⟩ := bind_eq_ok.1 h
  obtain ⟨q1, h3, h⟩ := bind_eq_ok.1 h
  rw [normalizeMatrices_ok _ _ EPS_pos.le, ok_bind] at h
  have h := Except.ok.inj h
  simp only [Prod.mk.injEq] at h
  obtain ⟨rfl, rfl, rfl⟩ := h
  exact ⟨w0, a, b, q0, q1, h0, h1, rfl, h2, h3, rfl, rfl⟩

/-- Stages of `fillQP`. -/
theorem hfillQP_ok {hull : Vec (Pt K) → Res (Polygon K)} {w : HWalkgen K} {a b : ℕ}
    {q q' : QPMatrices K} (h : w.fillQP hull a b q = .ok q') :
    ∃ q1 q2 q3 q4,
      q.reset.addObjective w.weighting.velocityTracking (velHessian w.lip w.sup)
        (velGradient w.lip w.sup w.velRef w.X) = .ok q1 ∧
      q1.addObjective w.weighting.jerkMinimization (jerkHessian w.lip w.sup)
        (jerkGradient w.lip w.sup w.X) = .ok q2 ∧
      q2.addObjective w.weighting.copCentering (centeringHessian w.lip w.sup)
        (centeringGradient w.lip w.sup w.X) = .ok q3 ∧
      (w.withCop = true ∧ (∃ c, copConstraint hull w.lip w.sup w.boundSize w.X = .ok c ∧
          q3.addConstraint 0 a 0 (2 * w.lip.N) (2 * w.lip.N + 2 * w.sup.M) c = .ok q4) ∨
        w.withCop = false ∧ q4 = q3) ∧
      (w.withFeet = true ∧ (∃ c, footConstraint w.lip w.sup w.X = .ok c ∧
          q4.addConstraint a b (2 * w.lip.N) (2 * w.sup.M) (2 * w.lip.N + 2 * w.sup.M) c = .ok q') ∨
        w.withFeet = false ∧ q' = q4) := by
  unfold HWalkgen.fillQP at h
  obtain ⟨q1, h1, h⟩ := bind_eq_ok.1 h
  obtain ⟨q2, h2, h⟩ := bind_eq_ok.1 h
  obtain ⟨q3, h3, h⟩ := bind_eq_ok.1 h
  dsimp only at h
  have key : ∀ {q4 : QPMatrices K}, (if w.withFeet = true then do
      let c ← footConstraint w.lip w.sup w.X
      q4.addConstraint a b (2 * w.lip.N) (2 * w.sup.M) (2 * w.lip.N + 2 * w.sup.M) c
    else pure q4) = .ok q' → (w.withFeet = true ∧ (∃ c, footConstraint w.lip w.sup w.X = .ok c ∧
          q4.addConstraint a b (2 * w.lip.N) (2 * w.sup.M) (2 * w.lip.N + 2 * w.sup.M) c = .ok q') ∨
        w.withFeet = false ∧ q' = q4) := by
    intro q4 h
    cases hc : w.withFeet
    · rw [hc] at h
      exact Or.inr ⟨rfl, (Except.ok.inj h).symm⟩
    · rw [hc] at h
      obtain ⟨c, hc', h⟩ := bind_eq_ok.1 h
      exact Or.inl ⟨rfl, c, hc', h⟩
  cases hc : w.withCop
  · rw [hc] at h
    exact ⟨q1, q2, q3, q3, h1, h2, h3, Or.inr ⟨rfl, rfl⟩, key h⟩
  · rw [hc] at h
    obtain ⟨c, hc', h⟩ := bind_eq_ok.1 h
    obtain ⟨q4, h4, h⟩ := bind_eq_ok.1 h
    exact ⟨q1, q2, q3, q4, h1, h2, h3, Or.inl ⟨rfl, c, hc', h4⟩, key h⟩

theorem hnbCtr_ok {hull : Vec (Pt K) → Res (Polygon K)} {w : HWalkgen K} {a b : ℕ}
    (h : w.nbCtr hull = .ok (a, b)) :
    (w.withCop = true → ∃ ps, w.sup.copPolygons hull w.lip.N = .ok ps ∧ a = nbRows ps) ∧
    (w.withFeet = true → ∃ ps, w.sup.kinPolygons = .ok ps ∧ b = nbRows ps) ∧
    (w.withCop = false → a = 0) ∧ (w.withFeet = false → b = 0) := by
  unfold HWalkgen.nbCtr at h
  dsimp only at h
  cases hc : w.withCop <;> cases hf : w.withFeet <;> rw [hc, hf] at h
  · have h := Except.ok.inj h
    simp only [Prod.mk.injEq] at h
    obtain ⟨rfl, rfl⟩ := h
    simp
  · simp only [Bool.false_eq_true, if_false, if_true, res_pure, ok_bind] at h
    obtain ⟨ps, hps, h⟩ := bind_eq_ok.1 h
    have h := Except.ok.inj h
    simp only [Prod.mk.injEq] at h
    obtain ⟨rfl, rfl⟩ := h
    simp [hps]
  · simp only [Bool.false_eq_true, if_false, if_true, res_pure, ok_bind] at h
    obtain ⟨ps, hps, h⟩ := bind_eq_ok.1 h
    have h := Except.ok.inj h
    simp only [Prod.mk.injEq] at h
    obtain ⟨rfl, rfl⟩ := h
    simp [hps]
  · simp only [if_true, res_pure, ok_bind] at h
    obtain ⟨ps, hps, h⟩ := bind_eq_ok.1 h
    obtain ⟨ps', hps', h⟩ := bind_eq_ok.1 h
    have h := Except.ok.inj h
    simp only [Prod.mk.injEq] at h
    obtain ⟨rfl, rfl⟩ := h
    simp [hps, hps']

/-- The feasible set of the QP given to the solver. -/
theorem hum_feasible {hull : Vec (Pt K) → Res (Polygon K)} {w w' : HWalkgen K} {fb : K}
    {qp : QPMatrices K} (h : HumGives hull w fb w' qp) :
    ∃ (cop kin : ℕ → Polygon K) (p : Pt K),
      (w'.withCop = true → ∀ i < w'.lip.N, Spec.SupportPolygon hull w'.sup i (cop i)) ∧
      (w'.withFeet = true → Spec.SupportAt w'.sup p ∧
        ∀ i < w'.sup.M, Spec.StepPolygon w'.sup i (kin i)) ∧
      ∀ x : ℕ → K, Spec.Feasible qp x ↔ (∀ i < qp.p.size, |x i| ≤ MAXBOUND) ∧
        (w'.withCop = true → ∀ i < w'.lip.N, Spec.SatisfiesConstraints (cop i)
          (Spec.localCop w'.lip.N (fun k => w'.X.get k + x k) i) ∧
          Spec.RowsFinite (cop i) (Spec.localCop w'.lip.N x i)) ∧
        (w'.withFeet = true → ∀ i < w'.sup.M,
          FootBounds w'.lip.N w'.sup.M p w'.X.get x i (kin i) ∧
          FootRows w'.lip.N w'.sup.M p w'.X.get x i (kin i) ∧
          Spec.RowsFinite (kin i) (stepMove w'.lip.N w'.sup.M x i)) := by
  obtain ⟨idx, n, m, hp, hd⟩ := h
  obtain ⟨w0, a, b, q0, qf, h0, h1, -, -, h3, hqp, rfl⟩ := hprepare_ok hp
  obtain ⟨q1, q2, q3, q4, o1, o2, o3, o4, o5⟩ := hfillQP_ok h3
  obtain ⟨n1, n2, n3, n4⟩ := hnbCtr_ok h1
  have hdf : qf.DimensionsAreConsistent n m := by rw [hqp] at hd; exact hd
  have hpn : qp.p.size = n := hd.2.2.1
  have hs : SameCtr q0.reset q3 :=
    ((addObjective_same o1).trans (addObjective_same o2)).trans (addObjective_same o3)
  have hd4 : q4.DimensionsAreConsistent n m := by
    rcases o5 with ⟨-, c, -, e⟩ | ⟨-, rfl⟩
    · exact (addConstraint_dims e).1 hdf
    · exact hdf
  have hd3 : q3.DimensionsAreConsistent n m := by
    rcases o4 with ⟨-, c, -, e⟩ | ⟨-, rfl⟩
    · exact (addConstraint_dims e).1 hd4
    · exact hd4
  have hd0 : q0.DimensionsAreConsistent n m := hs.dims.1 hd3
  have f3 : ∀ x, Spec.Feasible q3 x ↔ ∀ i < n, |x i| ≤ MAXBOUND := fun x => by
    rw [hs.feasible, reset_feasible hd0]
  have b3 : ∀ r k, BlankRows q3 r k := fun r k => hs.blank (reset_blank _ _ _)
  have b4 : ∀ k, BlankRows q4 a k := by
    intro k
    rcases o4 with ⟨-, c, -, e⟩ | ⟨-, rfl⟩
    · exact addConstraint_blank e (b3 a k) (by omega)
    · exact b3 a k
  have f4 : ∃ cop : ℕ → Polygon K,
      (w0.withCop = true → ∀ i < w0.lip.N, Spec.SupportPolygon hull w0.sup i (cop i)) ∧
      ∀ x, Spec.Feasible q4 x ↔ (∀ i < n, |x i| ≤ MAXBOUND) ∧
        (w0.withCop = true → ∀ i < w0.lip.N, Spec.SatisfiesConstraints (cop i)
          (Spec.localCop w0.lip.N (fun k => w0.X.get k + x k) i) ∧
          Spec.RowsFinite (cop i) (Spec.localCop w0.lip.N x i)) := by
    rcases o4 with ⟨hc, c, hcc, e⟩ | ⟨hc, rfl⟩
    · obtain ⟨ps, hps, rfl⟩ := n1 hc
      refine ⟨ps.get, fun _ i hi => Sup.copPolygon_spec ((buildVec_ok hps).2 i hi), fun x => ?_⟩
      rw [addConstraint_feasible e hd3 (b3 0 _) x, f3, copConstraint_feasible hcc hps x]
      exact ⟨fun h => ⟨h.1, fun _ => h.2⟩, fun h => ⟨h.1, h.2 hc⟩⟩
    · refine ⟨fun _ => Polygon.none, fun h => absurd h (by simp [hc]), fun x => ?_⟩
      rw [f3]
      exact ⟨fun h => ⟨h, fun h => absurd h (by simp [hc])⟩, fun h => h.1⟩
  obtain ⟨cop, hcop, f4⟩ := f4
  have ff : ∀ x, Spec.Feasible qp x ↔ Spec.Feasible qf x := fun x => by
    rw [hqp]
    exact scale_feasible _ _ _ (lt_of_lt_of_le one_pos (factor_ge_one _ _ EPS_pos.le)) x
  rw [hpn]
  rcases o5 with ⟨hc, c, hcc, e⟩ | ⟨hc, rfl⟩
  · obtain ⟨ps, hps, rfl⟩ := n2 hc
    obtain ⟨p, hsp, hx⟩ := footConstraint_feasible hcc hps
    refine ⟨cop, ps.get, p, hcop,
      fun _ => ⟨hsp, fun i hi => Sup.kinPolygon_spec ((buildVec_ok hps).2 i hi)⟩, fun x => ?_⟩
    rw [ff, addConstraint_feasible e hd4 (b4 _) x, f4, hx x]
    exact ⟨fun h => ⟨h.1.1, h.1.2, fun _ => h.2⟩, fun h => ⟨⟨h.1, h.2.1⟩, h.2.2 hc⟩⟩
  · refine ⟨cop, fun _ => Polygon.none, ⟨0, 0⟩, hcop, fun h => absurd h (by simp [hc]), fun x => ?_⟩
    rw [ff, f4]
    exact ⟨fun h => ⟨h.1, h.2, fun h => absurd h (by simp [hc])⟩, fun h => ⟨h.1, h.2.1⟩⟩

end MPC
