import Verif.Props.Humanoid

/-! # Feasibility of the QP of the humanoid generator (C63) -/

set_option linter.unusedSectionVars false

namespace MPC

open Finset

variable {K : Type} [Field K] [LinearOrder K] [IsStrictOrderedRing K]

/-- Some point with coordinates up to `B` satisfies the constraints of `g`, whose coefficients are at most `C`. -/
def Spec.HasPoint (B C : K) (g : Polygon K) : Prop :=
  (∃ P : Pt K, Spec.SatisfiesConstraints g P ∧ |P.x| ≤ B ∧ |P.y| ≤ B) ∧
    ∀ r < g.nbGeneral, |g.coefX.get r| ≤ C ∧ |g.coefY.get r| ≤ C

/-- `g` has only edges along the axes. -/
def Spec.OnlyBounds (g : Polygon K) : Prop := g.nbGeneral = 0

/-- `g` has only oblique edges. -/
def Spec.OnlyRows (g : Polygon K) : Prop :=
  g.xInf = -MAXBOUND ∧ g.xSup = MAXBOUND ∧ g.yInf = -MAXBOUND ∧ g.ySup = MAXBOUND

theorem rowsFinite_of {g : Polygon K} {B C D : K} (h : Spec.HasPoint B C g) {P : Pt K} (hx : |P.x| ≤ D)
    (hy : |P.y| ≤ D) (hD : 2 * C * D ≤ MAXBOUND) : Spec.RowsFinite g P := by
  intro r hr
  obtain ⟨h1, h2⟩ := h.2 r hr
  have e1 : |g.coefX.get r * P.x| ≤ C * D := by
    rw [abs_mul]; exact mul_le_mul h1 hx (abs_nonneg _) ((abs_nonneg _).trans h1)
  have e2 : |g.coefY.get r * P.y| ≤ C * D := by
    rw [abs_mul]; exact mul_le_mul h2 hy (abs_nonneg _) ((abs_nonneg _).trans h2)
  have := abs_add_le (g.coefX.get r * P.x) (g.coefY.get r * P.y)
  linarith

/-- The position before the footstep `i`. -/
def before (p : Pt K) (F : ℕ → Pt K) : ℕ → Pt K
  | 0 => p
  | i + 1 => F i

theorem previous_eq (N M : ℕ) (p : Pt K) (Y : ℕ → K) (i : ℕ) :
    Spec.previous N M p Y i = before p (Spec.footstep N M Y) i := by
  cases i <;> rfl

theorem steps_exist {M : ℕ} {p : Pt K} {old : ℕ → Pt K} {B C : K} {kin : ℕ → Polygon K} (hB : 0 ≤ B)
    (hp : |p.x| ≤ B ∧ |p.y| ≤ B) (ho : ∀ i < M, |(old i).x| ≤ B ∧ |(old i).y| ≤ B)
    (hk : ∀ i < M, Spec.HasPoint B C (kin i)) (hM : ((M : K) + 2) * B ≤ MAXBOUND)
    (hc : M ≤ 1 ∨ (∀ i < M, Spec.OnlyBounds (kin i)) ∨ ∀ i < M, Spec.OnlyRows (kin i)) :
    ∃ F : ℕ → Pt K, ∀ i < M, |(F i).x| ≤ (M + 1) * B ∧ |(F i).y| ≤ (M + 1) * B ∧
      ((kin i).xInf ≤ (F i).x - (before p old i).x ∧ (F i).x - (before p old i).x ≤ (kin i).xSup ∧
        (kin i).yInf ≤ (F i).y - (before p old i).y ∧ (F i).y - (before p old i).y ≤ (kin i).ySup) ∧
      ∀ r < (kin i).nbGeneral, (kin i).coefX.get r * ((F i).x - (before p F i).x)
        + (kin i).coefY.get r * ((F i).y - (before p F i).y) + (kin i).const.get r ≤ 0 := by
  have : Nonempty (Pt K) := ⟨⟨0, 0⟩⟩
  choose! P hP hPx hPy using fun i hi => (hk i hi).1
  have hb : ∀ i < M, |(before p old i).x| ≤ B ∧ |(before p old i).y| ≤ B := by
    intro i hi
    cases i with
    | zero => exact hp
    | succ i => exact ho i (by omega)
  by_cases hrows : ∀ i < M, Spec.OnlyRows (kin i)
  · let F : ℕ → Pt K := fun i => Nat.rec ⟨p.x + (P 0).x, p.y + (P 0).y⟩
      (fun k q => ⟨q.x + (P (k + 1)).x, q.y + (P (k + 1)).y⟩) i
    have hF : ∀ i, (F i).x = (before p F i).x + (P i).x ∧ (F i).y = (before p F i).y + (P i).y := by
      intro i
      cases i <;> exact ⟨rfl, rfl⟩
    have hle : ∀ i < M, |(F i).x| ≤ ((i : K) + 2) * B ∧ |(F i).y| ≤ ((i : K) + 2) * B := by
      intro i
      induction i with
      | zero =>
        intro hi
        rw [(hF 0).1, (hF 0).2]
        have h1 := abs_add_le (before p F 0).x (P 0).x
        have h2 := abs_add_le (before p F 0).y (P 0).y
        have h3 := hPx 0 hi
        have h4 := hPy 0 hi
        have h5 : |(before p F 0).x| ≤ B := hp.1
        have h6 : |(before p F 0).y| ≤ B := hp.2
        constructor <;> push_cast <;> linarith
      | succ k ih =>
        intro hi
        obtain ⟨i1, i2⟩ := ih (by omega)
        rw [(hF (k + 1)).1, (hF (k + 1)).2]
        have h1 := abs_add_le (before p F (k + 1)).x (P (k + 1)).x
        have h2 := abs_add_le (before p F (k + 1)).y (P (k + 1)).y
        have h3 := hPx (k + 1) hi
        have h4 := hPy (k + 1) hi
        have h5 : |(before p F (k + 1)).x| ≤ ((k : K) + 2) * B := i1
        have h6 : |(before p F (k + 1)).y| ≤ ((k : K) + 2) * B := i2
        constructor <;> push_cast <;> linarith
    refine ⟨F, fun i hi => ?_⟩
    have hiM : ((i : K) + 2) * B ≤ (M + 1) * B := by
      have : (i : K) + 1 ≤ M := by exact_mod_cast hi
      exact mul_le_mul_of_nonneg_right (by linarith) hB
    obtain ⟨l1, l2⟩ := hle i hi
    obtain ⟨b1, b2⟩ := hb i hi
    obtain ⟨r1, r2, r3, r4⟩ := hrows i hi
    have a1 := abs_le.1 (l1.trans hiM)
    have a2 := abs_le.1 (l2.trans hiM)
    have a3 := abs_le.1 b1
    have a4 := abs_le.1 b2
    refine ⟨l1.trans hiM, l2.trans hiM, ⟨?_, ?_, ?_, ?_⟩, fun r hr => ?_⟩
    · rw [r1]; linarith [a1.1, a3.2]
    · rw [r2]; linarith [a1.2, a3.1]
    · rw [r3]; linarith [a2.1, a4.2]
    · rw [r4]; linarith [a2.2, a4.1]
    · rw [(hF i).1, (hF i).2, add_sub_cancel_left, add_sub_cancel_left]
      exact (hP i hi).2.2.2.2 r hr
  · let F : ℕ → Pt K := fun i => ⟨(before p old i).x + (P i).x, (before p old i).y + (P i).y⟩
    refine ⟨F, fun i hi => ?_⟩
    have hiM : 2 * B ≤ (M + 1) * B := by
      have : (1 : K) ≤ M := by exact_mod_cast (by omega : 1 ≤ M)
      exact mul_le_mul_of_nonneg_right (by linarith) hB
    obtain ⟨b1, b2⟩ := hb i hi
    have h1 : |(F i).x| ≤ (M + 1) * B := (abs_add_le _ _).trans (by linarith [hPx i hi])
    have h2 : |(F i).y| ≤ (M + 1) * B := (abs_add_le _ _).trans (by linarith [hPy i hi])
    obtain ⟨s1, s2, s3, s4, s5⟩ := hP i hi
    refine ⟨h1, h2, ?_, fun r hr => ?_⟩
    · simp only [F, add_sub_cancel_left]
      exact ⟨s1, s2, s3, s4⟩
    · rcases hc with hc | hc | hc
      · obtain rfl : i = 0 := by omega
        have := s5 r hr
        simpa [F, before] using this
      · have := hc i hi
        unfold Spec.OnlyBounds at this
        omega
      · exact absurd hc hrows

variable [FloorRing K]

/-- **C63 (partial).** Full statement: when every polygon that constrains the plan contains a point, the QP is feasible
(here with a bound `B` on the coordinates and `C` on the coefficients that excludes numbers near the one used as
infinity). Proved: without footstep constraints, with at most one footstep, or when the kinematic polygons have only edges
along the axes or only oblique edges. In particular the feasibility does not depend on the state of the CoM, nor on
the previous answer of the solver. Missing: several footsteps and mixed edges, for which this is false
(`C63_violated`). -/
theorem C63_feasible_partial {hull : Vec (Pt K) → Res (Polygon K)} {w w' : HWalkgen K} {fb : K}
    {qp : QPMatrices K} (h : HumGives hull w fb w' qp) (B C : K) (hB : 0 ≤ B) (hC : 1 ≤ C)
    (hBC : 4 * C * ((w'.sup.M + 2) * B) ≤ MAXBOUND)
    (hX : ∀ k < 2 * w'.lip.N + 2 * w'.sup.M, |w'.X.get k| ≤ B)
    (hcop : w'.withCop = true → Spec.HasPoint B C w'.sup.left.cop ∧ Spec.HasPoint B C w'.sup.right.cop ∧
      ∀ p g, hull p = .ok g → Spec.HasPoint B C g)
    (hkin : w'.withFeet = true → Spec.HasPoint B C w'.sup.left.kin ∧ Spec.HasPoint B C w'.sup.right.kin ∧
      (∀ p, Spec.SupportAt w'.sup p → |p.x| ≤ B ∧ |p.y| ≤ B) ∧
      (w'.sup.M ≤ 1 ∨ (Spec.OnlyBounds w'.sup.left.kin ∧ Spec.OnlyBounds w'.sup.right.kin) ∨
        (Spec.OnlyRows w'.sup.left.kin ∧ Spec.OnlyRows w'.sup.right.kin))) :
    ∃ x, Spec.Feasible qp x := by
  obtain ⟨cop, kin, p, h1, h2, h3⟩ := hum_feasible h
  generalize hN : w'.lip.N = N at *
  generalize hM : w'.sup.M = M at *
  have hM0 : (0 : K) ≤ M := Nat.cast_nonneg M
  have hMB : ((M : K) + 2) * B ≤ MAXBOUND := by
    have : 0 ≤ ((M : K) + 2) * B := mul_nonneg (by linarith) hB
    nlinarith
  have hBM : B ≤ ((M : K) + 2) * B := by nlinarith
  -- the CoP
  obtain ⟨P, hPb, hP⟩ : ∃ P : ℕ → Pt K, (∀ i < N, |(P i).x| ≤ B ∧ |(P i).y| ≤ B) ∧
      (w'.withCop = true → ∀ i < N, Spec.HasPoint B C (cop i) ∧ Spec.SatisfiesConstraints (cop i) (P i)) := by
    by_cases hw : w'.withCop = true
    · obtain ⟨a1, a2, a3⟩ := hcop hw
      have key : ∀ i < N, Spec.HasPoint B C (cop i) := by
        intro i hi
        obtain ⟨ph, -, b1, b2, b3⟩ := h1 hw i hi
        cases ht : ph.type with
        | leftSS => rw [b1 ht]; exact a1
        | rightSS => rw [b2 ht]; exact a2
        | DS =>
          obtain ⟨_, _, _, q, -, -, hq⟩ := b3 ht
          exact a3 q _ hq
      have : Nonempty (Pt K) := ⟨⟨0, 0⟩⟩
      choose! P hP hPx hPy using fun i hi => (key i hi).1
      exact ⟨P, fun i hi => ⟨hPx i hi, hPy i hi⟩, fun _ i hi => ⟨key i hi, hP i hi⟩⟩
    · exact ⟨fun _ => ⟨0, 0⟩, fun i _ => by simp [hB], fun h => absurd h hw⟩
  -- the footsteps
  obtain ⟨F, hFb, hF⟩ : ∃ F : ℕ → Pt K, (∀ i < M, |(F i).x| ≤ (M + 1) * B ∧ |(F i).y| ≤ (M + 1) * B) ∧
      (w'.withFeet = true → ∀ i < M, Spec.HasPoint B C (kin i) ∧
        ((kin i).xInf ≤ (F i).x - (before p (Spec.footstep N M w'.X.get) i).x ∧
          (F i).x - (before p (Spec.footstep N M w'.X.get) i).x ≤ (kin i).xSup ∧
          (kin i).yInf ≤ (F i).y - (before p (Spec.footstep N M w'.X.get) i).y ∧
          (F i).y - (before p (Spec.footstep N M w'.X.get) i).y ≤ (kin i).ySup) ∧
        ∀ r < (kin i).nbGeneral, (kin i).coefX.get r * ((F i).x - (before p F i).x)
          + (kin i).coefY.get r * ((F i).y - (before p F i).y) + (kin i).const.get r ≤ 0) := by
    by_cases hw : w'.withFeet = true
    · obtain ⟨a1, a2, a3, a4⟩ := hkin hw
      obtain ⟨b1, b2⟩ := h2 hw
      have kinds : ∀ i < M, kin i = w'.sup.left.kin ∨ kin i = w'.sup.right.kin := by
        intro i hi
        obtain ⟨_, _, -, -, hh⟩ := b2 i hi
        rcases hh with ⟨-, e⟩ | ⟨-, e⟩
        · exact .inl e
        · exact .inr e
      have all : ∀ Q : Polygon K → Prop, Q w'.sup.left.kin ∧ Q w'.sup.right.kin → ∀ i < M, Q (kin i) := by
        intro Q hQ i hi
        rcases kinds i hi with e | e <;> rw [e]
        · exact hQ.1
        · exact hQ.2
      have hk := all _ ⟨a1, a2⟩
      obtain ⟨F, hF⟩ := steps_exist (old := Spec.footstep N M w'.X.get) hB (a3 p b1)
        (fun i hi => ⟨hX _ (by omega), hX _ (by omega)⟩) hk hMB
        (a4.imp_right (Or.imp (all _) (all _)))
      exact ⟨F, fun i hi => ⟨(hF i hi).1, (hF i hi).2.1⟩, fun _ i hi =>
        ⟨hk i hi, (hF i hi).2.2.1, (hF i hi).2.2.2⟩⟩
    · exact ⟨fun _ => ⟨0, 0⟩, fun i _ => by simp [mul_nonneg (by linarith : (0 : K) ≤ M + 1) hB],
        fun h => absurd h hw⟩
  -- the plan
  let Y : ℕ → K := fun k => if k < N then (P k).x else if k < 2 * N then (P (k - N)).y
    else if k < 2 * N + M then (F (k - 2 * N)).x else if k < 2 * N + 2 * M then (F (k - (2 * N + M))).y
    else w'.X.get k
  have y1 : ∀ i < N, Y i = (P i).x := fun i hi => if_pos hi
  have y2 : ∀ i < N, Y (N + i) = (P i).y := by
    intro i hi
    simp only [Y]
    rw [if_neg (by omega), if_pos (by omega), Nat.add_sub_cancel_left]
  have y3 : ∀ i < M, Y (2 * N + i) = (F i).x := by
    intro i hi
    simp only [Y]
    rw [if_neg (by omega), if_neg (by omega), if_pos (by omega), Nat.add_sub_cancel_left]
  have y4 : ∀ i < M, Y (2 * N + M + i) = (F i).y := by
    intro i hi
    simp only [Y]
    rw [if_neg (by omega), if_neg (by omega), if_neg (by omega), if_pos (by omega), Nat.add_sub_cancel_left]
  have yb : ∀ k, |Y k - w'.X.get k| ≤ (M + 2) * B := by
    intro k
    have tri : ∀ a b : K, |a| ≤ (M + 1) * B → |b| ≤ B → |a - b| ≤ (M + 2) * B := by
      intro a b ha hb
      have := abs_sub a b
      linarith
    have hB1 : B ≤ (M + 1) * B := by nlinarith
    simp only [Y]
    split_ifs with c1 c2 c3 c4
    · exact tri _ _ ((hPb k c1).1.trans hB1) (hX k (by omega))
    · exact tri _ _ ((hPb (k - N) (by omega)).2.trans hB1) (hX k (by omega))
    · exact tri _ _ (hFb (k - 2 * N) (by omega)).1 (hX k (by omega))
    · exact tri _ _ (hFb (k - (2 * N + M)) (by omega)).2 (hX k (by omega))
    · rw [sub_self, abs_zero]; exact mul_nonneg (by linarith) hB
  have hback : (fun k => w'.X.get k + (Y k - w'.X.get k)) = Y := by
    funext k; ring
  have hfoot : ∀ i < M, Spec.footstep N M Y i = F i := by
    intro i hi
    unfold Spec.footstep
    rw [y3 i hi, y4 i hi]
  have hbef : ∀ i < M, before p (Spec.footstep N M Y) i = before p F i := by
    intro i hi
    cases i with
    | zero => rfl
    | succ i => exact hfoot i (by omega)
  refine ⟨fun k => Y k - w'.X.get k, (h3 _).2 ⟨fun i _ => (yb i).trans hMB, fun hw i hi => ?_, fun hw i hi => ?_⟩⟩
  · obtain ⟨g1, g2⟩ := hP hw i hi
    rw [hback]
    refine ⟨?_, rowsFinite_of g1 (D := (M + 2) * B) (yb _) (yb _) ?_⟩
    · unfold Spec.localCop
      rw [y1 i hi, y2 i hi]
      exact g2
    · have : 0 ≤ C * ((M + 2) * B) := mul_nonneg (by linarith) (mul_nonneg (by linarith) hB)
      linarith
  · obtain ⟨g1, g2, g3⟩ := hF hw i hi
    unfold FootBounds FootRows
    rw [hback, hfoot i hi, previous_eq, previous_eq, hbef i hi]
    refine ⟨g2, g3, rowsFinite_of g1 (D := 2 * ((M + 2) * B)) ?_ ?_ (by linarith)⟩
    all_goals
      unfold stepMove
      rw [previous_eq]
      cases i with
      | zero =>
        simp only [Spec.seenFrom, before, Spec.footstep, sub_zero]
        exact (yb _).trans (by linarith)
      | succ i =>
        simp only [Spec.seenFrom, before, Spec.footstep]
        have c1 := yb (2 * N + (i + 1))
        have c2 := yb (2 * N + i)
        have c3 := yb (2 * N + M + (i + 1))
        have c4 := yb (2 * N + M + i)
        exact (abs_sub _ _).trans (by linarith)

/-! ### Concrete runs -/

/-- The triangle `x ≤ 4`, `y ≤ 0`, `3 ≤ x + y`. -/
def demoTriangle : Polygon ℚ :=
  match Polygon.ofVertices ⟨3, fun i => if i = 0 then ⟨3, 0⟩ else if i = 1 then ⟨4, -1⟩ else ⟨4, 0⟩⟩ with
  | .ok g => g
  | .error _ => Polygon.none

/-- A user whose feet reach this triangle. -/
def triangleCalls : List (HCall ℚ) :=
  [.setNbSamples 3, .setInitialDoubleSupportLength 1, .setStepPeriod 1, .setKin true demoTriangle,
    .setKin false demoTriangle, .setConfig false true, .setMove true]

set_option maxRecDepth 100000 in
theorem triangle_checks : okAnd (fun r => decide (r.1.sup.M = 2 ∧ r.1.lip.N = 3 ∧ r.1.withFeet = true ∧
      r.2.2.DimensionsAreConsistent 10 2 ∧ r.1.withCop = false ∧
      (r.1.X.get 6 = 0 ∧ r.1.X.get 8 = 0) ∧
      (r.1.sup.timeline[0]?.map (·.type)) = some .DS ∧ r.1.sup.move = true ∧
      (r.1.sup.left.x.state.p = 0 ∧ r.1.sup.left.y.state.p = 0) ∧
      (r.1.sup.left.kin.xSup = 4 ∧ r.1.sup.left.kin.ySup = 0 ∧ r.1.sup.left.kin.xInf = -MAXBOUND ∧
        r.1.sup.left.kin.yInf = -MAXBOUND ∧ r.1.sup.left.kin.nbGeneral = 1 ∧ r.1.sup.left.kin.coefX.get 0 = -1 ∧
        r.1.sup.left.kin.coefY.get 0 = -1 ∧ r.1.sup.left.kin.const.get 0 = 3) ∧
      (r.1.sup.right.kin.xSup = 4 ∧ r.1.sup.right.kin.ySup = 0 ∧ r.1.sup.right.kin.xInf = -MAXBOUND ∧
        r.1.sup.right.kin.yInf = -MAXBOUND ∧ r.1.sup.right.kin.nbGeneral = 1 ∧ r.1.sup.right.kin.coefX.get 0 = -1 ∧
        r.1.sup.right.kin.coefY.get 0 = -1 ∧ r.1.sup.right.kin.const.get 0 = 3)))
    (do
      let w ← HWalkgen.make >>= fun w => w.run (fun _ => .ok demoTriangle) (fun _ _ _ => (true, fun _ => 0))
        triangleCalls
      HWalkgen.prepare (fun _ => .ok demoTriangle) { w with X := Vec.const 10 0 } 1) = true := by
  decide +kernel

/-- **C63 is false.** After the calls `triangleCalls`, when the previous plan had both footsteps at the origin, the QP is
infeasible, although a plan with two footsteps of four meters forward meets the constraints of both footsteps: the
bounds of the second one are placed at the old first footstep, its row at the new one. -/
theorem C63_violated : ∃ w w' qp,
    HumReaches (fun _ => .ok demoTriangle) (fun _ _ _ => (true, fun _ => 0)) triangleCalls w ∧
    HumGives (fun _ => .ok demoTriangle) { w with X := Vec.const 10 0 } 1 w' qp ∧ w'.withCop = false ∧ (∀ x, ¬ Spec.Feasible qp x) ∧
    ∃ Y : ℕ → ℚ, ∀ p, Spec.SupportAt w'.sup p → ∀ i < w'.sup.M, ∀ g, Spec.StepPolygon w'.sup i g →
      Spec.SatisfiesConstraints g (Spec.seenFrom (Spec.footstep w'.lip.N w'.sup.M Y i)
        (Spec.previous w'.lip.N w'.sup.M p Y i)) := by
  obtain ⟨⟨w', idx, qp⟩, h, hc⟩ := okAnd_true triangle_checks
  obtain ⟨w, hw, hp⟩ := bind_eq_ok.1 h
  obtain ⟨w0, h0, hw⟩ := bind_eq_ok.1 hw
  obtain ⟨cM, cN, cF, cD, cC, ⟨x6, x8⟩, ct, cm, ⟨px, py⟩, ⟨l1, l2, l3, l4, l5, l6, l7, l8⟩,
    ⟨r1, r2, r3, r4, r5, r6, r7, r8⟩⟩ := of_decide_eq_true hc
  dsimp only at cM cN cF cD cC x6 x8 ct cm px py l1 l2 l3 l4 l5 l6 l7 l8 r1 r2 r3 r4 r5 r6 r7 r8
  have hg : HumGives (fun _ => .ok demoTriangle) { w with X := Vec.const 10 0 } 1 w' qp := ⟨idx, 10, 2, hp, cD⟩
  have hpos : ∀ p, Spec.SupportAt w'.sup p → p = ⟨0, 0⟩ := by
    rintro p ⟨f, hf, -, -, hd, -⟩
    rw [hf] at ct
    have := hd (Option.some.inj ct) cm
    rw [this, px, py]
  have hkin : ∀ i g, Spec.StepPolygon w'.sup i g → g.xSup = 4 ∧ g.ySup = 0 ∧ g.xInf = -MAXBOUND ∧
      g.yInf = -MAXBOUND ∧ g.nbGeneral = 1 ∧ g.coefX.get 0 = -1 ∧ g.coefY.get 0 = -1 ∧ g.const.get 0 = 3 := by
    rintro i g ⟨f, ph, -, -, ⟨-, rfl⟩ | ⟨-, rfl⟩⟩
    · exact ⟨l1, l2, l3, l4, l5, l6, l7, l8⟩
    · exact ⟨r1, r2, r3, r4, r5, r6, r7, r8⟩
  refine ⟨w, w', qp, ⟨w0, h0, hw⟩, hg, cC, fun x hx => ?_, fun k => if k = 6 then 4 else if k = 7 then 8 else 0, ?_⟩
  · obtain ⟨cop, kin, p, -, h2, h3⟩ := hum_feasible hg
    obtain ⟨hs, hk⟩ := h2 cF
    obtain ⟨-, -, hf⟩ := (h3 x).1 hx
    have hf := hf cF
    rw [cM] at hk hf
    obtain rfl := hpos p hs
    obtain ⟨-, a2, -⟩ := hf 0 (by omega)
    obtain ⟨b1, b2, -⟩ := hf 1 (by omega)
    obtain ⟨-, -, -, -, k5, k6, k7, k8⟩ := hkin 0 _ (hk 0 (by omega))
    obtain ⟨m1, m2, -, -, m5, m6, m7, m8⟩ := hkin 1 _ (hk 1 (by omega))
    have a2 := a2 0 (by rw [k5]; omega)
    have b2 := b2 0 (by rw [m5]; omega)
    obtain ⟨-, b3, -, b4⟩ := b1
    simp only [Spec.seenFrom, Spec.previous, Spec.footstep, cN, k6, k7, k8, m1, m2, m6, m7, m8] at a2 b2 b3 b4
    norm_num at a2 b2 b3 b4
    rw [x6] at b3
    rw [x8] at b4
    rw [x6, x8] at a2 b2
    linarith
  · intro p hs i hi g hg
    obtain rfl := hpos p hs
    obtain ⟨m1, m2, m3, m4, m5, m6, m7, m8⟩ := hkin i g hg
    rw [cM] at hi ⊢
    rw [cN]
    have hB : (0 : ℚ) ≤ MAXBOUND := MAXBOUND_pos.le
    unfold Spec.SatisfiesConstraints
    rw [m1, m2, m3, m4, m5]
    have : i = 0 ∨ i = 1 := by omega
    rcases this with rfl | rfl
    · refine ⟨?_, ?_, ?_, ?_, fun r hr => ?_⟩
      · simp [Spec.seenFrom, Spec.previous, Spec.footstep]; linarith
      · simp [Spec.seenFrom, Spec.previous, Spec.footstep]
      · simp [Spec.seenFrom, Spec.previous, Spec.footstep]; linarith
      · simp [Spec.seenFrom, Spec.previous, Spec.footstep]
      · obtain rfl : r = 0 := by omega
        rw [m6, m7, m8]
        simp [Spec.seenFrom, Spec.previous, Spec.footstep]; norm_num
    · refine ⟨?_, ?_, ?_, ?_, fun r hr => ?_⟩
      · simp [Spec.seenFrom, Spec.previous, Spec.footstep]; linarith
      · simp [Spec.seenFrom, Spec.previous, Spec.footstep]; norm_num
      · simp [Spec.seenFrom, Spec.previous, Spec.footstep]; linarith
      · simp [Spec.seenFrom, Spec.previous, Spec.footstep]
      · obtain rfl : r = 0 := by omega
        rw [m6, m7, m8]
        simp [Spec.seenFrom, Spec.previous, Spec.footstep]; norm_num

/-- A box around the origin. -/
abbrev IsBox (g : Polygon ℚ) : Prop := g.nbGeneral = 0 ∧ g.xInf ≤ 0 ∧ 0 ≤ g.xSup ∧ g.yInf ≤ 0 ∧ 0 ≤ g.ySup

set_option maxRecDepth 100000 in
theorem nonempty_checks : okAnd (fun r => decide (r.1.withCop = true ∧ r.1.withFeet = true ∧ r.1.sup.M = 2 ∧
      r.1.lip.N = 3 ∧ r.2.2.DimensionsAreConsistent 10 0 ∧ (∀ k : Fin 10, |r.1.X.get k| ≤ 2) ∧
      (r.1.sup.timeline[0]?.map (·.type)) = some .DS ∧ r.1.sup.move = true ∧
      (r.1.sup.left.x.state.p = 0 ∧ r.1.sup.left.y.state.p = 0) ∧
      IsBox r.1.sup.left.cop ∧ IsBox r.1.sup.right.cop ∧ IsBox r.1.sup.left.kin ∧ IsBox r.1.sup.right.kin))
    (demoWalkRun >>= fun w => w.prepare (fun _ => .ok demoRect) 1) = true := by
  decide +kernel

theorem hasPoint_box {g : Polygon ℚ} (h : IsBox g) :
    Spec.HasPoint 2 1 g := by
  obtain ⟨h0, h1, h2, h3, h4⟩ := h
  refine ⟨⟨⟨0, 0⟩, ⟨h1, h2, h3, h4, fun r hr => ?_⟩, by norm_num, by norm_num⟩, fun r hr => ?_⟩
  all_goals omega

/-- The hypotheses of `C63_feasible_partial` are met by the run of `demoWalkCalls`, with two footsteps. -/
example : ∃ w w' qp, demoWalkRun = .ok w ∧ HumGives (fun _ => .ok demoRect) w 1 w' qp ∧
    w'.withCop = true ∧ w'.withFeet = true ∧ w'.sup.M = 2 ∧
    4 * 1 * ((w'.sup.M + 2) * 2) ≤ (MAXBOUND : ℚ) ∧
    (∀ k < 2 * w'.lip.N + 2 * w'.sup.M, |w'.X.get k| ≤ 2) ∧
    (Spec.HasPoint 2 1 w'.sup.left.cop ∧ Spec.HasPoint 2 1 w'.sup.right.cop ∧
      ∀ g, (.ok demoRect : Res (Polygon ℚ)) = .ok g → Spec.HasPoint 2 1 g) ∧
    (Spec.HasPoint 2 1 w'.sup.left.kin ∧ Spec.HasPoint 2 1 w'.sup.right.kin ∧
      (∀ p, Spec.SupportAt w'.sup p → |p.x| ≤ 2 ∧ |p.y| ≤ 2) ∧
      Spec.OnlyBounds w'.sup.left.kin ∧ Spec.OnlyBounds w'.sup.right.kin) := by
  obtain ⟨⟨w', idx, qp⟩, h, hc⟩ := okAnd_true nonempty_checks
  obtain ⟨w, hw, hp⟩ := bind_eq_ok.1 h
  obtain ⟨c1, c2, c3, c4, c5, c6, ct, cm, ⟨px, py⟩, b1, b2, b3, b4⟩ := of_decide_eq_true hc
  dsimp only at c1 c2 c3 c4 c5 c6 ct cm px py b1 b2 b3 b4
  refine ⟨w, w', qp, hw, ⟨idx, 10, 0, hp, c5⟩, c1, c2, c3, ?_, ?_, ⟨hasPoint_box b1, hasPoint_box b2, ?_⟩,
    hasPoint_box b3, hasPoint_box b4, ?_, b3.1, b4.1⟩
  · rw [c3]; norm_num [MAXBOUND]
  · rw [c3, c4]
    exact fun k hk => c6 ⟨k, hk⟩
  · rintro g hg
    obtain rfl := Except.ok.inj hg
    exact hasPoint_box (by decide +kernel)
  · rintro p ⟨f, hf, -, -, hd, -⟩
    rw [hf] at ct
    rw [hd (Option.some.inj ct) cm, px, py]
    norm_num

end MPC
