import Verif.Lemmas.HumFeasible
import Verif.Lemmas.Eval
import Mathlib.Data.Rat.Floor
import Mathlib.Tactic.NormNum

/-!
# C38, C39: the constraints of `HumanoidWalkgen`
-/

set_option linter.unusedSectionVars false

namespace MPC

open Finset

variable {K : Type} [Field K] [LinearOrder K] [IsStrictOrderedRing K] [FloorRing K]

/-! ### C38 -/

/-- **C38, feasible plans are inside.** Whatever the other settings, a change `x` of the plan that is
feasible for the QP given to the solver puts the new CoP of every sample inside the support polygon of
the phase of the sample. -/
theorem C38_inside {hull : Vec (Pt K) → Res (Polygon K)} {w w' : HWalkgen K} {fb : K}
    {qp : QPMatrices K} (h : HumGives hull w fb w' qp) (hc : w'.withCop = true) :
    ∃ cop : ℕ → Polygon K, (∀ i < w'.lip.N, Spec.SupportPolygon hull w'.sup i (cop i)) ∧
      ∀ x : ℕ → K, Spec.Feasible qp x → ∀ i < w'.lip.N, Spec.SatisfiesConstraints (cop i)
        (Spec.localCop w'.lip.N (fun k => w'.X.get k + x k) i) := by
  obtain ⟨cop, kin, p, h1, -, h3⟩ := hum_feasible h
  exact ⟨cop, h1 hc, fun x hx i hi => (((h3 x).1 hx).2.1 hc i hi).1⟩

/-- **C38, equivalence.** Without footstep constraints, `x` is feasible for the QP given to the solver
iff the new CoP of every sample is inside its support polygon, and no number exceeds the one that stands
for infinity (the QP bounds every variable and every row by `±MAXBOUND`). -/
theorem C38_feasible_iff {hull : Vec (Pt K) → Res (Polygon K)} {w w' : HWalkgen K} {fb : K}
    {qp : QPMatrices K} (h : HumGives hull w fb w' qp) (hc : w'.withCop = true)
    (hf : w'.withFeet = false) :
    ∃ cop : ℕ → Polygon K, (∀ i < w'.lip.N, Spec.SupportPolygon hull w'.sup i (cop i)) ∧
      ∀ x : ℕ → K, Spec.Feasible qp x ↔
        (∀ i < w'.lip.N, Spec.SatisfiesConstraints (cop i)
          (Spec.localCop w'.lip.N (fun k => w'.X.get k + x k) i)) ∧
        (∀ i < qp.p.size, |x i| ≤ MAXBOUND) ∧
        ∀ i < w'.lip.N, Spec.RowsFinite (cop i) (Spec.localCop w'.lip.N x i) := by
  obtain ⟨cop, kin, p, h1, -, h3⟩ := hum_feasible h
  refine ⟨cop, h1 hc, fun x => ?_⟩
  rw [h3]
  constructor
  · rintro ⟨a, b, -⟩
    exact ⟨fun i hi => (b hc i hi).1, a, fun i hi => (b hc i hi).2⟩
  · rintro ⟨a, b, c⟩
    exact ⟨b, fun _ i hi => ⟨a i hi, c i hi⟩, fun h => absurd h (by simp [hf])⟩

/-- **C38, footstep constraints too.** The CoP constraints do not interfere with the footstep
constraints: `x` is feasible iff it is feasible for the CoP part (as above) and its footstep part
satisfies a condition that does not depend on the CoP part. -/
theorem C38_feasible_iff_with_feet {hull : Vec (Pt K) → Res (Polygon K)} {w w' : HWalkgen K} {fb : K}
    {qp : QPMatrices K} (h : HumGives hull w fb w' qp) (hc : w'.withCop = true) :
    ∃ (cop : ℕ → Polygon K) (feet : (ℕ → K) → Prop),
      (∀ i < w'.lip.N, Spec.SupportPolygon hull w'.sup i (cop i)) ∧
      (∀ x y : ℕ → K, (∀ i, 2 * w'.lip.N ≤ i → x i = y i) → (feet x ↔ feet y)) ∧
      ∀ x : ℕ → K, Spec.Feasible qp x ↔
        (∀ i < w'.lip.N, Spec.SatisfiesConstraints (cop i)
          (Spec.localCop w'.lip.N (fun k => w'.X.get k + x k) i)) ∧ feet x ∧
        (∀ i < qp.p.size, |x i| ≤ MAXBOUND) ∧
        ∀ i < w'.lip.N, Spec.RowsFinite (cop i) (Spec.localCop w'.lip.N x i) := by
  obtain ⟨cop, kin, p, h1, -, h3⟩ := hum_feasible h
  refine ⟨cop, fun x => w'.withFeet = true → ∀ i < w'.sup.M,
          FootBounds w'.lip.N w'.sup.M p w'.X.get x i (kin i) ∧
          FootRows w'.lip.N w'.sup.M p w'.X.get x i (kin i) ∧
          Spec.RowsFinite (kin i) (stepMove w'.lip.N w'.sup.M x i), h1 hc, fun x y hxy => ?_, fun x => ?_⟩
  · have e1 : ∀ i, Spec.footstep w'.lip.N w'.sup.M x i = Spec.footstep w'.lip.N w'.sup.M y i := fun i => by
      unfold Spec.footstep; rw [hxy _ (by omega), hxy _ (by omega)]
    have e2 : ∀ i, Spec.footstep w'.lip.N w'.sup.M (fun k => w'.X.get k + x k) i
        = Spec.footstep w'.lip.N w'.sup.M (fun k => w'.X.get k + y k) i := fun i => by
      unfold Spec.footstep; simp only; rw [hxy _ (by omega), hxy _ (by omega)]
    have e3 : ∀ p i, Spec.previous w'.lip.N w'.sup.M p x i = Spec.previous w'.lip.N w'.sup.M p y i := by
      intro p i; cases i with
      | zero => rfl
      | succ i => exact e1 i
    have e4 : ∀ p i, Spec.previous w'.lip.N w'.sup.M p (fun k => w'.X.get k + x k) i
        = Spec.previous w'.lip.N w'.sup.M p (fun k => w'.X.get k + y k) i := by
      intro p i; cases i with
      | zero => rfl
      | succ i => exact e2 i
    simp only [FootBounds, FootRows, stepMove, e1, e2, e3, e4]
  · rw [h3]
    constructor
    · rintro ⟨a, b, c⟩
      exact ⟨fun i hi => (b hc i hi).1, c, a, fun i hi => (b hc i hi).2⟩
    · rintro ⟨a, b, c, d⟩
      exact ⟨c, fun _ i hi => ⟨a i hi, d i hi⟩, b⟩

/-! ### C39 -/

/-- **C39, partial.** Full statement: if `x` is feasible then each new footstep satisfies the constraints
of its kinematic polygon placed at the *new* position of the previous footstep. Proved: this is true of
the first footstep, of every footstep whose predecessor does not move, and of every footstep whose polygon
has no vertical or horizontal edge (infinite bounds); for the others only the rows of the polygon (its
oblique edges) are respected. Missing: the bounds of the polygon (its vertical and horizontal edges) when
the predecessor moves, for which the claim is false (`C39_violated`). -/
theorem C39_reachable_partial {hull : Vec (Pt K) → Res (Polygon K)} {w w' : HWalkgen K} {fb : K}
    {qp : QPMatrices K} (h : HumGives hull w fb w' qp) (hf : w'.withFeet = true) :
    ∃ (kin : ℕ → Polygon K) (p : Pt K), Spec.SupportAt w'.sup p ∧
      (∀ i < w'.sup.M, Spec.StepPolygon w'.sup i (kin i)) ∧
      ∀ x : ℕ → K, Spec.Feasible qp x → ∀ i < w'.sup.M, ∀ X' d, X' = (fun k => w'.X.get k + x k) →
        d = Spec.seenFrom (Spec.footstep w'.lip.N w'.sup.M X' i)
          (Spec.previous w'.lip.N w'.sup.M p X' i) →
        (∀ r < (kin i).nbGeneral,
          (kin i).coefX.get r * d.x + (kin i).coefY.get r * d.y + (kin i).const.get r ≤ 0) ∧
        (i = 0 ∨ Spec.previous w'.lip.N w'.sup.M p X' i
            = Spec.previous w'.lip.N w'.sup.M p w'.X.get i ∨
          (-MAXBOUND = (kin i).xInf ∧ (kin i).xSup = MAXBOUND ∧ -MAXBOUND = (kin i).yInf ∧
            (kin i).ySup = MAXBOUND ∧ |d.x| ≤ MAXBOUND ∧ |d.y| ≤ MAXBOUND) →
          Spec.SatisfiesConstraints (kin i) d) := by
  obtain ⟨cop, kin, p, -, h2, h3⟩ := hum_feasible h
  refine ⟨kin, p, (h2 hf).1, (h2 hf).2, ?_⟩
  rintro x hx i hi X' d rfl rfl
  obtain ⟨⟨b1, b2, b3, b4⟩, hr, -⟩ := ((h3 x).1 hx).2.2 hf i hi
  refine ⟨hr, fun hcase => ?_⟩
  rcases hcase with h0 | h0 | ⟨c1, c2, c3, c4, c5, c6⟩
  · subst h0; exact ⟨b1, b2, b3, b4, hr⟩
  · rw [← h0] at b1 b2 b3 b4; exact ⟨b1, b2, b3, b4, hr⟩
  · exact ⟨c1 ▸ (abs_le.1 c5).1, c2 ▸ (abs_le.1 c5).2, c3 ▸ (abs_le.1 c6).1, c4 ▸ (abs_le.1 c6).2, hr⟩

/-- A rectangle in the sense of the constraints: no row, bounds smaller than infinity, positive width. -/
def IsRectangle (g : Polygon K) : Prop :=
  g.nbGeneral = 0 ∧ g.xInf < g.xSup ∧ -MAXBOUND ≤ 2 * g.xInf ∧ 2 * g.xSup ≤ MAXBOUND

/-- **C39 is false for all rectangular polygons.** When the plan has two footsteps or more and is
acceptable as it is, there is a feasible change of the plan for which the second footstep is out of reach
of the new first one. -/
theorem C39_violated_rectangles {hull : Vec (Pt K) → Res (Polygon K)} {w w' : HWalkgen K} {fb : K}
    {qp : QPMatrices K} (h : HumGives hull w fb w' qp) (hf : w'.withFeet = true) (hM : 2 ≤ w'.sup.M)
    (hl : IsRectangle w'.sup.left.kin) (hr : IsRectangle w'.sup.right.kin)
    (h0 : Spec.Feasible qp fun _ => 0) :
    ∃ (x : ℕ → K) (g : Polygon K), Spec.Feasible qp x ∧ Spec.StepPolygon w'.sup 1 g ∧
      ∀ X', X' = (fun k => w'.X.get k + x k) → ¬ Spec.SatisfiesConstraints g
        (Spec.seenFrom (Spec.footstep w'.lip.N w'.sup.M X' 1)
          (Spec.footstep w'.lip.N w'.sup.M X' 0)) := by
  obtain ⟨cop, kin, p, -, h2, h3⟩ := hum_feasible h
  obtain ⟨-, hk⟩ := h2 hf
  have hrect : ∀ i < w'.sup.M, IsRectangle (kin i) := by
    intro i hi
    obtain ⟨f, ph, -, -, hg | hg⟩ := hk i hi
    · rw [hg.2]; exact hl
    · rw [hg.2]; exact hr
  set N := w'.lip.N with hN
  set M := w'.sup.M with hMdef
  set X := w'.X.get with hX
  obtain ⟨z1, z2, z3⟩ := (h3 _).1 h0
  -- offsets of the two first footsteps
  obtain ⟨⟨a1, a2, -, -⟩, -⟩ := z3 hf 0 (by omega)
  obtain ⟨⟨a3, a4, -, -⟩, -⟩ := z3 hf 1 (by omega)
  simp only [Spec.seenFrom, Spec.footstep, Spec.previous, add_zero] at a1 a2 a3 a4
  obtain ⟨-, r1, r2, r3⟩ := hrect 0 (by omega)
  obtain ⟨-, r4, r5, r6⟩ := hrect 1 (by omega)
  -- feasibility of a move of the two first footsteps along x
  have key : ∀ u v : K, |u| ≤ MAXBOUND → |v| ≤ MAXBOUND →
      (kin 0).xInf ≤ X (2 * N) - p.x + u → X (2 * N) - p.x + u ≤ (kin 0).xSup →
      (kin 1).xInf ≤ X (2 * N + 1) - X (2 * N) + v → X (2 * N + 1) - X (2 * N) + v ≤ (kin 1).xSup →
      Spec.Feasible qp fun k => if k = 2 * N then u else if k = 2 * N + 1 then v else 0 := by
    intro u v hu hv u1 u2 v1 v2
    rw [h3]
    refine ⟨fun i hi => ?_, fun hc i hi => ?_, fun _ i hi => ⟨?_, ?_, ?_⟩⟩
    · have := z1 i hi
      split_ifs
      · exact hu
      · exact hv
      · exact this
    · have e : ∀ k < 2 * N, (if k = 2 * N then u else if k = 2 * N + 1 then v else 0) = 0 := fun k hk => by
        rw [if_neg (by omega), if_neg (by omega)]
      have := z2 hc i hi
      unfold Spec.localCop at this ⊢
      simp only at this ⊢
      rwa [e i (by omega), e (N + i) (by omega)]
    · have := (z3 hf i hi).1
      unfold FootBounds at this ⊢
      simp only [Spec.seenFrom, Spec.footstep, add_zero] at this ⊢
      rw [if_neg (show ¬ 2 * N + M + i = 2 * N by omega),
        if_neg (show ¬ 2 * N + M + i = 2 * N + 1 by omega), add_zero]
      refine ⟨?_, ?_, this.2.2⟩
      · by_cases hi0 : i = 0
        · subst hi0; simp only [Spec.previous, add_zero, if_true]; linarith
        · by_cases hi1 : i = 1
          · subst hi1
            rw [if_neg (by omega), if_pos rfl]
            simp only [Spec.previous, Spec.footstep, add_zero]
            linarith
          · rw [if_neg (by omega), if_neg (by omega), add_zero]; exact this.1
      · by_cases hi0 : i = 0
        · subst hi0; simp only [Spec.previous, add_zero, if_true]; linarith
        · by_cases hi1 : i = 1
          · subst hi1
            rw [if_neg (by omega), if_pos rfl]
            simp only [Spec.previous, Spec.footstep, add_zero]
            linarith
          · rw [if_neg (by omega), if_neg (by omega), add_zero]; exact this.2.1
    · intro r hr'
      rw [(hrect i hi).1] at hr'
      exact absurd hr' (by omega)
    · intro r hr'
      rw [(hrect i hi).1] at hr'
      exact absurd hr' (by omega)
  rcases lt_or_ge (kin 0).xInf (X (2 * N) - p.x) with hlt | hge
  · refine ⟨_, kin 1, key ((kin 0).xInf - (X (2 * N) - p.x))
      ((kin 1).xSup - (X (2 * N + 1) - X (2 * N))) (abs_le.2 ⟨by linarith, by linarith⟩)
      (abs_le.2 ⟨by linarith, by linarith⟩) (by linarith) (by linarith) (by linarith) (by linarith),
      hk 1 (by omega), ?_⟩
    rintro X' rfl ⟨-, c2, -⟩
    simp only [Spec.seenFrom, Spec.footstep, add_zero, if_true] at c2
    rw [if_neg (by omega)] at c2
    linarith
  · refine ⟨_, kin 1, key ((kin 0).xSup - (X (2 * N) - p.x))
      ((kin 1).xInf - (X (2 * N + 1) - X (2 * N))) (abs_le.2 ⟨by linarith, by linarith⟩)
      (abs_le.2 ⟨by linarith, by linarith⟩) (by linarith) (by linarith) (by linarith) (by linarith),
      hk 1 (by omega), ?_⟩
    rintro X' rfl ⟨c1, -⟩
    simp only [Spec.seenFrom, Spec.footstep, add_zero, if_true] at c1
    rw [if_neg (by omega)] at c1
    linarith

/-! ### Concrete runs -/

/-- The rectangle `[-2, 2] × [-1, 1]`. -/
def demoRect : Polygon ℚ :=
  ⟨⟨4, fun i => [⟨-2, -1⟩, ⟨2, -1⟩, ⟨2, 1⟩, ⟨-2, 1⟩].getD i ⟨0, 0⟩⟩, 2, -2, 1, -1,
    ⟨0, fun _ => 0⟩, ⟨0, fun _ => 0⟩, ⟨0, fun _ => 0⟩⟩

/-- It is what the constructor of `ConvexPolygon` computes from the four vertices. -/
example : okAnd (fun g => g.xInf == -2 && g.xSup == 2 && g.yInf == -1 && g.ySup == 1
      && g.nbGeneral == 0) (Polygon.ofVertices demoRect.vertices) = true := by
  decide +kernel

/-- A user sets three samples of one second, steps of one second, kinematic polygons, and walks. -/
def demoWalkCalls : List (HCall ℚ) :=
  [.setNbSamples 3, .setInitialDoubleSupportLength 1, .setStepPeriod 1, .setKin true demoRect,
    .setKin false demoRect, .setCop true demoRect, .setCop false demoRect, .setConfig true true,
    .setMove true]

/-- The generator after these calls. -/
noncomputable def demoWalkRun : Res (HWalkgen ℚ) :=
  HWalkgen.make >>= fun w =>
    w.run (fun _ => .ok demoRect) (fun _ _ _ => (true, fun _ => 0)) demoWalkCalls

/-- The change of the plan: first footstep two meters back, second one two meters forward. -/
def demoMove (k : ℕ) : ℚ := if k = 6 then -2 else if k = 7 then 2 else 0

set_option maxRecDepth 100000 in
theorem demo_walk_checks : okAnd (fun r => decide (r.1.sup.M = 2 ∧ r.1.lip.N = 3 ∧ r.1.withCop = true ∧
      r.1.withFeet = true ∧ r.2.2.DimensionsAreConsistent 10 0 ∧
      Spec.Feasible r.2.2 (fun _ => 0) ∧ Spec.Feasible r.2.2 demoMove ∧
      (r.1.sup.timeline[0]?.map (·.type)) = some .DS ∧ r.1.sup.move = true ∧
      (r.1.sup.timeline[2]?.map (·.type)) = some .rightSS ∧
      r.1.sup.right.kin.xSup = 2 ∧ r.1.sup.right.kin.nbGeneral = 0 ∧ r.1.sup.right.kin.xInf = -2 ∧
      r.1.sup.left.kin.xSup = 2 ∧ r.1.sup.left.kin.nbGeneral = 0 ∧ r.1.sup.left.kin.xInf = -2 ∧
      r.1.X.get 6 = 0 ∧ r.1.X.get 7 = 0 ∧ 0 < r.1.X.size))
    (demoWalkRun >>= fun w => w.prepare (fun _ => .ok demoRect) 1) = true := by
  decide +kernel

/-- **C39 is false.** The generator of a user who made the calls `demoWalkCalls` gives the solver a QP
with a feasible point for which the second footstep is 4 meters away from the first one, although the
kinematic polygons extend over 2 meters. -/
theorem C39_violated : ∃ w w' qp, demoWalkRun = .ok w ∧
    HumGives (fun _ => .ok demoRect) w 1 w' qp ∧ w'.withFeet = true ∧ w'.sup.M = 2 ∧
    ∃ (x : ℕ → ℚ) (g : Polygon ℚ), Spec.Feasible qp x ∧ Spec.StepPolygon w'.sup 1 g ∧
      ∀ X', X' = (fun k => w'.X.get k + x k) → ¬ Spec.SatisfiesConstraints g
        (Spec.seenFrom (Spec.footstep w'.lip.N w'.sup.M X' 1)
          (Spec.footstep w'.lip.N w'.sup.M X' 0)) := by
  obtain ⟨⟨w', idx, qp⟩, h, hp⟩ := okAnd_true demo_walk_checks
  obtain ⟨w, hw, h⟩ := bind_eq_ok.1 h
  obtain ⟨c1, c2, -, c3, c4, -, c6, c7, c8, c9, c10, c11, c12, -, -, -, c13, c14, -⟩ :=
    of_decide_eq_true hp
  simp only at c1 c2 c3 c4 c6 c7 c8 c9 c10 c11 c12 c13 c14
  refine ⟨w, w', qp, hw, ⟨idx, 10, 0, h, c4⟩, c3, c1, demoMove, w'.sup.right.kin, c6, ?_, ?_⟩
  · obtain ⟨f, hf, hft⟩ := Option.map_eq_some_iff.1 c7
    obtain ⟨ph, hph, hpt⟩ := Option.map_eq_some_iff.1 c9
    refine ⟨f, ph, hf, ?_, .inr ⟨hpt, rfl⟩⟩
    rw [if_pos ⟨hft, c8⟩]; exact hph
  · rintro X' rfl ⟨-, k, -⟩
    simp only [Spec.seenFrom, Spec.footstep, c2, c10, demoMove] at k
    norm_num [c13, c14] at k

/-- The hypotheses of the theorems above are met by this run. -/
example : ∃ w w' qp, demoWalkRun = .ok w ∧ HumGives (fun _ => .ok demoRect) w 1 w' qp ∧
    w'.withCop = true ∧ w'.withFeet = true ∧ 2 ≤ w'.sup.M ∧ IsRectangle w'.sup.left.kin ∧
    IsRectangle w'.sup.right.kin ∧ Spec.Feasible qp (fun _ => 0) ∧ Spec.Feasible qp demoMove := by
  obtain ⟨⟨w', idx, qp⟩, h, hp⟩ := okAnd_true demo_walk_checks
  obtain ⟨w, hw, h⟩ := bind_eq_ok.1 h
  obtain ⟨c1, c2, c0, c3, c4, c5, c6, c7, c8, c9, c10, c11, c12, c13, c14, c15, -, -, -⟩ :=
    of_decide_eq_true hp
  simp only at c0 c1 c2 c3 c4 c5 c6 c10 c11 c12 c13 c14 c15
  refine ⟨w, w', qp, hw, ⟨idx, 10, 0, h, c4⟩, c0, c3, c1.ge, ?_, ?_, c5, c6⟩
  · simp only [IsRectangle, c13, c14, c15, MAXBOUND]; norm_num
  · simp only [IsRectangle, c10, c11, c12, MAXBOUND]; norm_num

/-- A user who wants CoP constraints only: hypotheses of `C38_feasible_iff`; here a plan is feasible and
another one is not. -/
example : ∃ w w' qp, (HWalkgen.make >>= fun w => w.run (fun _ => .ok demoRect)
      (fun _ _ _ => (true, fun _ => 0)) [.setCop true demoRect, .setCop false demoRect,
        .setConfig true false, .setMove true]) = Except.ok w ∧
    HumGives (fun _ => .ok demoRect) w 1 w' qp ∧ w'.withCop = true ∧ w'.withFeet = false ∧
    Spec.Feasible qp (fun k => if k = 0 then 2 else 1) ∧
    ¬ Spec.Feasible qp (fun k => if k = 0 then 3 else 1) := by
  have hk : okAnd (fun r => decide (r.1.withCop = true ∧ r.1.withFeet = false ∧
      r.2.2.DimensionsAreConsistent 2 0 ∧ Spec.Feasible r.2.2 (fun k => if k = 0 then 2 else 1) ∧
      ¬ Spec.Feasible r.2.2 (fun k => if k = 0 then 3 else 1)))
      ((HWalkgen.make >>= fun w => w.run (fun _ => .ok demoRect)
      (fun _ _ _ => (true, fun _ => 0)) [.setCop true demoRect, .setCop false demoRect,
        .setConfig true false, .setMove true]) >>= fun w => w.prepare (fun _ => .ok demoRect) 1)
      = true := by
    set_option maxRecDepth 100000 in decide +kernel
  obtain ⟨⟨w', idx, qp⟩, h, hp⟩ := okAnd_true hk
  obtain ⟨w, hw, h⟩ := bind_eq_ok.1 h
  obtain ⟨c1, c2, c3, c4, c5⟩ := of_decide_eq_true hp
  exact ⟨w, w', qp, hw, ⟨idx, 2, 0, h, c3⟩, c1, c2, c4, c5⟩

end MPC
