import Mathlib.Data.Rat.Floor
import Verif.Props.CopRun
import Verif.Props.HumShift

/-! # The CoP of the robot: concrete walks (C71) -/

set_option linter.unusedSectionVars false

namespace MPC

open Finset

/-- The smallest box with sides parallel to the axes that contains the points `v`. For two feet at the same ordinate,
with the same box as CoP polygon, it is the convex hull. -/
def boxHull (v : Vec (Pt ℚ)) : Res (Polygon ℚ) :=
  let l := (List.range v.size).map v.get
  let p := l.headD ⟨0, 0⟩
  let x0 := l.foldr (fun p a => min p.x a) p.x
  let x1 := l.foldr (fun p a => max p.x a) p.x
  let y0 := l.foldr (fun p a => min p.y a) p.y
  let y1 := l.foldr (fun p a => max p.y a) p.y
  .ok ⟨⟨4, fun i => [⟨x0, y0⟩, ⟨x1, y0⟩, ⟨x1, y1⟩, ⟨x0, y1⟩].getD i ⟨0, 0⟩⟩, x1, x0, y1, y0,
    ⟨0, fun _ => 0⟩, ⟨0, fun _ => 0⟩, ⟨0, fun _ => 0⟩⟩

theorem le_foldr_min {α : Type} (f : α → ℚ) (m a : ℚ) (l : List α) (h : ∀ p ∈ l, m ≤ f p) (ha : m ≤ a) :
    m ≤ l.foldr (fun p a => min (f p) a) a := by
  induction l with
  | nil => exact ha
  | cons b l ih =>
    exact le_min (h b (by simp)) (ih fun p hp => h p (by simp [hp]))

theorem foldr_max_le {α : Type} (f : α → ℚ) (m a : ℚ) (l : List α) (h : ∀ p ∈ l, f p ≤ m) (ha : a ≤ m) :
    l.foldr (fun p a => max (f p) a) a ≤ m := by
  induction l with
  | nil => exact ha
  | cons b l ih =>
    exact max_le (h b (by simp)) (ih fun p hp => h p (by simp [hp]))

/-- The box of points of a box is part of it. -/
theorem boxHull_sub {v : Vec (Pt ℚ)} {g : Polygon ℚ} {a b c d : ℚ} (h : boxHull v = .ok g) (h0 : 0 < v.size)
    (hv : ∀ i < v.size, a ≤ (v.get i).x ∧ (v.get i).x ≤ b ∧ c ≤ (v.get i).y ∧ (v.get i).y ≤ d) {z : Pt ℚ}
    (hz : Spec.SatisfiesConstraints g z) : a ≤ z.x ∧ z.x ≤ b ∧ c ≤ z.y ∧ z.y ≤ d := by
  obtain rfl := Except.ok.inj h
  obtain ⟨h1, h2, h3, h4, -⟩ := hz
  have hl : ∀ p ∈ (List.range v.size).map v.get, a ≤ p.x ∧ p.x ≤ b ∧ c ≤ p.y ∧ p.y ≤ d := by
    intro p hp
    simp only [List.mem_map, List.mem_range] at hp
    obtain ⟨i, hi, rfl⟩ := hp
    exact hv i hi
  have h0 : ((List.range v.size).map v.get).headD ⟨0, 0⟩ ∈ (List.range v.size).map v.get := by
    cases h : (List.range v.size).map v.get with
    | nil =>
      have := congrArg List.length h
      simp at this
      omega
    | cons a l => simp
  exact ⟨(le_foldr_min (fun p : Pt ℚ => p.x) a _ _ (fun p hp => (hl p hp).1) (hl _ h0).1).trans h1,
    h2.trans (foldr_max_le (fun p : Pt ℚ => p.x) b _ _ (fun p hp => (hl p hp).2.1) (hl _ h0).2.1),
    (le_foldr_min (fun p : Pt ℚ => p.y) c _ _ (fun p hp => (hl p hp).2.2.1) (hl _ h0).2.2.1).trans h3,
    h4.trans (foldr_max_le (fun p : Pt ℚ => p.y) d _ _ (fun p hp => (hl p hp).2.2.2) (hl _ h0).2.2.2)⟩

/-- It is what the constructor of `ConvexPolygon` computes from the four corners. -/
example : okAnd (fun g => okAnd (fun g' => g.xInf == g'.xInf && g.xSup == g'.xSup && g.yInf == g'.yInf &&
      g.ySup == g'.ySup && g.nbGeneral == g'.nbGeneral) (Polygon.ofVertices demoRect.vertices))
    (boxHull demoRect.vertices) = true := by
  decide +kernel

instance (A B : Mat ℚ) : Decidable (Mat.Same A B) := by unfold Mat.Same; infer_instance

/-- Evaluates `ExactInverse`. -/
def exactCheck (w : HWalkgen ℚ) (n : ℤ) : Bool :=
  okAnd (fun d => match d.Uinv with
    | none => true
    | some B => decide (d.U.rows = w.lip.N ∧ d.U.cols = w.lip.N ∧ B.rows = w.lip.N ∧ B.cols = w.lip.N) &&
      okAnd (fun P => decide (P.Same (Mat.one w.lip.N))) (d.U.mul? B) &&
      okAnd (fun P => decide (P.Same (Mat.one w.lip.N))) (B.mul? d.U))
    (computeCopDynamic ((n : ℚ) * w.lip.fb) w.lip.T w.lip.N w.lip.comHeight 0 GRAVITY_NORM 1 1)

theorem exactCheck_exact {w : HWalkgen ℚ} {n : ℤ} (h : exactCheck w n = true) : w.ExactInverse n := by
  intro d B e eB
  unfold exactCheck at h
  rw [e] at h
  simp only [okAnd] at h
  rw [eB] at h
  simp only [Bool.and_eq_true, decide_eq_true_eq] at h
  obtain ⟨⟨⟨h1, h2, h3, h4⟩, h5⟩, h6⟩ := h
  obtain ⟨P, e5, h5⟩ := okAnd_true h5
  obtain ⟨P', e6, h6⟩ := okAnd_true h6
  exact ⟨h1, h2, h3, h4, ⟨P, e5, of_decide_eq_true h5⟩, ⟨P', e6, of_decide_eq_true h6⟩⟩

/-- Evaluates whether the four vertices of a CoP polygon are in the box of `demoRect`. -/
def rectCheck (g : Polygon ℚ) : Bool :=
  decide (g.vertices.size = 4) && (List.range 4).all fun i => decide (-2 ≤ (g.vertices.get i).x ∧
    (g.vertices.get i).x ≤ 2 ∧ -1 ≤ (g.vertices.get i).y ∧ (g.vertices.get i).y ≤ 1)

theorem rectCheck_rect {g : Polygon ℚ} (h : rectCheck g = true) : g.vertices.size = 4 ∧ ∀ i < 4,
    -2 ≤ (g.vertices.get i).x ∧ (g.vertices.get i).x ≤ 2 ∧ -1 ≤ (g.vertices.get i).y ∧ (g.vertices.get i).y ≤ 1 := by
  unfold rectCheck at h
  simp only [Bool.and_eq_true, decide_eq_true_eq, List.all_eq_true, List.mem_range] at h
  exact h

/-- The feet have the CoP polygon `demoRect`, `l` and `r` being their positions. -/
theorem union_box {s : Sup ℚ} {l r t : Pt ℚ} {p : Vec (Pt ℚ)} {g : Polygon ℚ} {z : Pt ℚ}
    (h1 : rectCheck s.left.cop = true) (h2 : rectCheck s.right.cop = true) (hu : Spec.IsUnion s l r t p)
    (hg : boxHull p = .ok g) (hz : Spec.SatisfiesConstraints g z) :
    min l.x r.x - 2 - t.x ≤ z.x ∧ z.x ≤ max l.x r.x + 2 - t.x ∧
      min l.y r.y - 1 - t.y ≤ z.y ∧ z.y ≤ max l.y r.y + 1 - t.y := by
  obtain ⟨l1, l2⟩ := rectCheck_rect h1
  obtain ⟨r1, r2⟩ := rectCheck_rect h2
  obtain ⟨u0, u1, u2⟩ := hu
  rw [l1, r1] at u0
  rw [l1] at u1 u2
  rw [r1] at u2
  refine boxHull_sub hg (by omega) (fun i hi => ?_) hz
  have a1 := min_le_left l.x r.x
  have a2 := min_le_right l.x r.x
  have a3 := le_max_left l.x r.x
  have a4 := le_max_right l.x r.x
  have b1 := min_le_left l.y r.y
  have b2 := min_le_right l.y r.y
  have b3 := le_max_left l.y r.y
  have b4 := le_max_right l.y r.y
  by_cases h4 : i < 4
  · rw [u1 i h4]
    obtain ⟨c1, c2, c3, c4⟩ := l2 i h4
    refine ⟨?_, ?_, ?_, ?_⟩ <;> dsimp only <;> linarith
  · obtain ⟨j, rfl⟩ := Nat.exists_eq_add_of_le (not_lt.1 h4)
    rw [u2 j (by omega)]
    obtain ⟨c1, c2, c3, c4⟩ := r2 j (by omega)
    refine ⟨?_, ?_, ?_, ?_⟩ <;> dsimp only <;> linarith

/-! ## Standing still -/

/-- A solver that keeps the plan. -/
def zeroOracle : Oracle ℚ := fun _ _ _ => (true, fun _ => 0)

/-- A robot that stands still, its CoP at the front of its feet; the CoM moves to the front and slows down. -/
def standCalls : List (HCall ℚ) :=
  [.setInitialDoubleSupportLength 1, .setStepPeriod 1, .setKin true demoRect, .setKin false demoRect,
    .setCop true demoRect, .setCop false demoRect, .setConfig true false,
    .setComState .x ⟨3, fun i => [2 - 100 / 981, 1 / 2, -1].getD i 0⟩]

/-- What is evaluated: the state and the QP when the solver is called, and the state after the call. -/
noncomputable def cycleOf (o : Oracle ℚ) (fb : ℚ) (w : HWalkgen ℚ) :
    Res ((HWalkgen ℚ × ℕ × QPMatrices ℚ) × (Bool × HWalkgen ℚ)) := do
  let a ← w.prepare boxHull fb
  let b ← w.solve boxHull o fb
  pure (a, b)

/-- Facts about the cycle. -/
noncomputable def cycleCheck (o : Oracle ℚ) (fb : ℚ) (n : ℤ) (w' : HWalkgen ℚ) (q : QPMatrices ℚ) : Bool :=
  decide (q.DimensionsAreConsistent (2 * w'.lip.N + 2 * w'.sup.M) 0 ∧ w'.withCop = true ∧ w'.lip.fb = fb) &&
    decide (Spec.Feasible q (o w'.calls q 10000).2) && okAnd (fun m => decide (m = n)) w'.sup.nbCalls &&
    exactCheck w' n

theorem cycleCheck_facts {o : Oracle ℚ} {fb : ℚ} {n : ℤ} {w w' w2 : HWalkgen ℚ} {i : ℕ} {q : QPMatrices ℚ} {b : Bool}
    (e : cycleOf o fb w = .ok ((w', i, q), (b, w2))) (h : cycleCheck o fb n w' q = true) :
    HumGives boxHull w fb w' q ∧ w'.withCop = true ∧ w.solve boxHull o fb = .ok (b, w2) ∧
      Spec.Feasible q (o w'.calls q 10000).2 ∧ w'.sup.nbCalls = .ok n ∧ w'.lip.fb = fb ∧ w'.ExactInverse n := by
  unfold cycleOf at e
  obtain ⟨a, ea, e⟩ := bind_eq_ok.1 e
  obtain ⟨c, ec, e⟩ := bind_eq_ok.1 e
  simp only [pure, Except.pure, Except.ok.injEq, Prod.mk.injEq] at e
  obtain ⟨rfl, rfl⟩ := e
  unfold cycleCheck at h
  simp only [Bool.and_eq_true, decide_eq_true_eq] at h
  obtain ⟨⟨⟨⟨h1, h2, h3⟩, h4⟩, h5⟩, h6⟩ := h
  obtain ⟨m, em, h5⟩ := okAnd_true h5
  rw [of_decide_eq_true h5] at em
  exact ⟨⟨_, _, _, ea, h1⟩, h2, ec, h4, em, h3, exactCheck_exact h6⟩

set_option maxRecDepth 100000 in
theorem stand_checks : okAnd (fun w => okAnd (fun r => cycleCheck zeroOracle (1 / 2) 2 r.1.1 r.1.2.2 &&
      decide (w.robotCop.x = 2 ∧ w.robotCop.y = 0 ∧ w.lip.x.a = -1 ∧ w.lip.y.a = 0 ∧ r.2.2.robotCop.x = 17 / 8) &&
      decide (r.1.1.sup.timeline.map (·.type) = [.DS, .DS] ∧ r.1.1.sup.phaseIdx.get 0 = 1 ∧
        r.1.1.sup.move = false ∧ r.1.1.sup.V.cols = 0 ∧ r.1.1.sup.V0.get 0 0 = 1) &&
      decide (r.1.1.sup.left.pos.x = 0 ∧ r.1.1.sup.left.pos.y = 0 ∧ r.1.1.sup.right.pos.x = 0 ∧
        r.1.1.sup.right.pos.y = 0) &&
      rectCheck r.1.1.sup.left.cop && rectCheck r.1.1.sup.right.cop &&
      decide ((Spec.cubic w.lip.x (r.2.2.transformedX.get 0) 1).a = -1 ∧
        (Spec.cubic w.lip.y (r.2.2.transformedX.get w.lip.N) 1).a = 0)) (cycleOf zeroOracle (1 / 2) w))
    (HWalkgen.make >>= fun w => w.run boxHull zeroOracle standCalls) = true := by
  decide +kernel

/-- The ground below the feet. -/
def ground (z : Pt ℚ) : Prop := -2 ≤ z.x ∧ z.x ≤ 2 ∧ -1 ≤ z.y ∧ z.y ≤ 1

theorem ground_convex : Spec.ConvexSet ground := by
  rintro u v a b ⟨u1, u2, u3, u4⟩ ⟨v1, v2, v3, v4⟩ ha hb hab
  obtain rfl : a = 1 - b := by linarith
  refine ⟨?_, ?_, ?_, ?_⟩ <;> dsimp only <;> nlinarith

/-- **The CoP leaves the support between the samples.** A robot stands still; the box `ground` is the support polygon of
the QP, the CoP is in it at the samples, and the QP solver gives a feasible plan. All the hypotheses of
`C71_between_partial` are met, with two calls of `solve` between the samples, `A = 1` and `T = 1`. After the first call
the CoP is outside of the support, by `T² A / 8`: the bound of `C71_between_partial` is attained. -/
theorem C71_violated_between : ∃ w w2 : HWalkgen ℚ, HumReaches boxHull zeroOracle standCalls w ∧ ground w.robotCop ∧
    CopLoop boxHull zeroOracle ground 1 (1 / 2) 2 w 0 w ∧ CopCycle boxHull zeroOracle ground 1 (1 / 2) 2 w w2 ∧
    ¬ ground w2.robotCop ∧ ∀ c, ground c → (2 * (1 / 2)) ^ 2 / 8 * 1 ≤ |w2.robotCop.x - c.x| := by
  obtain ⟨w, e, h⟩ := okAnd_true stand_checks
  obtain ⟨w0, e0, e⟩ := bind_eq_ok.1 e
  obtain ⟨⟨⟨w', i, q⟩, b, w2⟩, er, h⟩ := okAnd_true h
  simp only [Bool.and_eq_true, decide_eq_true_eq] at h
  obtain ⟨⟨⟨⟨⟨⟨hc, c1, c2, c3, c4, c5⟩, c6, c7, c8, c9, c10⟩, f1, f2, f3, f4⟩, hl⟩, hr⟩, a1, a2⟩ := h
  obtain ⟨g1, g2, g3, g4, g5, g6, g7⟩ := cycleCheck_facts er hc
  have hw : HumReaches boxHull zeroOracle standCalls w := ⟨w0, e0, e⟩
  have ht : ∀ (k : ℕ) (f : Phase ℚ), w'.sup.timeline[k]? = some f → f.type = .DS := by
    intro k f hf
    have : f.type ∈ w'.sup.timeline.map (·.type) := List.mem_map.2 ⟨f, List.mem_of_getElem? hf, rfl⟩
    rw [c6] at this
    simpa using this
  refine ⟨w, w2, hw, ?_, .start, ⟨w', q, b, 0, hw.history, g1, g2, g3, g4, g5, g6, g7, ?_, ?_, ?_, ?_, ?_, ?_⟩, ?_, ?_⟩
  · unfold ground; rw [c1, c2]; norm_num
  · refine ⟨Nat.zero_le _, by rw [c10]; rfl, fun c hc => ?_⟩
    rw [c9] at hc; omega
  · rintro p g z ⟨f, hf, -, -, -, hp⟩ ⟨ph, hph, -, -, hds⟩ hz
    obtain ⟨l, r, t, v, ⟨f', hf', -, hd, -, -⟩, hu, hg⟩ := hds (ht _ _ hph)
    obtain ⟨el, eR, et⟩ := hd c8 (ht _ _ hf')
    have hp := hp (ht _ _ hf) c8
    have := union_box hl hr hu hg hz
    have el' : l = w'.sup.left.pos := el
    have eR' : r = w'.sup.right.pos := eR
    have lx : l.x = 0 := by rw [el', f1]
    have ly : l.y = 0 := by rw [el', f2]
    have rx : r.x = 0 := by rw [eR', f3]
    have ry : r.y = 0 := by rw [eR', f4]
    have tx : t.x = 0 := by rw [et]; dsimp only; rw [lx, rx]; norm_num
    have ty : t.y = 0 := by rw [et]; dsimp only; rw [ly, ry]; norm_num
    rw [lx, ly, rx, ry, tx, ty] at this
    have px : p.x = 0 := by
      rw [hp]; change (w'.sup.right.pos.x + w'.sup.left.pos.x) / 2 = 0; rw [f1, f3]; norm_num
    have py : p.y = 0 := by
      rw [hp]; change (w'.sup.right.pos.y + w'.sup.left.pos.y) / 2 = 0; rw [f2, f4]; norm_num
    unfold ground Spec.previous
    dsimp only
    rw [px, py]
    norm_num at this ⊢
    exact this
  · rw [c3]; norm_num
  · rw [c4]; norm_num
  · have : ((2 : ℕ) : ℚ) * (1 / 2) = 1 := by norm_num
    rw [this, a1]; norm_num
  · have : ((2 : ℕ) : ℚ) * (1 / 2) = 1 := by norm_num
    rw [this, a2]; norm_num
  · rintro ⟨-, h2, -⟩
    rw [c5] at h2
    norm_num at h2
  · rintro c ⟨-, h2, -⟩
    rw [c5, le_abs]
    left
    norm_num
    linarith

/-! ## The end of a walk -/

/-- A solver that puts the local CoP at the back and at the right of its bounds, moves the first footstep when it is
planned (call number 2) and moves it again by `d` to the front during the last call (number 5). -/
def lastOracle (d : ℚ) : Oracle ℚ := fun c q _ =>
  (true, fun i => if i < 4 then q.xl.get i else if c = 2 then [3, 1].getD (i - 4) 0 else if c = 5 ∧ i = 4 then d else 0)

/-- Two samples of one second, steps of two seconds, a double support of one second. -/
def lastCalls : List (HCall ℚ) :=
  [.setInitialDoubleSupportLength 1, .setNbSamples 2, .setStepPeriod 2, .setKin true demoRect, .setKin false demoRect,
    .setCop true demoRect, .setCop false demoRect, .setConfig true false, .setVelRef (Vec.const 4 0)]

/-- The walk starts; the right foot is in the air after the third call. -/
def lastStart : List (HCall ℚ) := [.setMove true, .solve (1 / 2), .solve (1 / 2), .solve (1 / 2)]

/-- The stop is requested; the flight of the right foot goes on. -/
def lastEnd : List (HCall ℚ) := [.setMove false, .solve (1 / 2), .solve (1 / 2)]

/-- The walk up to its last cycle. -/
noncomputable def lastWalk (d : ℚ) (w : HWalkgen ℚ) : Res (HWalkgen ℚ × HWalkgen ℚ) := do
  let r1 ← (fitted w).answers boxHull (lastOracle d) lastStart
  let r2 ← r1.2.answers boxHull (lastOracle d) lastEnd
  pure (r1.2, r2.2)

/-- What is evaluated about a new generator. -/
def startCheck (w : HWalkgen ℚ) : Bool :=
  decide (w.sup.N = 2 ∧ w.sup.T = 1 ∧ w.sup.stepPeriod = 2 ∧ w.sup.dsPeriod = 1 ∧
      0 < w.sup.left.kin.vertices.size ∧ 0 < w.sup.right.kin.vertices.size) &&
    decide ((w.sup.timeline.map fun p => (p.type, p.duration)) = [(.DS, 1)] ∧ w.sup.ttnp = 1 ∧ w.sup.M = 0 ∧
      w.sup.move = false ∧ w.X.size = 4) &&
    decide (w.sup.left.x.factor.size = 12 ∧ w.sup.left.y.factor.size = 12 ∧ w.sup.left.z.factor.size = 12) &&
    decide (w.sup.right.x.factor.size = 12 ∧ w.sup.right.y.factor.size = 12 ∧ w.sup.right.z.factor.size = 12)

theorem startCheck_ready {w : HWalkgen ℚ} (h : startCheck w = true) : Ready (w.sup, w.X) ∧ Grid (1 / 2) w.sup ∧
    w.sup.T = 1 ∧ w.sup.stepPeriod = 2 := by
  unfold startCheck at h
  simp only [Bool.and_eq_true, decide_eq_true_eq] at h
  obtain ⟨⟨⟨⟨c1, c2, c3, c4, c5, c6⟩, c7, c8, c9, c10, c11⟩, l⟩, r⟩ := h
  refine ⟨⟨by rw [c1]; exact two_pos, ?_, ?_, ?_, ⟨c5, c6⟩, ?_, ?_, c9, c10, by rw [c1]; exact c11, l, r⟩,
    ⟨?_, ⟨2, two_pos, ?_⟩, ⟨4, by omega, ?_⟩, ⟨2, two_pos, ?_⟩, ?_⟩, c2, c3⟩
  · rw [c2]; norm_num [EPS]
  · rw [c3]; norm_num [EPS]
  · rw [c4]; norm_num [EPS]
  · dsimp only; rw [c4]; exact timeline_of_map c7
  · dsimp only; rw [c8, c4]
  · norm_num [EPS]
  · rw [c2]; norm_num
  · rw [c3]; norm_num
  · rw [c4]; norm_num
  · rw [c1, c2, c3]; norm_num

/-- The calls `cs` are made one after the other. -/
theorem runs_of_answers {hull : Vec (Pt ℚ) → Res (Polygon ℚ)} {o : Oracle ℚ} {fb : ℚ} {w0 : HWalkgen ℚ}
    {cs : List (HCall ℚ)} : ∀ {w w' : HWalkgen ℚ} {fs : List Bool}, HumRuns hull o (· = fb) CanStop w0 w →
    RunningCalls hull o fb w cs → w.answers hull o cs = .ok (fs, w') → HumRuns hull o (· = fb) CanStop w0 w' := by
  induction cs with
  | nil =>
    intro w w' fs h _ e
    simp only [HWalkgen.answers, Except.ok.injEq, Prod.mk.injEq] at e
    rw [← e.2]; exact h
  | cons c cs ih =>
    intro w w' fs h hr e
    unfold HWalkgen.answers at e
    obtain ⟨⟨f, w1⟩, e1, e⟩ := bind_eq_ok.1 e
    obtain ⟨⟨fs', w2⟩, e2, e⟩ := bind_eq_ok.1 e
    simp only [pure, Except.pure, Except.ok.injEq, Prod.mk.injEq] at e
    rw [← e.2]
    exact ih (h.call hr.1 e1) (hr.2 _ _ e1) e2

theorem history_of_answers {hull : Vec (Pt ℚ) → Res (Polygon ℚ)} {o : Oracle ℚ}
    {cs : List (HCall ℚ)} : ∀ {w w' : HWalkgen ℚ} {fs : List Bool}, HumHistory hull w →
    w.answers hull o cs = .ok (fs, w') → HumHistory hull w' := by
  induction cs with
  | nil =>
    intro w w' fs h e
    simp only [HWalkgen.answers, Except.ok.injEq, Prod.mk.injEq] at e
    rw [← e.2]; exact h
  | cons c cs ih =>
    intro w w' fs h e
    unfold HWalkgen.answers at e
    obtain ⟨⟨f, w1⟩, e1, e⟩ := bind_eq_ok.1 e
    obtain ⟨⟨fs', w2⟩, e2, e⟩ := bind_eq_ok.1 e
    simp only [pure, Except.pure, Except.ok.injEq, Prod.mk.injEq] at e
    rw [← e.2]
    exact ih (h.call e1) e2

/-- What is evaluated about the last cycle. -/
noncomputable def lastCheck (d : ℚ) (w' : HWalkgen ℚ) (q : QPMatrices ℚ) (w2 : HWalkgen ℚ) : Bool :=
  cycleCheck (lastOracle d) (1 / 2) 1 w' q &&
    decide (w'.sup.timeline[0]?.map (·.type) = some .leftSS ∧ w2.sup.timeline[1]?.map (·.type) = some .DS ∧
      w2.sup.ttnp < EPS) &&
    decide (w'.sup.M = 1 ∧ w'.lip.N = 2 ∧ w'.X.get 4 = 2 ∧ w'.X.get 5 = 0 ∧ w2.X.get 4 = 2 + d ∧ w2.X.get 5 = 0) &&
    rectCheck w2.sup.left.cop && rectCheck w2.sup.right.cop &&
    decide (w2.sup.left.pos.x = 0 ∧ w2.sup.right.pos.x = 2 + d ∧ w2.robotCop.x = d - 2)

set_option maxRecDepth 100000 in
theorem last_checks (d : ℚ) (hd : d = 0 ∨ d = -4) : okAnd (fun w => startCheck w && okAnd (fun r =>
      decide (r.1.sup.timeline[0]?.map (·.type) = some .leftSS) &&
      okAnd (fun c => lastCheck d c.1.1 c.1.2.2 c.2.2) (cycleOf (lastOracle d) (1 / 2) r.2)) (lastWalk d w))
    (HWalkgen.make >>= fun w => w.run boxHull zeroOracle lastCalls) = true := by
  obtain rfl | rfl := hd
  · decide +kernel
  · decide +kernel

/-- The last cycle of the walk: all the hypotheses of `C71_sample_partial` but the last one. The solver moves the first
footstep by `d`. -/
theorem last_cycle (d : ℚ) (hd : d = 0 ∨ d = -4) : ∃ (w w' w2 : HWalkgen ℚ) (b : Bool) (qp : QPMatrices ℚ) (ph : Phase ℚ)
    (R : ℚ), HumHistory boxHull w ∧ Reach (· = 1 / 2) CanStop (w.sup, w.X) ∧ Grid (1 / 2) w.sup ∧
    w.sup.T ≤ w.sup.stepPeriod ∧ 1 / 2 < (w.sup.stepPeriod - w.sup.T) / 2 + EPS ∧ HumGives boxHull w (1 / 2) w' qp ∧
    w'.withCop = true ∧ w.solve boxHull (lastOracle d) (1 / 2) = .ok (b, w2) ∧
    Spec.Feasible qp (lastOracle d w'.calls qp 10000).2 ∧ w'.sup.nbCalls = .ok 1 ∧ w'.lip.fb = 1 / 2 ∧
    w'.ExactInverse 1 ∧ Running w2.sup ph R ∧ ph.type = .DS ∧
    (∃ f, w'.sup.timeline[0]? = some f ∧ f.type ≠ .DS) ∧
    Spec.footstep w'.lip.N w'.sup.M w2.X.get 0 = ⟨(Spec.footstep w'.lip.N w'.sup.M w'.X.get 0).x + d,
      (Spec.footstep w'.lip.N w'.sup.M w'.X.get 0).y⟩ ∧
    (Spec.Supported boxHull w2.sup ph.type w2.robotCop → d ≠ -4) := by
  obtain ⟨w0, e, h⟩ := okAnd_true (last_checks d hd)
  obtain ⟨wi, ei, e⟩ := bind_eq_ok.1 e
  simp only [Bool.and_eq_true] at h
  obtain ⟨hs, h⟩ := h
  obtain ⟨⟨w1, w⟩, ew, h⟩ := okAnd_true h
  simp only [Bool.and_eq_true, decide_eq_true_eq] at h
  obtain ⟨h1, h⟩ := h
  obtain ⟨⟨⟨w', i, qp⟩, b, w2⟩, ec, h⟩ := okAnd_true h
  unfold lastCheck at h
  simp only [Bool.and_eq_true, decide_eq_true_eq] at h
  obtain ⟨⟨⟨⟨⟨hc, t1, t2, t3⟩, m1, m2, m3, m4, m5, m6⟩, hl⟩, hr⟩, p1, p2, p3⟩ := h
  obtain ⟨g1, g2, g3, g4, g5, g6, g7⟩ := cycleCheck_facts ec hc
  obtain ⟨hR, hG, hT, hS⟩ := startCheck_ready hs
  unfold lastWalk at ew
  obtain ⟨⟨f1, r1⟩, e1, ew⟩ := bind_eq_ok.1 ew
  obtain ⟨⟨f2, r2⟩, e2, ew⟩ := bind_eq_ok.1 ew
  simp only [pure, Except.pure, Except.ok.injEq, Prod.mk.injEq] at ew
  obtain ⟨rfl, rfl⟩ := ew
  have hw : HumReaches boxHull zeroOracle lastCalls w0 := ⟨wi, ei, e⟩
  have hH : HumHistory boxHull (fitted w0) := .solvers _ hw.history
  have k1 : HumRuns boxHull (lastOracle d) (· = 1 / 2) CanStop (fitted w0) r1 :=
    runs_of_answers (cs := lastStart) .refl ⟨Or.inl rfl, 
      fun _ _ _ => ⟨rfl, fun _ _ _ => ⟨rfl, fun _ _ _ => ⟨rfl, fun _ _ _ => trivial⟩⟩⟩⟩ e1
  obtain ⟨f, hf, hft⟩ := Option.map_eq_some_iff.1 h1
  have k2 : HumRuns boxHull (lastOracle d) (· = 1 / 2) CanStop (fitted w0) r2 :=
    runs_of_answers (cs := lastEnd) k1 ⟨Or.inr (Or.inl ⟨f, hf, by rw [hft]; simp⟩),
      fun _ _ _ => ⟨rfl, fun _ _ _ => ⟨rfl, fun _ _ _ => trivial⟩⟩⟩ e2
  obtain ⟨-, i1, i2, i3, i4, i5⟩ := runs_inv (by norm_num) hH.inv hR k2
  have i2 : r2.sup.N = w0.sup.N := i2
  have i3 : r2.sup.T = w0.sup.T := i3
  have i4 : r2.sup.stepPeriod = w0.sup.stepPeriod := i4
  have i5 : r2.sup.dsPeriod = w0.sup.dsPeriod := i5
  obtain ⟨ph, hph, hpt⟩ := Option.map_eq_some_iff.1 t2
  obtain ⟨f', hf', hft'⟩ := Option.map_eq_some_iff.1 t1
  refine ⟨r2, w', w2, b, qp, ph, ph.duration, history_of_answers (history_of_answers hH e1) e2, i1,
    ⟨hG.pos, by rw [i3]; exact hG.T, by rw [i4]; exact hG.step, by rw [i5]; exact hG.ds,
      by rw [i2, i3, i4]; exact hG.horizon⟩, by rw [i3, i4, hT, hS]; norm_num, by rw [i3, i4, hT, hS]; norm_num [EPS],
    g1, g2, g3, g4, g5, g6, g7, Or.inr ⟨t3, hph, rfl⟩, hpt, ⟨f', hf', by rw [hft']; simp⟩, ?_, ?_⟩
  · rw [m1, m2]
    unfold Spec.footstep
    simp only [Pt.mk.injEq]
    exact ⟨by rw [m5, m3], by rw [m6, m4]⟩
  · rintro hsup rfl
    rw [hpt] at hsup
    obtain ⟨t, p, g, hu, hg, hz⟩ := hsup
    have := (union_box hl hr hu hg hz).1
    unfold Spec.seenFrom at this
    dsimp only at this
    rw [p1, p2, p3] at this
    norm_num at this

/-- **The CoP is not supported at the last sample of a walk.** The double support that ends the walk is planned with the
footstep of the plan of the previous cycle. When the solver moves the footstep during the last cycle, by a feasible
answer, the CoP at the end of this cycle is outside of the hull of the feet. All the hypotheses of `C71_sample_partial`
are met, but for the last one. -/
theorem C71_violated : ∃ (o : Oracle ℚ) (w w' w2 : HWalkgen ℚ) (b : Bool) (qp : QPMatrices ℚ) (ph : Phase ℚ)
    (R : ℚ), HumHistory boxHull w ∧ Reach (· = 1 / 2) CanStop (w.sup, w.X) ∧ Grid (1 / 2) w.sup ∧
    w.sup.T ≤ w.sup.stepPeriod ∧ 1 / 2 < (w.sup.stepPeriod - w.sup.T) / 2 + EPS ∧ HumGives boxHull w (1 / 2) w' qp ∧
    w'.withCop = true ∧ w.solve boxHull o (1 / 2) = .ok (b, w2) ∧ Spec.Feasible qp (o w'.calls qp 10000).2 ∧
    w'.sup.nbCalls = .ok 1 ∧ w'.lip.fb = 1 / 2 ∧ w'.ExactInverse 1 ∧ Running w2.sup ph R ∧
    ¬ Spec.Supported boxHull w2.sup ph.type w2.robotCop := by
  obtain ⟨w, w', w2, b, qp, ph, R, h1, h2, h3, h4, h5, h6, h7, h8, h9, h10, h11, h12, h13, -, -, -, h⟩ :=
    last_cycle (-4) (Or.inr rfl)
  exact ⟨_, w, w', w2, b, qp, ph, R, h1, h2, h3, h4, h5, h6, h7, h8, h9, h10, h11, h12, h13, fun hs => h hs rfl⟩

/-- The hypotheses of `C71_sample_partial` are met at the end of the same walk when the solver does not move the
footstep. -/
example : ∃ (o : Oracle ℚ) (w w' w2 : HWalkgen ℚ) (b : Bool) (qp : QPMatrices ℚ) (ph : Phase ℚ)
    (R : ℚ), HumHistory boxHull w ∧ Reach (· = 1 / 2) CanStop (w.sup, w.X) ∧ Grid (1 / 2) w.sup ∧
    w.sup.T ≤ w.sup.stepPeriod ∧ 1 / 2 < (w.sup.stepPeriod - w.sup.T) / 2 + EPS ∧ HumGives boxHull w (1 / 2) w' qp ∧
    w'.withCop = true ∧ w.solve boxHull o (1 / 2) = .ok (b, w2) ∧ Spec.Feasible qp (o w'.calls qp 10000).2 ∧
    w'.sup.nbCalls = .ok 1 ∧ w'.lip.fb = 1 / 2 ∧ w'.ExactInverse 1 ∧ Running w2.sup ph R ∧ ph.type = .DS ∧
    (∃ f, w'.sup.timeline[0]? = some f ∧ f.type ≠ .DS) ∧
    Spec.footstep w'.lip.N w'.sup.M w2.X.get 0 = Spec.footstep w'.lip.N w'.sup.M w'.X.get 0 ∧
    Spec.Supported boxHull w2.sup ph.type w2.robotCop := by
  obtain ⟨w, w', w2, b, qp, ph, R, h1, h2, h3, h4, h5, h6, h7, h8, h9, h10, h11, h12, h13, h14, h15, h16, -⟩ :=
    last_cycle 0 (Or.inl rfl)
  rw [add_zero] at h16
  exact ⟨_, w, w', w2, b, qp, ph, R, h1, h2, h3, h4, h5, h6, h7, h8, h9, h10, h11, h12, h13, h14, h15, h16,
    C71_sample_partial boxHull _ w w' w2 _ b qp h1 h2 h3 h4 h5 h6 h7 h8 h9 h10 h11 h12 ph R h13 fun _ _ => h16⟩

end MPC
