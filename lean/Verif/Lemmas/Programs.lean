import Verif.Spec.Programs
import Verif.Props.Trajectory
import Verif.Props.Zebulon
import Verif.Lemmas.ZebCycle
import Verif.Props.Hull
/-! Lemmas about the example programs (C81). -/
set_option linter.unusedSectionVars false
namespace MPC
open Finset Pt

section
variable {K : Type} [Field K] [LinearOrder K] [IsStrictOrderedRing K]

theorem trajLoop_ok {s : Spec.TrajSettings K} (o : Oracle K) (hr : s.RefsCurrent) (ts : List K) (w : TrajWalkgen K)
    (h : TrajInv s w) :
    ∃ rows, trajProgramLoop o w ts = .ok rows ∧ rows.map TrajRow.time = ts.map (· * 1000) ∧
      Spec.LogFollows (2 / 100) w.getState rows ∧ ∀ r ∈ rows, r.refPos = 0 ∧ r.refVel = 0 := by
  induction ts generalizing w with
  | nil => exact ⟨[], rfl, rfl, trivial, by simp⟩
  | cons t ts ih =>
    have hfb : (0 : K) < 2 / 100 := by norm_num
    obtain ⟨qp, hg, hq, hs⟩ := givesToSolver_of_prepared h hr hfb
    obtain ⟨b, w1, e1, h1⟩ := step_ok h o (.solve (2 / 100)) ⟨hfb, hr⟩
    have e2 : w.step o (.solve (2 / 100)) = .ok (true, solveResult o w qp (2 / 100)) := hs o
    rw [e2] at e1
    cases e1
    obtain ⟨rows, er, h2, h3, h4⟩ := ih (solveResult o w qp (2 / 100)) h1
    have hN : 0 < (solveResult o w qp (2 / 100)).X.size := by rw [h1.X_size]; exact h1.N_pos
    have ej : (solveResult o w qp (2 / 100)).getJerk = .ok ((solveResult o w qp (2 / 100)).X.get 0) := Vec.at?_ok hN
    refine ⟨⟨t * 1000, (solveResult o w qp (2 / 100)).getState, (solveResult o w qp (2 / 100)).X.get 0, 0, 0⟩ :: rows,
      ?_, ?_, ⟨?_, h3⟩, ?_⟩
    · unfold trajProgramLoop
      rw [hs o, ok_bind]
      dsimp only
      rw [ej, ok_bind, er]
      rfl
    · simp only [List.map_cons, h2]
    · show stateStep ((solveResult o w qp (2 / 100)).X.get 0) (2 / 100) w.model.state
        = Spec.cubic w.model.state ((solveResult o w qp (2 / 100)).X.get 0) (2 / 100)
      generalize (solveResult o w qp (2 / 100)).X.get 0 = j
      simp only [stateStep, Spec.cubic, State3.mk.injEq]
      exact ⟨by ring, by ring, trivial⟩
    · intro r hr'
      rcases List.mem_cons.1 hr' with rfl | hr'
      · exact ⟨rfl, rfl⟩
      · exact h4 r hr'

end

/-! ### Hull of points that are not aligned -/

theorem hull_three {δ : ℝ} {p : Vec (Pt ℝ)} (hp : Spec.Separated δ p)
    (hna : ∃ i < p.size, ∃ j < p.size, ∃ k < p.size,
      ((p.get j).sub (p.get i)).cross ((p.get k).sub (p.get i)) ≠ 0) :
    ∃ l, extractVertices δ p = .ok l ∧ 3 ≤ l.length ∧ Spec.Convex (listVec l) ∧
      ∀ X : Pt ℝ, Spec.InPolygon (listVec l) X ↔ Spec.toProd X ∈ Spec.Hull p := by
  obtain ⟨l, e, h⟩ := C23_is_convex_hull_partial hp hna
  obtain ⟨l', e', h2, hnd, -, -, hc, hin⟩ := C23_hull_partial hp
  rw [e] at e'
  cases e'
  refine ⟨l, e, ?_, hc, h⟩
  by_contra hlt
  obtain ⟨a, b, rfl⟩ := List.length_eq_two.1 (show l.length = 2 by omega)
  have hab : a ≠ b := by
    simp only [List.nodup_cons, List.mem_singleton] at hnd
    exact hnd.1
  obtain ⟨i, hi, j, hj, k, hk, hne⟩ := hna
  apply hne
  have hz : ∀ x < p.size, (b.x - a.x) * ((p.get x).y - a.y) - (b.y - a.y) * ((p.get x).x - a.x) = 0 := by
    intro x hx
    have h0 := hin x hx 0 (by simp [listVec])
    have h1 := hin x hx 1 (by simp [listVec])
    simp [Spec.InnerSide, listVec] at h0 h1
    nlinarith
  have zi := hz i hi
  have zj := hz j hj
  have zk := hz k hk
  have hd : b.x - a.x ≠ 0 ∨ b.y - a.y ≠ 0 := by
    by_contra hc
    simp only [not_or, not_not] at hc
    apply hab
    cases a; cases b
    simp only [Pt.mk.injEq] at hc ⊢
    exact ⟨by linarith [hc.1], by linarith [hc.2]⟩
  have e1 : (b.x - a.x) * (((p.get j).sub (p.get i)).cross ((p.get k).sub (p.get i))) = 0 := by
    simp only [Pt.sub, Pt.cross]
    linear_combination ((p.get j).x - (p.get i).x) * (zk - zi) - ((p.get k).x - (p.get i).x) * (zj - zi)
  have e2 : (b.y - a.y) * (((p.get j).sub (p.get i)).cross ((p.get k).sub (p.get i))) = 0 := by
    simp only [Pt.sub, Pt.cross]
    linear_combination ((p.get j).y - (p.get i).y) * (zk - zi) - ((p.get k).y - (p.get i).y) * (zj - zi)
  rcases hd with hd | hd
  · exact (mul_eq_zero.1 e1).resolve_left hd
  · exact (mul_eq_zero.1 e2).resolve_left hd

/-- The octagon of the Zebulon program is separated. -/
theorem octagon_separated {δ : ℝ} (h0 : 0 ≤ δ) (h1 : δ ≤ 1 / 1000) : Spec.Separated δ (head2 zebProgramPoints) := by
  have split : ∀ i < 8, i = 0 ∨ i = 1 ∨ i = 2 ∨ i = 3 ∨ i = 4 ∨ i = 5 ∨ i = 6 ∨ i = 7 := by omega
  -- the coordinates are multiples of 1/20
  have int : ∀ i < 8, ∃ x y : ℤ, -3 ≤ x ∧ x ≤ 3 ∧ -3 ≤ y ∧ y ≤ 3 ∧ (-3 < y ∨ x = 0) ∧
      (head2 zebProgramPoints).get i = ⟨(x : ℝ) / 20, (y : ℝ) / 20⟩ := by
    intro i hi
    rcases split i hi with rfl | rfl | rfl | rfl | rfl | rfl | rfl | rfl
    · exact ⟨2, 2, by norm_num [head2, zebProgramPoints]⟩
    · exact ⟨0, 3, by norm_num [head2, zebProgramPoints]⟩
    · exact ⟨-2, 2, by norm_num [head2, zebProgramPoints]⟩
    · exact ⟨-3, 0, by norm_num [head2, zebProgramPoints]⟩
    · exact ⟨-2, -2, by norm_num [head2, zebProgramPoints]⟩
    · exact ⟨0, -3, by norm_num [head2, zebProgramPoints]⟩
    · exact ⟨2, -2, by norm_num [head2, zebProgramPoints]⟩
    · exact ⟨3, 0, by norm_num [head2, zebProgramPoints]⟩
  have hsz : (head2 zebProgramPoints).size = 8 := rfl
  have ne_int : ∀ x y x' y' : ℤ, (⟨(x : ℝ) / 20, (y : ℝ) / 20⟩ : Pt ℝ) ≠ ⟨(x' : ℝ) / 20, (y' : ℝ) / 20⟩ →
      x ≠ x' ∨ y ≠ y' := by
    intro x y x' y' h
    by_contra hc
    simp only [not_or, not_not] at hc
    exact h (by rw [hc.1, hc.2])
  refine ⟨h0, by linarith, by rw [hsz]; norm_num, ?_, ?_, ?_, ?_, ?_⟩
  · intro j hj
    rw [hsz] at hj
    rcases split j hj with rfl | rfl | rfl | rfl | rfl | rfl | rfl | rfl <;> norm_num [head2, zebProgramPoints]
  · intro i hi j hj hne
    rw [hsz] at hi hj
    obtain ⟨x, y, a1, a2, a3, a4, -, e1⟩ := int i hi
    obtain ⟨x', y', b1, b2, b3, b4, -, e2⟩ := int j hj
    rw [e1, e2] at hne ⊢
    have h := ne_int _ _ _ _ hne
    have hpos : (1 : ℤ) ≤ (x - x') * (x - x') + (y - y') * (y - y') := by
      rcases h with h | h
      · nlinarith [mul_self_nonneg (y - y'), Int.one_le_abs (sub_ne_zero.2 h), sq_abs (x - x')]
      · nlinarith [mul_self_nonneg (x - x'), Int.one_le_abs (sub_ne_zero.2 h), sq_abs (y - y')]
    have hb : x * x + y * y ≤ 18 := by nlinarith
    have hpos' : (1 : ℝ) ≤ ((x : ℝ) - x') * (x - x') + ((y : ℝ) - y') * (y - y') := by exact_mod_cast hpos
    have hb' : (x : ℝ) * x + y * y ≤ 18 := by exact_mod_cast hb
    have hmin : min ((x / 20 : ℝ) * (x / 20) + y / 20 * (y / 20)) ((x' / 20 : ℝ) * (x' / 20) + y' / 20 * (y' / 20))
        ≤ 18 / 400 := (min_le_left _ _).trans (by nlinarith)
    intro hc
    simp only [isApprox, Pt.sub, normSq] at hc
    unfold EPS at hc
    nlinarith
  · intro i hi j hj hne
    rw [hsz] at hi hj
    obtain ⟨x, y, a1, a2, a3, a4, -, e1⟩ := int i hi
    obtain ⟨x', y', b1, b2, b3, b4, -, e2⟩ := int j hj
    rw [e1, e2] at hne ⊢
    have h := ne_int _ _ _ _ hne
    intro hc
    simp only [isZero, Pt.sub] at hc
    rcases h with h | h
    · have := Int.one_le_abs (sub_ne_zero.2 h)
      have h2 : (1 : ℝ) ≤ |(x : ℝ) - x'| := by exact_mod_cast this
      have h3 : |(x : ℝ) / 20 - x' / 20| = |(x : ℝ) - x'| / 20 := by rw [← sub_div, abs_div]; norm_num
      have := hc.1
      rw [h3] at this
      linarith
    · have := Int.one_le_abs (sub_ne_zero.2 h)
      have h2 : (1 : ℝ) ≤ |(y : ℝ) - y'| := by exact_mod_cast this
      have h3 : |(y : ℝ) / 20 - y' / 20| = |(y : ℝ) - y'| / 20 := by rw [← sub_div, abs_div]; norm_num
      have := hc.2
      rw [h3] at this
      linarith
  · intro i hi hlow j hj
    rw [hsz] at hi hj
    obtain ⟨x, y, a1, a2, a3, a4, -, e1⟩ := int i hi
    obtain ⟨x', y', b1, b2, b3, b4, -, e2⟩ := int j hj
    have h5 := hlow j hj
    rw [e1, e2] at h5 ⊢
    dsimp only at h5 ⊢
    by_cases hy : y' = y
    · left; rw [hy]
    · right
      have h6 : (y : ℝ) ≤ y' := by linarith
      have h7 : y ≤ y' := by exact_mod_cast h6
      have h8 : y + 1 ≤ y' := by omega
      have h9 : (y : ℝ) + 1 ≤ y' := by exact_mod_cast h8
      unfold EPS
      linarith
  · intro i hi j hj k hk
    rw [hsz] at hi hj hk
    obtain ⟨x1, y1, a1, b1, c1, d1, -, e1⟩ := int i hi
    obtain ⟨x2, y2, a2, b2, c2, d2, -, e2⟩ := int j hj
    obtain ⟨x3, y3, a3, b3, c3, d3, -, e3⟩ := int k hk
    rw [e1, e2, e3]
    have hint : ((⟨(x2 : ℝ) / 20, (y2 : ℝ) / 20⟩ : Pt ℝ).sub ⟨(x1 : ℝ) / 20, (y1 : ℝ) / 20⟩).cross
        ((⟨(x3 : ℝ) / 20, (y3 : ℝ) / 20⟩ : Pt ℝ).sub ⟨(x1 : ℝ) / 20, (y1 : ℝ) / 20⟩) =
        (((x2 - x1) * (y3 - y1) - (y2 - y1) * (x3 - x1) : ℤ) : ℝ) / 400 := by
      unfold Pt.sub Pt.cross; push_cast; ring
    have norm_le : ∀ x y x' y' : ℤ, -3 ≤ x → x ≤ 3 → -3 ≤ y → y ≤ 3 → -3 ≤ x' → x' ≤ 3 → -3 ≤ y' → y' ≤ 3 →
        ((⟨(x' : ℝ) / 20, (y' : ℝ) / 20⟩ : Pt ℝ).sub ⟨(x : ℝ) / 20, (y : ℝ) / 20⟩).norm ≤ 1 := by
      intro x y x' y' h1 h2 h3 h4 h5 h6 h7 h8
      have : (x' - x) * (x' - x) + (y' - y) * (y' - y) ≤ 400 := by nlinarith
      have h' : ((x' : ℝ) - x) * (x' - x) + ((y' : ℝ) - y) * (y' - y) ≤ 400 := by exact_mod_cast this
      unfold Pt.norm
      rw [show (1 : ℝ) = Real.sqrt 1 by simp]
      apply Real.sqrt_le_sqrt
      simp only [Pt.sub, normSq]
      nlinarith
    by_cases hz : (x2 - x1) * (y3 - y1) - (y2 - y1) * (x3 - x1) = 0
    · left; rw [hint, hz]; simp
    · right
      have n1 := norm_le _ _ _ _ a1 b1 c1 d1 a2 b2 c2 d2
      have n2 := norm_le _ _ _ _ a1 b1 c1 d1 a3 b3 c3 d3
      have h3 := mul_le_mul n1 n2 (Pt.norm_nonneg _) zero_le_one
      have h4 := Int.one_le_abs hz
      have h5 : (1 : ℝ) ≤ |(((x2 - x1) * (y3 - y1) - (y2 - y1) * (x3 - x1) : ℤ) : ℝ)| := by exact_mod_cast h4
      rw [hint, abs_div, abs_of_pos (show (0 : ℝ) < 400 by norm_num)]
      unfold EPS
      linarith


/-! ### The hull setters -/

theorem ofPoints_three {δ : ℝ} {p : Vec (Pt ℝ)} (hp : Spec.Separated δ p)
    (hna : ∃ i < p.size, ∃ j < p.size, ∃ k < p.size,
      ((p.get j).sub (p.get i)).cross ((p.get k).sub (p.get i)) ≠ 0) :
    ∃ g, Polygon.ofPoints δ p = .ok g ∧ 3 ≤ g.vertices.size ∧ Spec.Convex g.vertices ∧
      ∀ X : Pt ℝ, Spec.InPolygon g.vertices X ↔ Spec.toProd X ∈ Spec.Hull p := by
  obtain ⟨l, e, h3, hc, h⟩ := hull_three hp hna
  obtain ⟨g, eg, -, hv, -⟩ := edges_ok (listVec l) (listVec l).size le_rfl
  refine ⟨g, ?_, ?_, by rw [hv]; exact hc, by rw [hv]; exact h⟩
  · unfold Polygon.ofPoints
    rw [e, ok_bind]
    exact eg
  · rw [hv]; exact h3

theorem octagon_not_aligned : ∃ i < (head2 zebProgramPoints).size, ∃ j < (head2 zebProgramPoints).size,
    ∃ k < (head2 zebProgramPoints).size, (((head2 zebProgramPoints).get j).sub ((head2 zebProgramPoints).get i)).cross
      (((head2 zebProgramPoints).get k).sub ((head2 zebProgramPoints).get i)) ≠ 0 :=
  ⟨0, by norm_num [head2, zebProgramPoints], 1, by norm_num [head2, zebProgramPoints], 3,
    by norm_num [head2, zebProgramPoints], by norm_num [head2, zebProgramPoints, Pt.sub, Pt.cross]⟩

/-! ### The Zebulon program -/

variable {tr : Trig ℝ} {o : Oracle ℝ}

theorem zStepTo {s : Spec.ZebSettings ℝ} {L : ℝ} {k : ℝ × ℝ} {w : Zeb ℝ} (h : ZInv tr s L k w) (o : Oracle ℝ)
    {c : ZebCall ℝ} (hc : s.Pre c) (hs : ∀ fb, c ≠ .solve fb) :
    ∃ b w', w.step o tr c = .ok (b, w') ∧ ZInv tr (s.apply c) (s.nextTiltHeight L c) (s.nextShift k c) w' :=
  zStep_ok h o c (by cases c <;> first | exact hc | exact absurd rfl (hs _))

/-- New weights and configuration. -/
theorem zReweight {s : Spec.ZebSettings ℝ} {L : ℝ} {k : ℝ × ℝ} {w : Zeb ℝ} (h : ZInv tr s L k w) (o : Oracle ℝ)
    (wt : ZWeighting ℝ) (c : ZConfig) (hw : s.Pre (.setWeightings wt)) :
    ∃ w', w.run o tr [.setWeightings wt, .setConfig c] = .ok w' ∧
      ZInv tr ((s.apply (.setWeightings wt)).apply (.setConfig c)) L k w' ∧ w'.base = w.base ∧ w'.lip = w.lip := by
  obtain ⟨b1, w1, e1, h1⟩ := zStepTo h o hw (by simp)
  obtain ⟨b2, w2, e2, h2⟩ := zStepTo h1 o (c := .setConfig c) trivial (by simp)
  refine ⟨w2, ?_, h2, ?_⟩
  · unfold Zeb.run
    rw [e1, ok_bind]
    unfold Zeb.run
    dsimp only
    rw [e2]
    rfl
  · unfold Zeb.step at e1 e2
    dsimp only at e1 e2
    obtain ⟨_, -, e1⟩ := bind_eq_ok.1 e1
    obtain ⟨_, -, e1⟩ := bind_eq_ok.1 e1
    obtain ⟨_, -, e1⟩ := bind_eq_ok.1 e1
    obtain ⟨_, -, e1⟩ := bind_eq_ok.1 e1
    obtain ⟨_, -, e1⟩ := bind_eq_ok.1 e1
    obtain ⟨_, -, e1⟩ := bind_eq_ok.1 e1
    obtain ⟨w3, f1, e1⟩ := bind_eq_ok.1 e1
    obtain ⟨w4, f2, e2⟩ := bind_eq_ok.1 e2
    cases e1
    cases e2
    have g1 := computeConstantPart_lip f1
    have g2 := computeConstantPart_lip f2
    exact ⟨g2.2.trans g1.2, g2.1.trans g1.1⟩

/-- The states of the loop of the program. -/
def ZebProg.Inv (tr : Trig ℝ) (s : ZebProg) : Prop := ∃ st L k, ZInv tr st L k s.w ∧ st.RefsCurrent

theorem updatePsi_ok {s : ZebProg} (h : s.Inv tr) (o : Oracle ℝ) :
    ∃ s', updatePsi o tr s = .ok s' ∧ s'.Inv tr ∧ s'.w.base = s.w.base ∧ s'.w.lip = s.w.lip ∧
      (s.touch = true → s'.touch = true) ∧ (s'.psi = ⟨0, 0, 0⟩ ∧ s'.touch = true ∨ s'.psi.p ≤ -(1 / 100) ∧ s'.touch = false) := by
  obtain ⟨st, L, k, hI, hr⟩ := h
  unfold updatePsi
  dsimp only
  by_cases hc : 0 ≤ (psiStep s.psi s.w.base.y.p s.w.lip.y.p s.w.base.y.a s.w.lip.y.a).p ∨ s.touch = true
  · rw [if_pos hc]
    obtain ⟨w', e, h', hb, hl⟩ := zReweight hI o ⟨10, 0, 10, 100, 1 / 100000, 0, 0⟩ ⟨true, false, false, false⟩
      (by simp only [Spec.ZebSettings.Pre]; norm_num)
    refine ⟨⟨w', ⟨0, 0, 0⟩, true⟩, ?_, ⟨_, _, _, h', hr⟩, hb, hl, fun _ => rfl, .inl ⟨rfl, rfl⟩⟩
    unfold touchSetup
    rw [e]
    rfl
  · rw [if_neg hc]
    simp only [not_or, not_le] at hc
    refine ⟨_, rfl, ⟨_, _, _, hI, hr⟩, rfl, rfl, fun h => h, .inr ⟨?_, by simpa using hc.2⟩⟩
    have h0 := hc.1
    unfold psiStep at h0 ⊢
    dsimp only at h0 ⊢
    split_ifs at h0 ⊢ with h1
    · exact absurd h0 (lt_irrefl _)
    · exact not_lt.1 h1

theorem zebTurn_ok {s : ZebProg} (h : s.Inv tr) (o : Oracle ℝ) (l : TiltTimes) (t : ℝ) :
    ∃ row s', zebProgramTurn o tr l s t = .ok (true, row, s') ∧ s'.Inv tr ∧ row.time = t ∧
      row.base = s'.w.base.y ∧ row.com = s'.w.lip.y ∧ row.delta = row.com.p - row.base.p ∧ row.psi = s'.psi ∧
      (∃ jb jc, row.base = Spec.cubic s.w.base.y jb (2 / 100) ∧ row.com = Spec.cubic s.w.lip.y jc (2 / 100)) ∧
      (t < l.a → row.psi = ⟨0, 0, 0⟩) ∧
      (l.a ≤ t → l.f ≤ t → row.psi = ⟨0, 0, 0⟩ ∨ row.psi.p ≤ -(1 / 100)) ∧
      (l.a ≤ t → l.f ≤ t → row.psi = ⟨0, 0, 0⟩ → s'.touch = true) ∧
      (s.touch = true → s'.touch = true ∧ (l.a ≤ t → l.f ≤ t → row.psi = ⟨0, 0, 0⟩)) := by
  obtain ⟨st, L, k, hI, hr⟩ := h
  unfold zebProgramTurn
  dsimp only
  -- weights at the end of the push
  obtain ⟨w1, e1, ⟨st1, hI1, hr1⟩, hb1, hl1⟩ : ∃ w1,
      endTilt o tr l t s.w = .ok w1 ∧
      (∃ st1, ZInv tr st1 L k w1 ∧ st1.RefsCurrent) ∧ w1.base = s.w.base ∧ w1.lip = s.w.lip := by
    unfold endTilt
    by_cases hc : l.d ≤ t ∧ t < l.e
    · rw [if_pos hc]
      obtain ⟨w', e, h', hb, hl⟩ := zReweight hI o ⟨1 / 1000, 0, 0, 100, 1 / 1000, 10, 10⟩ ⟨false, false, false, false⟩
        (by simp only [Spec.ZebSettings.Pre]; norm_num)
      exact ⟨w', e, ⟨_, h', hr⟩, hb, hl⟩
    · rw [if_neg hc]
      exact ⟨_, rfl, ⟨_, hI, hr⟩, rfl, rfl⟩
  -- the tilt
  obtain ⟨v, hv⟩ : ∃ v : Vec ℝ, v = ⟨3, fun i => if i = 0 then (tiltInput l t s.psi).p else
    if i = 1 then (tiltInput l t s.psi).v else (tiltInput l t s.psi).a⟩ := ⟨_, rfl⟩
  have hv3 : v.size = 3 := by rw [hv]
  obtain ⟨b2, w2, e2, h2⟩ := zStepTo hI1 o (c := .setPitch v) hv3 (by simp)
  have hr2 : (st1.apply (.setPitch v)).RefsCurrent := hr1
  have hw2 : w2.base.y = w1.base.y ∧ w2.lip = w1.lip := by
    have := e2
    unfold Zeb.step at this
    dsimp only at this
    obtain ⟨_, -, e⟩ := bind_eq_ok.1 this
    cases e
    exact ⟨rfl, rfl⟩
  obtain ⟨qp, u, ps, v', qs, hq, e3⟩ := zSolve_ok o h2 hr2 (show (0 : ℝ) < 2 / 100 by norm_num)
  have h3 := zSolveResult_inv o h2 hq (2 / 100)
  rw [e1, ok_bind, ← hv, e2, ok_bind]
  dsimp only
  rw [e3, ok_bind]
  dsimp only
  unfold tiltAfter
  obtain ⟨w3, hw3⟩ : ∃ w3, w3 = zSolveResult o (st1.apply (.setPitch v)).nbSamples w2 qp (2 / 100) := ⟨_, rfl⟩
  rw [← hw3] at h3 ⊢
  have hcub : ∃ jb jc, w3.base.y = Spec.cubic s.w.base.y jb (2 / 100) ∧ w3.lip.y = Spec.cubic s.w.lip.y jc (2 / 100) := by
    have hcu : ∀ (j : ℝ) (x : State3 ℝ), stateStep j (2 / 100) x = Spec.cubic x j (2 / 100) := by
      intro j x
      simp only [stateStep, Spec.cubic, State3.mk.injEq]
      exact ⟨by ring, by ring, trivial⟩
    refine ⟨w3.X.get (3 * (st1.apply (.setPitch v)).nbSamples), w3.X.get (st1.apply (.setPitch v)).nbSamples, ?_, ?_⟩
    · rw [← hcu, hw3, ← hb1, ← hw2.1]; rfl
    · rw [← hcu, hw3, ← hl1, ← hw2.2]; rfl
  have hI3 : ∀ psi tch, (⟨w3, psi, tch⟩ : ZebProg).Inv tr := fun _ _ => ⟨_, _, _, h3, hr2⟩
  by_cases hta : t < l.a
  · rw [if_pos hta]
    refine ⟨_, _, rfl, hI3 _ _, rfl, rfl, rfl, rfl, rfl, hcub, fun _ => rfl, ?_, ?_, ?_⟩
    · intro h; exact absurd hta (not_lt.2 h)
    · intro h; exact absurd hta (not_lt.2 h)
    · intro h1; exact ⟨h1, fun h => absurd hta (not_lt.2 h)⟩
  · rw [if_neg hta]
    by_cases htf : l.f ≤ t
    · rw [if_pos htf]
      obtain ⟨s', e4, hI4, hb4, hl4, ht4, hp4⟩ := updatePsi_ok (hI3 (tiltInput l t s.psi) s.touch) o
      rw [e4]
      refine ⟨_, _, rfl, hI4, rfl, rfl, rfl, rfl, rfl, ?_, fun h => absurd h hta, ?_, ?_, ?_⟩
      · obtain ⟨jb, jc, h1, h2⟩ := hcub
        refine ⟨jb, jc, ?_, ?_⟩
        · rw [← h1]; show s'.w.base.y = w3.base.y; rw [hb4]
        · rw [← h2]; show s'.w.lip.y = w3.lip.y; rw [hl4]
      · intro _ _
        rcases hp4 with h | h
        · exact .inl h.1
        · exact .inr h.1
      · intro _ _ h0
        rcases hp4 with h | h
        · exact h.2
        · have h1 := h.1
          have : s'.psi = ⟨0, 0, 0⟩ := h0
          rw [this] at h1
          norm_num at h1
      · intro h1
        have h2 := ht4 h1
        refine ⟨h2, fun _ _ => ?_⟩
        rcases hp4 with h | h
        · exact h.1
        · rw [h2] at h; exact absurd h.2 (by simp)
    · rw [if_neg htf]
      refine ⟨_, _, rfl, hI3 _ _, rfl, rfl, rfl, rfl, rfl, hcub, fun h => absurd h hta, ?_, ?_, ?_⟩
      · intro _ h; exact absurd h htf
      · intro _ h; exact absurd h htf
      · intro h1; exact ⟨h1, fun _ h => absurd h htf⟩

theorem zebLoop_ok (o : Oracle ℝ) (l : TiltTimes) (ts : List ℝ) (s : ZebProg) (h : s.Inv tr) :
    ∃ rows s', zebProgramLoop o tr l s ts = .ok (rows, s') ∧ rows.map ZebRow.time = ts ∧
      Spec.ZebLogFollows (2 / 100) s.w.base.y s.w.lip.y rows ∧
      (∀ r ∈ rows, (r.time < l.a → r.psi = ⟨0, 0, 0⟩) ∧
        (l.a ≤ r.time → l.f ≤ r.time → r.psi = ⟨0, 0, 0⟩ ∨ r.psi.p ≤ -(1 / 100))) ∧
      (s.touch = true → ∀ r ∈ rows, l.a ≤ r.time → l.f ≤ r.time → r.psi = ⟨0, 0, 0⟩) ∧
      rows.Pairwise (fun r r' => l.a ≤ r.time → l.f ≤ r.time → r.psi = ⟨0, 0, 0⟩ → l.a ≤ r'.time → l.f ≤ r'.time →
        r'.psi = ⟨0, 0, 0⟩) := by
  induction ts generalizing s with
  | nil => exact ⟨[], s, rfl, rfl, trivial, by simp, by simp, List.Pairwise.nil⟩
  | cons t ts ih =>
    obtain ⟨row, s1, e1, hI1, ht, hb, hc, hd, hp, hcub, ha, hf, htouch, hkeep⟩ := zebTurn_ok h o l t
    obtain ⟨rows, s2, e2, h1, h2, h3, h4, h5⟩ := ih s1 hI1
    refine ⟨row :: rows, s2, ?_, ?_, ⟨hcub, hd, ?_⟩, ?_, ?_, ?_⟩
    · unfold zebProgramLoop
      rw [e1, ok_bind]
      dsimp only
      rw [if_pos rfl, e2]
      rfl
    · rw [List.map_cons, h1, ht]
    · rw [hb, hc]; exact h2
    · intro r hr
      rcases List.mem_cons.1 hr with rfl | hr
      · rw [ht]; exact ⟨ha, hf⟩
      · exact h3 r hr
    · intro h0 r hr
      obtain ⟨k1, k2⟩ := hkeep h0
      rcases List.mem_cons.1 hr with rfl | hr
      · rw [ht]; exact k2
      · exact h4 k1 r hr
    · refine List.pairwise_cons.2 ⟨?_, h5⟩
      intro r' hr' q1 q2 q3 q4 q5
      rw [ht] at q1 q2
      exact h4 (htouch q1 q2 q3) r' hr' q4 q5

/-- The settings of the program before the polygons. -/
theorem zebSetup1_legal (cx cy : ℝ) : (Spec.ZebSettings.init cx cy).Legal zebProgramSetup1 := by
  simp [zebProgramSetup1, Spec.ZebSettings.Legal, Spec.ZebSettings.Pre, Spec.ZebSettings.apply, Spec.ZebSettings.init,
    Spec.ZebSettings.TiltRegular, Spec.tiltGain, GRAVITY_NORM, EPS]
  norm_num

theorem zebSetup1_refs (cx cy : ℝ) : (Spec.ZebSettings.init cx cy).RefsCurrentAtSolves zebProgramSetup1 := by
  simp [zebProgramSetup1, Spec.ZebSettings.RefsCurrentAtSolves]

theorem zebSetup2_legal {s : Spec.ZebSettings ℝ} (h : s.nbSamples = 10) : s.Legal zebProgramSetup2 := by
  simp [zebProgramSetup2, Spec.ZebSettings.Legal, Spec.ZebSettings.Pre, Spec.ZebSettings.apply, Vec.const, h]

theorem zebSetup2_refs (s : Spec.ZebSettings ℝ) : s.RefsCurrentAtSolves zebProgramSetup2 := by
  simp [zebProgramSetup2, Spec.ZebSettings.RefsCurrentAtSolves]

/-- Until the loop. -/
theorem zebStart_ok {δ : ℝ} (h0 : 0 ≤ δ) (h1 : δ ≤ 1 / 1000) (o : Oracle ℝ) (tr : Trig ℝ) (cx cy : ℝ) (l : TiltTimes)
    (ts : List ℝ) : ∃ s : ZebProg, s.Inv tr ∧ s.psi = ⟨0, 0, 0⟩ ∧ s.touch = false ∧
      zebProgram δ o tr (some cx, some cy) l ts = zebProgramLoop o tr l s ts := by
  obtain ⟨w0, e0, i0⟩ := zMake_ok tr cx cy
  obtain ⟨w1, e1⟩ := zRun_ok i0 o zebProgramSetup1 (zebSetup1_legal cx cy) (zebSetup1_refs cx cy)
  have i1 := zRun_inv i0 o _ e1
  obtain ⟨g, eg, hg, -, -⟩ := ofPoints_three (octagon_separated h0 h1) octagon_not_aligned
  obtain ⟨b2, w2, e2, i2⟩ := zStepTo i1 o (c := .setCopPolygon g.vertices) hg (by simp)
  obtain ⟨b3, w3, e3, i3⟩ := zStepTo i2 o (c := .setComPolygon g.vertices) hg (by simp)
  obtain ⟨w4, e4⟩ := zRun_ok i3 o zebProgramSetup2 (zebSetup2_legal rfl) (zebSetup2_refs _)
  have i4 := zRun_inv i3 o _ e4
  refine ⟨⟨w4, ⟨0, 0, 0⟩, false⟩, ⟨_, _, _, i4, ⟨rfl, rfl, rfl⟩⟩, rfl, rfl, ?_⟩
  have f2 : w1.setCopPolygon g.vertices = .ok w2 := by
    unfold Zeb.step at e2
    obtain ⟨_, e, q⟩ := bind_eq_ok.1 e2
    cases q
    exact e
  have f3 : w2.setComPolygon g.vertices = .ok w3 := by
    unfold Zeb.step at e3
    obtain ⟨_, e, q⟩ := bind_eq_ok.1 e3
    cases q
    exact e
  unfold zebProgram
  rw [e0, ok_bind, e1, ok_bind]
  unfold Zeb.setBaseCopHull Zeb.setBaseComHull
  rw [eg]
  simp only [ok_bind]
  rw [f2, ok_bind, f3, ok_bind, e4, ok_bind]

end MPC
