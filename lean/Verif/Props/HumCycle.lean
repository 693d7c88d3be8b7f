import Verif.Spec.HumRun
import Verif.Props.HumCost
import Verif.Props.Timeline

/-! # The humanoid generator drives its supervisor by control cycles (C64) -/

set_option linter.unusedSectionVars false

namespace MPC

open Finset

variable {K : Type} [Field K] [LinearOrder K] [IsStrictOrderedRing K] [FloorRing K]

/-- The supervisor that prepared the QP is the updated one, and the first guess changes the CoP only. -/
theorem hprepare_timeline {hull : Vec (Pt K) → Res (Polygon K)} {w w' : HWalkgen K} {fb : K} {idx : ℕ}
    {qp : QPMatrices K} (hp : w.prepare hull fb = .ok (w', idx, qp)) :
    ∃ X, w.sup.updateTimeline w.X fb = .ok (w'.sup, X) ∧ w'.X.size = X.size ∧
      ∀ k, 2 * w'.lip.N ≤ k → w'.X.get k = X.get k := by
  obtain ⟨w0, a, b, q0, q1, hb, -, -, -, -, -, hw'⟩ := hprepare_ok hp
  unfold HWalkgen.begin at hb
  obtain ⟨⟨s, X⟩, h1, hb⟩ := bind_eq_ok.1 hb
  have key : ∃ l, HWalkgen.firstGuess { w with sup := s, X := X, lip := l } = .ok w0 := by
    dsimp only at hb
    split at hb
    all_goals
      obtain ⟨l, -, hb⟩ := bind_eq_ok.1 hb
      obtain ⟨_, -, hb⟩ := bind_eq_ok.1 hb
      obtain ⟨_, -, hb⟩ := bind_eq_ok.1 hb
      exact ⟨l, hb⟩
  obtain ⟨l, hb⟩ := key
  have hs : w0.sup = s ∧ w0.X.size = X.size ∧ ∀ k, 2 * w0.lip.N ≤ k → w0.X.get k = X.get k := by
    unfold HWalkgen.firstGuess at hb
    split at hb
    · simp only [bind_eq_ok] at hb
      obtain ⟨_, -, _, -, _, -, _, -, _, -, X1, e1, _, -, _, -, _, -, _, -, _, -, X2, e2, hb⟩ := hb
      obtain rfl := Except.ok.inj hb
      obtain ⟨-, -, rfl⟩ := Vec.setSegment?_eq_ok e1
      obtain ⟨-, -, rfl⟩ := Vec.setSegment?_eq_ok e2
      refine ⟨rfl, rfl, fun k hk => ?_⟩
      dsimp only at hk ⊢
      rw [if_neg (by omega), if_neg (by omega)]
    · obtain rfl := Except.ok.inj hb
      exact ⟨rfl, rfl, fun _ _ => rfl⟩
  refine ⟨X, ?_⟩
  rw [hw']
  dsimp only
  rw [h1, ← hs.1]
  exact ⟨rfl, hs.2⟩

/-- **C64.** Every successful `solve` of every reachable generator is a control cycle of its supervisor, in which the
solver chooses the new plan. -/
theorem C64_cycle (hull : Vec (Pt K) → Res (Polygon K)) (o : Oracle K)
    (w w2 : HWalkgen K) (fb : K) (b : Bool) (hr : HumHistory hull w)
    (hs : w.solve hull o fb = .ok (b, w2)) : Cycle fb (w.sup, w.X) (w2.sup, w2.X) := by
  obtain ⟨w', qp, ⟨idx, _, _, hp, -⟩, hz, -, -, -, -, -, hu⟩ := C41_follows hull o w w2 fb b hr hs
  obtain ⟨X, h1, h2, -⟩ := hprepare_timeline hp
  refine ⟨w'.sup, X, h1, hz.trans h2, ?_⟩
  rw [(hr.inv.prepare hp).1.N]
  exact hu

theorem HumReaches.call {hull : Vec (Pt K) → Res (Polygon K)} {o : Oracle K} {cs : List (HCall K)}
    {w w' : HWalkgen K} {c : HCall K} {b : Bool} (h : HumReaches hull o cs w) (e : w.step hull o c = .ok (b, w')) :
    HumReaches hull o (cs ++ [c]) w' := by
  obtain ⟨w₀, h0, hr⟩ := h
  refine ⟨w₀, h0, ?_⟩
  clear h0
  induction cs generalizing w₀ with
  | nil =>
    cases hr
    simp only [List.nil_append, HWalkgen.run, e, ok_bind]
  | cons d cs ih =>
    simp only [List.cons_append, HWalkgen.run] at hr ⊢
    obtain ⟨⟨b1, w1⟩, h1, hr⟩ := bind_eq_ok.1 hr
    rw [h1, ok_bind]
    exact ih _ hr

/-- **C64, runs.** The states of the supervisor and of the plan during a run of the generator are those reached by
control cycles and `setMove`: the theorems about them (C26–C37, C44, C55) hold for the generator. -/
theorem C64_reach (hull : Vec (Pt K) → Res (Polygon K)) (o : Oracle K) (w w' : HWalkgen K)
    (okfb : K → Prop) (ok : Sup K → Bool → Prop) (hr : HumHistory hull w) (h0 : Ready (w.sup, w.X))
    (h : HumRuns hull o okfb ok w w') : Reach okfb ok (w'.sup, w'.X) := by
  have key : HumHistory hull w' ∧ Reach okfb ok (w'.sup, w'.X) := by
    induction h with
    | refl => exact ⟨hr, .start h0⟩
    | @call w₁ w₂ c b _ hc e ih =>
      obtain ⟨hr', hR⟩ := ih
      refine ⟨hr'.call e, ?_⟩
      cases c with
      | solve fb => exact .cycle hR hc (C64_cycle hull o w₁ w₂ fb b hr' e)
      | setMove m =>
        unfold HWalkgen.step at e
        obtain ⟨ds, -, e⟩ := bind_eq_ok.1 e
        have e := Except.ok.inj e
        obtain ⟨-, rfl⟩ := Prod.mk.inj e
        exact .setMove hR hc
      | setVelRef v =>
        unfold HWalkgen.step at e
        obtain ⟨_, -, e⟩ := bind_eq_ok.1 e
        obtain ⟨-, rfl⟩ := Prod.mk.inj (Except.ok.inj e)
        exact hR
      | setAngularVelRef v =>
        unfold HWalkgen.step at e
        obtain ⟨_, -, e⟩ := bind_eq_ok.1 e
        obtain ⟨-, rfl⟩ := Prod.mk.inj (Except.ok.inj e)
        exact hR
      | setComState a v =>
        cases a <;> unfold HWalkgen.step at e
        · obtain ⟨_, -, e⟩ := bind_eq_ok.1 e
          obtain ⟨-, rfl⟩ := Prod.mk.inj (Except.ok.inj e)
          exact hR
        · obtain ⟨_, -, e⟩ := bind_eq_ok.1 e
          obtain ⟨-, rfl⟩ := Prod.mk.inj (Except.ok.inj e)
          exact hR
        · obtain ⟨_, -, e⟩ := bind_eq_ok.1 e
          obtain ⟨_, -, e⟩ := bind_eq_ok.1 e
          obtain ⟨_, -, e⟩ := bind_eq_ok.1 e
          obtain ⟨_, -, e⟩ := bind_eq_ok.1 e
          obtain ⟨-, rfl⟩ := Prod.mk.inj (Except.ok.inj e)
          exact hR
      | setWeightings v =>
        unfold HWalkgen.step at e
        obtain ⟨_, -, e⟩ := bind_eq_ok.1 e
        obtain ⟨_, -, e⟩ := bind_eq_ok.1 e
        obtain ⟨_, -, e⟩ := bind_eq_ok.1 e
        obtain ⟨-, rfl⟩ := Prod.mk.inj (Except.ok.inj e)
        exact hR
      | setConfig a b =>
        unfold HWalkgen.step at e
        obtain ⟨-, rfl⟩ := Prod.mk.inj (Except.ok.inj e)
        exact hR
      | _ => exact hc.elim
  exact key.2

/-! ### A concrete run -/

/-- A user of one sample configures the generator. -/
def readyCalls : List (HCall ℚ) :=
  [.setInitialDoubleSupportLength 1, .setStepPeriod 1, .setKin true demoRect, .setKin false demoRect]

set_option maxRecDepth 100000 in
theorem ready_checks : okAnd (fun r => decide (r.1.sup.N = 1 ∧ r.1.sup.T = 1 ∧ r.1.sup.stepPeriod = 1 ∧
      r.1.sup.dsPeriod = 1 ∧ (0 < r.1.sup.left.kin.vertices.size ∧ 0 < r.1.sup.right.kin.vertices.size) ∧
      (r.1.sup.timeline.map fun p => (p.type, p.duration)) = [(.DS, 1)] ∧ r.1.sup.ttnp = 1 ∧ r.1.sup.M = 0 ∧
      r.1.sup.move = false ∧ r.1.X.size = 2 ∧
      (r.1.sup.left.x.factor.size = 12 ∧ r.1.sup.left.y.factor.size = 12 ∧ r.1.sup.left.z.factor.size = 12) ∧
      (r.1.sup.right.x.factor.size = 12 ∧ r.1.sup.right.y.factor.size = 12 ∧ r.1.sup.right.z.factor.size = 12) ∧
      r.2.sup.M = 1 ∧ r.2.sup.move = true))
    (do
      let w ← HWalkgen.make >>= fun w => w.run (fun _ => .ok demoRect) oneOracle readyCalls
      let w1 ← w.step (fun _ => .ok demoRect) oneOracle (.setMove true)
      let w2 ← w1.2.step (fun _ => .ok demoRect) oneOracle (.solve 1)
      let w3 ← w2.2.step (fun _ => .ok demoRect) oneOracle (.solve 1)
      pure (w, w3.2)) = true := by
  decide +kernel

/-- The hypotheses of `C64_reach` are met: the generator is ready, then walks for two cycles. -/
example : ∃ w w', HumReaches (fun _ => .ok demoRect) oneOracle readyCalls w ∧ Ready (w.sup, w.X) ∧
    HumRuns (fun _ => .ok demoRect) oneOracle (· = 1) CanStop w w' ∧ w'.sup.M = 1 ∧ w'.sup.move = true := by
  obtain ⟨r, h, hc⟩ := okAnd_true ready_checks
  obtain ⟨w, hw, h⟩ := bind_eq_ok.1 h
  obtain ⟨w0, h0, hw⟩ := bind_eq_ok.1 hw
  obtain ⟨⟨b1, w1⟩, h1, h⟩ := bind_eq_ok.1 h
  obtain ⟨⟨b2, w2⟩, h2, h⟩ := bind_eq_ok.1 h
  obtain ⟨⟨b3, w3⟩, h3, h⟩ := bind_eq_ok.1 h
  obtain rfl := Except.ok.inj h
  obtain ⟨c1, c2, c3, c4, c5, c6, c7, c8, c9, c10, c11, c12, c13, c14⟩ := of_decide_eq_true hc
  dsimp only at c1 c2 c3 c4 c5 c6 c7 c8 c9 c10 c11 c12 c13 c14
  have hE : (EPS : ℚ) ≤ 1 := by norm_num [EPS]
  have ht : w.sup.timeline = [⟨.DS, 1⟩] := by
    match h : w.sup.timeline, c6 with
    | [⟨t, d⟩], c6 =>
      simp only [List.map_cons, List.map_nil, List.cons.injEq, Prod.mk.injEq, and_true] at c6
      rw [c6.1, c6.2]
  refine ⟨w, w3, ⟨w0, h0, hw⟩, ⟨by simp [c1], by simp [c2, hE], by simp [c3, hE], by simp [c4, hE], c5, ?_, ?_, c8, c9,
    ?_, c11, c12⟩, ?_, c13, c14⟩
  · simp only [c4]; exact ht
  · simp only [c4]; exact c7
  · simp only [c1]; exact c10
  · exact .call (c := .solve 1) (.call (c := .solve 1) (.call (c := .setMove true) .refl
      (Or.inl rfl : CanStop w.sup true) h1) (rfl : (1 : ℚ) = 1) h2) (rfl : (1 : ℚ) = 1) h3

end MPC
