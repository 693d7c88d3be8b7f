import Verif.Lemmas.SupHistory
import Verif.Lemmas.Interpolator

/-!
# Control cycles on a grid never fault
-/
set_option linter.unusedSectionVars false

namespace MPC

variable {K : Type} [Field K] [LinearOrder K] [IsStrictOrderedRing K]

/-- Multiples of a period larger than `EPS` are never at distance `EPS`. -/
theorem grid_ne {fb : K} (h : EPS < fb) (a b : ℕ) : (a : K) * fb ≠ b * fb + EPS := by
  intro e
  have hE : (0 : K) < EPS := EPS_pos
  have hfb : 0 < fb := hE.trans h
  rcases Nat.lt_or_ge b a with hl | hl
  · have h1 : (b : K) + 1 ≤ a := by exact_mod_cast hl
    nlinarith
  · have h1 : (a : K) ≤ b := by exact_mod_cast hl
    nlinarith

/-- A multiple of the period is below `EPS` only if it is zero. -/
theorem grid_lt {fb : K} (h : EPS < fb) {a : ℕ} : (a : K) * fb < EPS ↔ a = 0 := by
  have hE : (0 : K) < EPS := EPS_pos
  constructor
  · intro h1
    by_contra hc
    have h2 : (1 : K) ≤ a := by exact_mod_cast Nat.one_le_iff_ne_zero.2 hc
    nlinarith
  · rintro rfl; simpa using hE

/-- What holds between two cycles on a grid. -/
structure GInv (fb : K) (a : Sup K × Vec K) (f : Phase K) (mv : Bool) (R : K) : Prop where
  hist : HInv a f mv R
  tick : ∃ j : ℕ, a.1.ttnp = j * fb
  more : a.1.ttnp < EPS → 2 ≤ a.1.timeline.length
  cur : f.type ≠ .DS → a.1.ttnp ≤ a.1.stepPeriod
  has : f.type ≠ .DS → 1 ≤ a.1.M
  left : a.1.left.HasFactors
  right : a.1.right.HasFactors

theorem Grid.period {fb : K} {s : Sup K} (h : Grid fb s) (t : PhaseType) :
    ∃ p : ℕ, 0 < p ∧ s.period t = p * fb := by
  cases t
  · exact h.ds
  · exact h.step
  · exact h.step

/-- The times of a grid are generic. -/
theorem Grid.generic {fb : K} {s : Sup K} (h : Grid fb s) (ht : ∃ j : ℕ, s.ttnp = j * fb)
    (t : PhaseType) : s.Generic t := by
  have hE : (0 : K) < EPS := EPS_pos
  obtain ⟨n, hn, hT⟩ := h.T
  obtain ⟨j, hj⟩ := ht
  refine ⟨?_, ?_, ?_⟩
  · intro i _ _ e
    rw [hj, hT, ← mul_assoc, ← Nat.cast_mul] at e
    exact grid_ne h.pos _ _ e
  · intro k hk _
    obtain ⟨k, rfl⟩ : ∃ l, k = l + 1 := ⟨k - 1, by omega⟩
    obtain ⟨p, hp, e⟩ := h.period (s.typeAt t (k + 1))
    rw [Sup.durAt, e]
    refine lt_of_lt_of_le h.pos ?_
    have h2 : (1 : K) ≤ p := by exact_mod_cast hp
    nlinarith [hE.trans h.pos]
  · intro k hk _ i _ _ e
    obtain ⟨k, rfl⟩ : ∃ l, k = l + 1 := ⟨k - 1, by omega⟩
    obtain ⟨p, hp, e'⟩ := h.period (s.typeAt t (k + 1))
    rw [Sup.durAt, e', hT, ← mul_assoc, ← Nat.cast_mul] at e
    exact grid_ne h.pos _ _ e

theorem Grid.congr {fb : K} {s s' : Sup K} (h : Grid fb s) (hN : s'.N = s.N) (hT : s'.T = s.T)
    (hs : s'.stepPeriod = s.stepPeriod) (hd : s'.dsPeriod = s.dsPeriod) : Grid fb s' :=
  ⟨h.pos, by rw [hT]; exact h.T, by rw [hs]; exact h.step, by rw [hd]; exact h.ds,
    by rw [hs, hN, hT]; exact h.horizon⟩

/-- The phase change never faults. -/
theorem GInv.pop_ok {fb fb' : K} {a : Sup K × Vec K} {f : Phase K} {mv : Bool} {R : K}
    (h : GInv fb a f mv R) :
    ∃ s₁ v₁, Sup.popPhase { a.1 with fb := fb' } a.2 = .ok (s₁, v₁) := by
  by_cases hlt : a.1.ttnp < EPS
  · have hl := h.more hlt
    have hfr := h.hist.front
    obtain ⟨g, r, htl⟩ : ∃ g r, a.1.timeline = f :: g :: r := by
      cases htl : a.1.timeline with
      | nil => rw [htl] at hl; simp at hl
      | cons x r =>
        rw [htl] at hl hfr
        simp only [List.getElem?_cons_zero, Option.some.injEq] at hfr
        subst hfr
        cases r with
        | nil => simp at hl
        | cons y r => exact ⟨y, r, rfl⟩
    by_cases hd : f.type = .DS
    · exact ⟨_, _, Sup.popPhase_pop (v' := a.2) hlt htl (fun _ => rfl) (fun h => absurd hd h)⟩
    · have h1 := h.has hd
      obtain ⟨w, hw, -⟩ := Sup.shorten_ok (s := { a.1 with fb := fb' }) (var := a.2)
        (m := a.1.M - 1) (by rw [h.hist.var, Nat.sub_add_cancel h1])
      exact ⟨_, _, Sup.popPhase_pop hlt htl (fun h => absurd h hd) (fun _ => hw)⟩
  · refine ⟨_, _, by unfold Sup.popPhase; rw [if_neg hlt]; rfl⟩

/-- Facts on the state between the phase change and the preview. -/
theorem GInv.running {fb : K} {a : Sup K × Vec K} {f : Phase K} {mv : Bool} {R R₁ : K}
    (h : GInv fb a f mv R) (hg : Grid fb a.1) {f₁ : Phase K} (hr : Running a.1 f₁ R₁) :
    (∃ j : ℕ, 0 < j ∧ R₁ = j * fb) ∧ (f₁.type ≠ .DS → R₁ ≤ a.1.stepPeriod) := by
  rcases hr with ⟨h1, h2, rfl⟩ | ⟨h1, h2, rfl⟩
  · rw [h.hist.front] at h2
    cases h2
    obtain ⟨j, hj⟩ := h.tick
    refine ⟨⟨j, ?_, hj⟩, h.cur⟩
    rw [Nat.pos_iff_ne_zero]
    intro hz
    rw [hj] at h1
    exact absurd ((grid_lt hg.pos).2 hz) (not_lt.2 h1)
  · have := h.hist.next f₁ h2
    have h3 : f₁.duration = a.1.period f₁.type := by
      rw [this]
      exact Sup.period_congr (s := a.1) (s' := { a.1 with move := mv }) rfl rfl _
    rw [h3]
    refine ⟨hg.period _, fun hd => ?_⟩
    cases ht : f₁.type with
    | DS => exact absurd ht hd
    | leftSS => exact le_rfl
    | rightSS => exact le_rfl

/-- The timeline update never faults on a grid. -/
theorem GInv.update_ok [Archimedean K] {fb fb' : K} {a : Sup K × Vec K} {f : Phase K} {mv : Bool}
    {R : K} (h : GInv fb a f mv R) (hg : Grid fb a.1) :
    ∃ s' v', a.1.updateTimeline a.2 fb' = .ok (s', v') := by
  obtain ⟨s₁, v₁, hpop⟩ := h.pop_ok (fb' := fb')
  obtain ⟨f₁, m, mv₁, R₁, hN, hT, hs, hd, hmv, hl, hr, hfb, hrun, hfr, hvs, hp, -⟩ :=
    h.hist.pop hpop
  have hk : HasKin s₁ := by unfold HasKin; rw [hl, hr]; exact h.hist.kin
  obtain ⟨⟨j, -, hj⟩, -⟩ := h.running hg hrun
  have htl : 0 < a.1.timeline.length := by
    have := h.hist.front
    exact (List.getElem?_eq_some_iff.1 this).1
  obtain ⟨s', v', h1, -⟩ := Sup.updateTimeline_ok (by rw [hN]; exact h.hist.N)
    (by rw [hT]; exact h.hist.T) htl (by rw [h.hist.var]; omega) hpop hfr hvs
    (fun i _ hi => hk.pos hi) hp ((hg.congr hN hT hs hd).generic ⟨j, hj⟩ _)
  exact ⟨s', v', h1⟩

/-- The first footstep exists when the current phase ends inside of the horizon. -/
theorem Updated.one_le {a : Sup K × Vec K} {fb : K} {s₁ : Sup K} {v₁ : Vec K} {f₁ : Phase K}
    {m : ℕ} {s' : Sup K} {v' : Vec K} (hu : Updated a fb s₁ v₁ f₁ m s' v') (hT : EPS ≤ a.1.T)
    (hle : s₁.ttnp ≤ a.1.N * a.1.T) :
    1 ≤ (s₁.sched f₁.type s₁.N).1 ∧ (f₁.type ≠ .DS → 1 ≤ s'.M) := by
  have hE : (0 : K) < EPS := EPS_pos
  have h1 : 1 ≤ (s₁.sched f₁.type s₁.N).1 := by
    refine (sched_pos_iff (dur := s₁.durAt f₁.type) (T := s₁.T)
      (by rw [hu.T]; exact hE.le.trans hT) hu.pos s₁.N).2 ?_
    show s₁.ttnp - _ < _
    rw [hu.T, hu.N]
    linarith
  refine ⟨h1, fun hd => ?_⟩
  rw [hu.preview.M]
  obtain ⟨k, hk⟩ : ∃ k, (s₁.sched f₁.type s₁.N).1 = k + 1 := ⟨_, (Nat.succ_pred_eq_of_pos h1).symm⟩
  rw [hk, Sup.ssCount_succ_SS hd]
  split <;> omega

theorem Foot.fly_ok {f : Foot K} (hf : f.HasFactors) (tx ty F : K) {R : K} (hR : EPS ≤ R) (fb : K) :
    ∃ g, f.fly tx ty F R fb = .ok g ∧ g.HasFactors := by
  have hE : (0 : K) < EPS := EPS_pos
  have hR0 : R ≠ 0 := ne_of_gt (lt_of_lt_of_le hE hR)
  obtain ⟨x, hx, sx, -⟩ := interpolateTrajectory_ok f.x hf.1 ⟨tx, 0, 0⟩ R hR0 fb
  obtain ⟨y, hy, sy, -⟩ := interpolateTrajectory_ok f.y hf.2.1 ⟨ty, 0, 0⟩ R hR0 fb
  unfold Foot.fly
  rw [hx, ok_bind, hy, ok_bind]
  by_cases hc : R < F / 2 + EPS
  · obtain ⟨z, hz, sz, -⟩ := interpolateTrajectory_ok f.z hf.2.2 ⟨0, 0, 0⟩ R hR0 fb
    rw [if_pos hc, hz, ok_bind]
    exact ⟨_, rfl, sx, sy, sz⟩
  · obtain ⟨z, hz, sz, -⟩ := interpolateTrajectory_ok f.z hf.2.2 ⟨f.maxHeight, 0, 0⟩ (R - F / 2)
      (ne_of_gt (by linarith [not_lt.1 hc])) fb
    rw [if_neg hc, hz, ok_bind]
    exact ⟨_, rfl, sx, sy, sz⟩

/-- The feet update never faults when the first footstep exists. -/
theorem Sup.updateFeet_ok {s : Sup K} {f : Phase K} {sv : Vec K} {fb : K}
    (hf : s.timeline[0]? = some f) (hR : EPS ≤ s.ttnp) (hl : s.left.HasFactors)
    (hr : s.right.HasFactors) (hsv : sv.size = 2 * s.M) (hM : f.type ≠ .DS → 1 ≤ s.M) :
    ∃ s', s.updateFeetStates sv fb = .ok s' ∧ s'.left.HasFactors ∧ s'.right.HasFactors := by
  unfold Sup.updateFeetStates
  simp only
  rw [listAt_of_get? hf, ok_bind, Sup.isInDS_ok (s := { s with stepVec := sv }) (f := f) hf, ok_bind]
  split
  · rename_i hc
    cases ht : f.type with
    | DS => rw [ht] at hc; simp at hc
    | leftSS =>
      have h1 := hM (by rw [ht]; simp)
      obtain ⟨g, hg, hgf⟩ := Foot.fly_ok hr (sv.get 0) (sv.get s.M) (f.duration - s.T) hR fb
      simp only
      rw [Vec.at?_ok (by omega), ok_bind, Vec.at?_ok (by omega), ok_bind, hg, ok_bind]
      exact ⟨_, rfl, hl, hgf⟩
    | rightSS =>
      have h1 := hM (by rw [ht]; simp)
      obtain ⟨g, hg, hgf⟩ := Foot.fly_ok hl (sv.get 0) (sv.get s.M) (f.duration - s.T) hR fb
      simp only
      rw [Vec.at?_ok (by omega), ok_bind, Vec.at?_ok (by omega), ok_bind, hg, ok_bind]
      exact ⟨_, rfl, hgf, hr⟩
  · exact ⟨_, rfl, hl, hr⟩

theorem Updated.front' {a : Sup K × Vec K} {fb : K} {s₁ : Sup K} {v₁ : Vec K} {f₁ : Phase K}
    {m : ℕ} {s' : Sup K} {v' : Vec K} (hu : Updated a fb s₁ v₁ f₁ m s' v') :
    s'.timeline[0]? = some f₁ := by
  rw [hu.preview.tl, List.getElem?_map, List.getElem?_range (by omega)]; rfl

/-- A whole cycle never faults on a grid, whatever the solver answers. -/
theorem GInv.cycle_ok {fb : K} {a : Sup K × Vec K} {f : Phase K} {mv : Bool}
    {R : K} (h : GInv fb a f mv R) (hg : Grid fb a.1) {s' : Sup K} {v' : Vec K}
    (hu : a.1.updateTimeline a.2 fb = .ok (s', v')) (sv : Vec K) (hsv : sv.size = 2 * s'.M) :
    ∃ s'', s'.updateFeetStates sv fb = .ok s'' ∧ s''.left.HasFactors ∧ s''.right.HasFactors := by
  obtain ⟨s₁, v₁, f₁, m, hU⟩ := h.hist.update hu
  have hsame := hU.preview.same
  refine Sup.updateFeet_ok hU.front' (by rw [hsame.ttnp]; exact hU.pos)
    (by rw [hsame.left, hU.left]; exact h.left) (by rw [hsame.right, hU.right]; exact h.right) hsv ?_
  intro hd
  exact (hU.one_le h.hist.T (((h.running hg hU.running).2 hd).trans hg.horizon)).2 hd

/-- The grid invariant is kept by a cycle. -/
theorem GInv.cycle {fb : K} {a b : Sup K × Vec K} {f : Phase K} {mv : Bool}
    {R : K} (h : GInv fb a f mv R) (hg : Grid fb a.1) (hc : Cycle fb a b) :
    ∃ f' R', GInv fb b f' b.1.move R' := by
  have hE : (0 : K) < EPS := EPS_pos
  have hfb0 : 0 < fb := hE.trans hg.pos
  obtain ⟨s', v', hu, hb, hf⟩ := hc
  obtain ⟨s₁, v₁, f₁, m, hU⟩ := h.hist.update hu
  obtain ⟨⟨j, hj, hR⟩, hcur⟩ := h.running hg hU.running
  obtain ⟨e1, e2, e3, e4, e5, e6, e7, e8, e9, -⟩ := Sup.updateFeet_frame hf
  obtain ⟨s'', hs'', hl, hr⟩ := h.cycle_ok hg hu ⟨2 * s'.M, fun i => b.2.get (2 * s'.N + i)⟩ rfl
  rw [hf] at hs''
  cases hs''
  have hsame := hU.preview.same
  have hT : b.1.ttnp = ((j - 1 : ℕ) : K) * fb := by
    rw [e7, hsame.ttnp, hR, Nat.cast_sub hj]; push_cast; ring
  refine ⟨f₁, s₁.ttnp, hU.hinv h.hist hfb0.le hb hf, ⟨j - 1, hT⟩, ?_, ?_, ?_, hl, hr⟩
  · intro hlt
    rw [hT, grid_lt hg.pos] at hlt
    have hj1 : j = 1 := by omega
    obtain ⟨n, hn, hTn⟩ := hg.T
    have h1 := (hU.one_le h.hist.T (by
      rw [hR, hj1, hTn]
      have h2 : (1 : K) ≤ n := by exact_mod_cast hn
      have h3 : (1 : K) ≤ a.1.N := by exact_mod_cast h.hist.N
      have h4 : (1 : K) ≤ a.1.N * n := by nlinarith
      push_cast
      nlinarith)).1
    rw [e9, hU.preview.tl, List.length_map, List.length_range]
    omega
  · intro hd
    rw [e7, e5, hsame.ttnp, hsame.stepPeriod, hU.step]
    linarith [hcur hd]
  · intro hd
    rw [e4]
    exact (hU.one_le h.hist.T ((hcur hd).trans hg.horizon)).2 hd

theorem Cycle.params {fb : K} {a b : Sup K × Vec K} {f : Phase K} {mv : Bool} {R : K}
    (h : HInv a f mv R) (hc : Cycle fb a b) : b.1.N = a.1.N ∧ b.1.T = a.1.T ∧
      b.1.stepPeriod = a.1.stepPeriod ∧ b.1.dsPeriod = a.1.dsPeriod ∧ b.1.move = a.1.move := by
  obtain ⟨s', v', hu, hb, hf⟩ := hc
  obtain ⟨s₁, v₁, f₁, m, hU⟩ := h.update hu
  obtain ⟨e1, e2, e3, e4, e5, e6, e7, e8, -⟩ := Sup.updateFeet_frame hf
  have hsame := hU.preview.same
  exact ⟨by rw [e1, hsame.N, hU.N], by rw [e2, hsame.T, hU.T],
    by rw [e5, hsame.stepPeriod, hU.step], by rw [e6, hsame.dsPeriod, hU.ds],
    by rw [e8, hsame.move, hU.move]⟩

/-- Every state reached on a grid satisfies the invariant. -/
theorem Reach.ginv {fb : K} (hfb : 0 ≤ fb) {a : Sup K × Vec K} (h : Reach (· = fb) CanStop a)
    (hg : Grid fb a.1) : ∃ f mv R, GInv fb a f mv R := by
  induction h with
  | start h =>
    refine ⟨_, _, _, h.hinv, ?_, ?_, fun h => absurd rfl h, fun h => absurd rfl h, h.left, h.right⟩
    · obtain ⟨d, -, hd⟩ := hg.ds
      exact ⟨d, by rw [h.ttnp, hd]⟩
    · intro h1; rw [h.ttnp] at h1; exact absurd h.ds (not_le.2 h1)
  | cycle h0 h1 h2 ih =>
    subst h1
    obtain ⟨f, mv, R, hI⟩ := h0.hinv (by rintro x rfl; exact hfb) (fun _ _ h => h)
    obtain ⟨e1, e2, e3, e4, -⟩ := h2.params hI
    have hg' := hg.congr e1.symm e2.symm e3.symm e4.symm
    obtain ⟨f, mv, R, ih⟩ := ih hg'
    obtain ⟨f', R', h'⟩ := ih.cycle hg' h2
    exact ⟨f', _, R', h'⟩
  | setMove h0 h1 ih =>
    rename_i s v m
    obtain ⟨f, mv, R, ih⟩ := ih (hg.congr rfl rfl rfl rfl)
    have hI := ih.hist
    refine ⟨f, mv, R, ⟨hI.N, hI.T, hI.step, hI.ds, hI.kin, hI.front, hI.hR, hI.le, hI.next, hI.var,
      hI.steps, ?_⟩, ih.tick, ih.more, ih.cur, ih.has, ih.left, ih.right⟩
    intro h2 _
    change m = false at h2
    rcases h1 with h3 | ⟨g, h3, h4⟩ | h3 | h3
    · rw [h2] at h3; simp at h3
    · left
      have := hI.front
      change s.timeline[0]? = _ at this
      rw [h3] at this
      cases this
      exact h4
    · exact Or.inr (Or.inl h3)
    · exact Or.inr (Or.inr h3)

end MPC
