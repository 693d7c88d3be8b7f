import Verif.Lemmas.SupGrid
import Verif.Lemmas.SupChain

/-!
# The previewed timeline in the vocabulary of the specification
-/
set_option linter.unusedSectionVars false

namespace MPC

variable {K : Type} [Field K] [LinearOrder K]

theorem stepsBefore_phases (s : Sup K) (f : Phase K) {P k : ℕ} (hk : k ≤ P + 1) :
    stepsBefore ((List.range (P + 1)).map (s.phaseAt f)) k = s.ssCount f.type k := by
  unfold stepsBefore
  rw [← List.map_take, List.take_range, min_eq_left hk]
  clear hk
  induction k with
  | zero => rfl
  | succ k ih =>
    rw [List.range_succ, List.map_append, List.filter_append, List.length_append, ih, Sup.ssCount]
    congr 1
    simp only [List.map_cons, List.map_nil]
    rw [List.filter_singleton]
    rw [Sup.phaseAt_type]
    by_cases h : s.typeAt f.type k = .DS
    · simp [h]
    · simp [h]

/-- The phase change, from its success. -/
theorem Sup.pop_facts {s s₁ : Sup K} {v v₁ : Vec K} {fb R : K} {f₁ : Phase K} {m : ℕ}
    (hpop : Sup.popPhase { s with fb := fb } v = .ok (s₁, v₁)) (hr : Running s f₁ R)
    (hv : v.size = 2 * s.N + 2 * m) :
    ∃ m₁, s₁.N = s.N ∧ s₁.T = s.T ∧ s₁.stepPeriod = s.stepPeriod ∧
      s₁.dsPeriod = s.dsPeriod ∧ s₁.move = s.move ∧ s₁.left = s.left ∧
      s₁.right = s.right ∧ s₁.ttnp = R ∧ s₁.timeline[0]? = some f₁ ∧
      v₁.size = 2 * s₁.N + 2 * m₁ ∧ (EndsStep s → m = m₁ + 1) ∧ (¬ EndsStep s → m₁ = m) := by
  rcases Sup.popPhase_of_ok hpop with ⟨h1, rfl, rfl⟩ | ⟨h1, f, g, r, h2, rfl, h3, h4⟩
  · rcases hr with ⟨a, b, rfl⟩ | ⟨a, b, rfl⟩
    · exact ⟨m, rfl, rfl, rfl, rfl, rfl, rfl, rfl, rfl, b, hv, fun h => absurd a (not_le.2 h.1),
        fun _ => rfl⟩
    · exact absurd h1 (not_le.2 a)
  · have h2' : s.timeline = f :: g :: r := h2
    rcases hr with ⟨a, b, rfl⟩ | ⟨a, b, rfl⟩
    · exact absurd a (not_le.2 h1)
    · rw [h2'] at b
      simp only [List.getElem?_cons_succ, List.getElem?_cons_zero, Option.some.injEq] at b
      subst b
      by_cases hd : f.type = .DS
      · refine ⟨m, rfl, rfl, rfl, rfl, rfl, rfl, rfl, rfl, rfl, by rw [h3 hd]; exact hv, ?_,
          fun _ => rfl⟩
        rintro ⟨-, f', h5, h6⟩
        rw [h2'] at h5
        cases h5
        exact absurd hd h6
      · obtain ⟨h5, h6⟩ := Sup.shorten_ok' (s := { s with fb := fb }) (v := v) hv (h4 hd)
        refine ⟨m - 1, rfl, rfl, rfl, rfl, rfl, rfl, rfl, rfl, rfl, h6, fun _ => by omega, ?_⟩
        intro hn
        exact absurd ⟨h1, f, by rw [h2']; rfl, hd⟩ hn

/-- Success of the phase change. -/
theorem Sup.pop_total {s : Sup K} {v : Vec K} {fb R : K} {f₁ : Phase K} {m : ℕ}
    (hr : Running s f₁ R) (hv : v.size = 2 * s.N + 2 * m) (hm : EndsStep s → 1 ≤ m) :
    ∃ s₁ v₁, Sup.popPhase { s with fb := fb } v = .ok (s₁, v₁) := by
  rcases hr with ⟨a, b, rfl⟩ | ⟨a, b, rfl⟩
  · exact ⟨_, _, by unfold Sup.popPhase; rw [if_neg (not_lt.2 a)]; rfl⟩
  · obtain ⟨f, r, htl⟩ : ∃ f r, s.timeline = f :: f₁ :: r := by
      cases htl : s.timeline with
      | nil => rw [htl] at b; simp at b
      | cons x r =>
        rw [htl] at b
        cases r with
        | nil => simp at b
        | cons y r =>
          simp only [List.getElem?_cons_succ, List.getElem?_cons_zero, Option.some.injEq] at b
          subst b
          exact ⟨x, r, rfl⟩
    by_cases hd : f.type = .DS
    · exact ⟨_, _, Sup.popPhase_pop (v' := v) a htl (fun _ => rfl) (fun h => absurd hd h)⟩
    · have h1 := hm ⟨a, f, by rw [htl]; rfl, hd⟩
      obtain ⟨w, hw, -⟩ := Sup.shorten_ok (s := { s with fb := fb }) (var := v)
        (m := m - 1) (by rw [hv, Nat.sub_add_cancel h1])
      exact ⟨_, _, Sup.popPhase_pop a htl (fun h => absurd h hd) (fun _ => hw)⟩

theorem Untied.generic {s s₁ : Sup K} {R : K} (h : Untied s R) (hN : s₁.N = s.N) (hT : s₁.T = s.T)
    (hs : s₁.stepPeriod = s.stepPeriod) (hd : s₁.dsPeriod = s.dsPeriod) (hR : s₁.ttnp = R)
    (t : PhaseType) : s₁.Generic t := by
  refine ⟨?_, ?_, ?_⟩
  · intro i h1 h2
    rw [hR, hT]; exact h.cur i h1 (hN ▸ h2)
  · intro k hk _
    obtain ⟨k, rfl⟩ : ∃ l, k = l + 1 := ⟨k - 1, by omega⟩
    simp only [Sup.durAt]
    cases s₁.typeAt t (k + 1) <;> simp only [Sup.period, hs, hd]
    · exact h.ds_pos
    · exact h.step_pos
    · exact h.step_pos
  · intro k hk _ i h1 h2
    obtain ⟨k, rfl⟩ : ∃ l, k = l + 1 := ⟨k - 1, by omega⟩
    rw [hN] at h2
    simp only [Sup.durAt, hT]
    cases s₁.typeAt t (k + 1) <;> simp only [Sup.period, hs, hd]
    · exact h.ds i h1 h2
    · exact h.step i h1 h2
    · exact h.step i h1 h2

theorem Running.length {s : Sup K} {f : Phase K} {R : K} (h : Running s f R) :
    0 < s.timeline.length := by
  rcases h with ⟨-, b, -⟩ | ⟨-, b, -⟩
  · exact (List.getElem?_eq_some_iff.1 b).1
  · have := (List.getElem?_eq_some_iff.1 b).1
    omega

variable [IsStrictOrderedRing K]

/-- Start instants of the phases. -/
abbrev Sup.starts (s : Sup K) (t : PhaseType) : ℕ → ℕ := schedStart s.T (s.durAt t) s.N

theorem Sup.Previewed.covers {s s' : Sup K} {f : Phase K} {var v : Vec K} {m : ℕ}
    (h : s.Previewed f var m s' v) (hR : EPS ≤ s.ttnp) :
    Covers s.T s.ttnp s'.timeline s.N (s.starts f.type) := by
  have h0 : EPS ≤ s.durAt f.type 0 := hR
  have hlen : s'.timeline.length = (MPC.sched s.T (s.durAt f.type) s.N).1 + 1 := by
    rw [h.tl]; simp
  have hdur : ∀ k (hk : k < s'.timeline.length),
      (if k = 0 then s.ttnp else (s'.timeline[k]'hk).duration) = s.durAt f.type k := by
    intro k hk
    rw [Sup.durAt_phaseAt]
    congr 2
    have : s'.timeline[k]? = some (s.phaseAt f k) := by
      rw [h.tl, List.getElem?_map, List.getElem?_range (by rw [← hlen]; exact hk)]; rfl
    rw [List.getElem?_eq_getElem hk] at this
    exact Option.some.inj this
  refine ⟨?_, schedStart_zero, ?_, ?_, ?_, ?_⟩
  · intro hn; rw [hn] at hlen; simp at hlen
  · intro k hk
    exact schedStart_lt h0 (by omega)
  · intro k hk
    exact schedStart_le (by omega)
  · intro k hk
    rw [hdur k (by omega)]
    exact sched_over h0 (by omega)
  · intro k hk i h1 h2 h3
    rw [hdur k hk]
    refine sched_running h0 h2 h1 (le_antisymm ?_ ?_)
    · by_cases hk' : k + 1 < s'.timeline.length
      · have := (lt_schedStart (T := s.T) (dur := s.durAt f.type) h2).1 (h3 hk')
        omega
      · have := sched_mono (T := s.T) (dur := s.durAt f.type) h2
        omega
    · by_contra hc
      exact absurd ((lt_schedStart h2).2 (not_le.1 hc)) (not_lt.2 (le_of_lt h1))

theorem Sup.Previewed.runsAt {s s' : Sup K} {f : Phase K} {var v : Vec K} {m : ℕ}
    (h : s.Previewed f var m s' v) (hR : EPS ≤ s.ttnp) {r : ℕ} (hr : r < s.N) :
    RunsAt s'.timeline (s.starts f.type) (s.smp f.type r) (r + 1) := by
  have h0 : EPS ≤ s.durAt f.type 0 := hR
  have hlen : s'.timeline.length = (s.sched f.type s.N).1 + 1 := by rw [h.tl]; simp
  have hle : s.smp f.type r ≤ (s.sched f.type s.N).1 := Sup.smp_le r hr
  refine ⟨by rw [hlen]; exact Nat.lt_succ_of_le hle, (sched_within h0 hr).1, fun _ => ?_⟩
  exact (lt_schedStart hr).2 (Nat.lt_succ_self _)

theorem Sup.Previewed.steps {s s' : Sup K} {f : Phase K} {var v : Vec K} {m : ℕ}
    (h : s.Previewed f var m s' v) (hR : EPS ≤ s.ttnp) :
    s'.M = stepsBefore s'.timeline (s'.timeline.length - 1) ∧ s'.M ≤ s.N := by
  have h0 : EPS ≤ s.durAt f.type 0 := hR
  have hlen : s'.timeline.length = (s.sched f.type s.N).1 + 1 := by rw [h.tl]; simp
  refine ⟨?_, ?_⟩
  · rw [h.M, hlen, Nat.add_sub_cancel, h.tl, stepsBefore_phases s f (Nat.le_succ _)]
  · rw [h.M]
    exact (s.ssCount_le _ _).trans (sched_le h0 _)

/-- A successful update, in terms of the phase change. -/
theorem Sup.update_preview {s s' : Sup K} {v v' : Vec K} {fb R : K} {f : Phase K} {m : ℕ}
    (hu : s.updateTimeline v fb = .ok (s', v')) (hN : 0 < s.N) (hT : EPS ≤ s.T) (hk : HasKin s)
    (hr : Running s f R) (hv : v.size = 2 * s.N + 2 * m) :
    ∃ s₁ v₁ m₁, s₁.Previewed f v₁ m₁ s' v' ∧
      Sup.popPhase { s with fb := fb } v = .ok (s₁, v₁) ∧
      s₁.N = s.N ∧ s₁.T = s.T ∧ s₁.stepPeriod = s.stepPeriod ∧
      s₁.dsPeriod = s.dsPeriod ∧ s₁.move = s.move ∧ s₁.left = s.left ∧
      s₁.right = s.right ∧ s₁.ttnp = R ∧ s₁.timeline[0]? = some f ∧
      v₁.size = 2 * s₁.N + 2 * m₁ ∧ (EndsStep s → m = m₁ + 1) ∧ (¬ EndsStep s → m₁ = m) := by
  obtain ⟨h1, h2, s₁, v₁, hpop⟩ := Sup.updateTimeline_pop hu
  obtain ⟨m₁, e1, e2, e3, e4, e5, e6, e7, e8, e9, e10, e11⟩ := Sup.pop_facts hpop hr hv
  have hk' : HasKin s₁ := by unfold HasKin; rw [e6, e7]; exact hk
  exact ⟨s₁, v₁, m₁, Sup.updateTimeline_of_ok (by rw [e1]; exact hN) (by rw [e2]; exact hT) h1 h2
    hpop e9 e10 (fun i _ hi => hk'.pos hi) hu, hpop, e1, e2, e3, e4, e5, e6, e7, e8, e9, e10, e11⟩

/-- Success of the update and its selection matrices. -/
theorem Sup.update_total [Archimedean K] {s : Sup K} {v : Vec K} {fb R : K} {f : Phase K} {m : ℕ}
    (hN : 0 < s.N) (hT : EPS ≤ s.T) (hk : HasKin s)
    (hr : Running s f R) (hR : EPS ≤ R) (hv : v.size = 2 * s.N + 2 * m)
    (hm : EndsStep s → 1 ≤ m) (hg : Untied s R) :
    ∃ s' v' b, s.updateTimeline v fb = .ok (s', v') ∧ Covers s.T R s'.timeline s.N b ∧
      s'.V0.rows = s.N ∧ s'.V0.cols = 1 ∧ s'.V.rows = s.N ∧ s'.V.cols = s'.M ∧
      s'.VT = s'.V.transpose ∧ s'.phaseIdx.size = s.N ∧
      ∀ r < s.N, ∃ k, RunsAt s'.timeline b k (r + 1) ∧ s'.phaseIdx.get r = k ∧
        RowIsUnit s' r (stepsBefore s'.timeline k) := by
  obtain ⟨s₁, v₁, hpop⟩ := Sup.pop_total (fb := fb) hr hv hm
  obtain ⟨m₁, e1, e2, e3, e4, e5, e6, e7, e8, e9, e10, e11⟩ := Sup.pop_facts hpop hr hv
  have hk' : HasKin s₁ := by unfold HasKin; rw [e6, e7]; exact hk
  obtain ⟨s', v', h1, hp, h2, h3, h4, h5, h6, h7, h8, h9, h10, -⟩ := Sup.updateTimeline_ok
    (by rw [e1]; exact hN) (by rw [e2]; exact hT) hr.length (by rw [hv]; omega)
    hpop e9 e10 (fun i _ hi => hk'.pos hi) (by rw [e8]; exact hR) (hg.generic e1 e2 e3 e4 e8 _)
  have hcov := hp.covers (by rw [e8]; exact hR)
  rw [e2, e8, e1] at hcov
  rw [e1] at h2 h4 h7
  refine ⟨s', v', _, h1, hcov, h2, h3, h4, h5, h6, h7, ?_⟩
  intro r hr'
  have hr1 : r < s₁.N := by rw [e1]; exact hr'
  have hrun := hp.runsAt (by rw [e8]; exact hR) hr1
  refine ⟨s₁.smp f.type r, hrun, h10 r hr1, ?_, ?_, ?_⟩
  · rw [hp.tl, stepsBefore_phases s₁ f (by
      have := Sup.smp_le (f := f) r hr1
      exact le_trans this (Nat.le_succ _)), h5, hp.M]
    exact s₁.ssCount_mono _ (Sup.smp_le r hr1)
  · rw [hp.tl, stepsBefore_phases s₁ f (by
      have := Sup.smp_le (f := f) r hr1
      exact le_trans this (Nat.le_succ _))]
    exact h8 r hr1
  · intro c _
    rw [hp.tl, stepsBefore_phases s₁ f (by
      have := Sup.smp_le (f := f) r hr1
      exact le_trans this (Nat.le_succ _))]
    exact h9 r hr1 c

end MPC
