import Verif.Lemmas.SupUpdate

/-!
# Histories of the feet supervisor
-/
set_option linter.unusedSectionVars false

namespace MPC

variable {K : Type} [Field K] [LinearOrder K]

/-- What a successful phase change does. -/
theorem Sup.popPhase_of_ok {s s' : Sup K} {v v' : Vec K} (h : s.popPhase v = .ok (s', v')) :
    (EPS ≤ s.ttnp ∧ s' = s ∧ v' = v) ∨
    (s.ttnp < EPS ∧ ∃ f g r, s.timeline = f :: g :: r ∧
      s' = { s with timeline := g :: r, ttnp := g.duration } ∧
      (f.type = .DS → v' = v) ∧ (f.type ≠ .DS → s.shorten v = .ok v')) := by
  unfold Sup.popPhase at h
  split at h
  · rename_i hlt
    right
    refine ⟨hlt, ?_⟩
    obtain ⟨ds, hds, h⟩ := bind_eq_ok.1 h
    obtain ⟨f, hf, hds⟩ := bind_eq_ok.1 hds
    cases hds
    rw [listAt_eq_ok] at hf
    dsimp only at h
    cases htl : s.timeline with
    | nil => rw [htl] at hf; simp at hf
    | cons a r =>
      rw [htl] at hf
      simp only [List.getElem?_cons_zero, Option.some.injEq] at hf
      subst hf
      split at h
      · rename_i hd
        obtain ⟨w, hw, h⟩ := bind_eq_ok.1 h
        obtain ⟨g, hg, h⟩ := bind_eq_ok.1 h
        cases hw
        cases h
        rw [listAt_eq_ok, htl, List.tail_cons] at hg
        cases r with
        | nil => simp at hg
        | cons b r =>
          simp only [List.getElem?_cons_zero, Option.some.injEq] at hg
          subst hg
          refine ⟨a, b, r, rfl, by simp [htl], fun _ => rfl, fun hne => ?_⟩
          simp only [decide_eq_true_eq] at hd
          exact absurd hd hne
      · rename_i hd
        obtain ⟨w, hw, h⟩ := bind_eq_ok.1 h
        obtain ⟨g, hg, h⟩ := bind_eq_ok.1 h
        cases h
        rw [listAt_eq_ok, htl, List.tail_cons] at hg
        cases r with
        | nil => simp at hg
        | cons b r =>
          simp only [List.getElem?_cons_zero, Option.some.injEq] at hg
          subst hg
          refine ⟨a, b, r, rfl, by simp [htl], fun he => ?_, fun _ => hw⟩
          simp only [decide_eq_true_eq] at hd
          exact absurd he hd
  · rename_i hlt
    cases h
    exact Or.inl ⟨not_lt.1 hlt, rfl, rfl⟩

/-- Success of the phase change. -/
theorem Sup.popPhase_pop {s : Sup K} {v v' : Vec K} {f g : Phase K} {r : List (Phase K)}
    (h : s.ttnp < EPS) (htl : s.timeline = f :: g :: r) (h1 : f.type = .DS → v' = v)
    (h2 : f.type ≠ .DS → s.shorten v = .ok v') :
    s.popPhase v = .ok ({ s with timeline := g :: r, ttnp := g.duration }, v') := by
  unfold Sup.popPhase
  rw [if_pos h, Sup.isInDS_ok (f := f) (by rw [htl]; rfl), ok_bind]
  dsimp only
  by_cases hd : f.type = .DS
  · rw [if_pos (by simpa using hd), res_pure, ok_bind, htl, h1 hd]
    rfl
  · rw [if_neg (by simpa using hd), h2 hd, ok_bind, htl]
    rfl

theorem Sup.shorten_size {s : Sup K} {v w : Vec K} (h : s.shorten v = .ok w) :
    s.N + 1 ≤ v.size / 2 ∧ v.size % 2 = 0 := by
  unfold Sup.shorten at h
  obtain ⟨_, h1, h⟩ := bind_eq_ok.1 h
  obtain ⟨_, h2, h⟩ := bind_eq_ok.1 h
  exact ⟨requireIndex_eq_ok.1 h2, require_eq_ok.1 h1⟩

/-- The first assertions of `updateTimeline` and the phase change succeed. -/
theorem Sup.updateTimeline_pop {s s' : Sup K} {v v' : Vec K} {fb : K}
    (h : s.updateTimeline v fb = .ok (s', v')) :
    0 < s.timeline.length ∧ 2 * s.N ≤ v.size ∧
      ∃ s₁ v₁, Sup.popPhase { s with fb := fb } v = .ok (s₁, v₁) := by
  unfold Sup.updateTimeline at h
  obtain ⟨_, h1, h⟩ := bind_eq_ok.1 h
  obtain ⟨_, h2, h⟩ := bind_eq_ok.1 h
  obtain ⟨⟨s₁, v₁⟩, h3, h⟩ := bind_eq_ok.1 h
  exact ⟨require_eq_ok.1 h1, require_eq_ok.1 h2, s₁, v₁, h3⟩

section
variable [IsStrictOrderedRing K] {T : K} {dur dur' : ℕ → K}

/-- Starting later in the sequence (`c` phases skipped, less time left) never delays the phases. -/
theorem sched_anti (c : ℕ) (hT : 0 ≤ T) (h0 : EPS ≤ dur 0) (h0' : EPS ≤ dur' 0)
    (hc : dur' 0 ≤ dur c) (hs : ∀ k, dur' (k + 1) = dur (k + 1 + c)) (j : ℕ) :
    (sched T dur j).1 ≤ (sched T dur' j).1 + c := by
  suffices H : ((sched T dur j).1 < (sched T dur' j).1 + c ∨
      ((sched T dur j).1 = (sched T dur' j).1 + c ∧ (sched T dur' j).2 ≤ (sched T dur j).2)) ∧
      (sched T dur' j).2 ≤ dur ((sched T dur' j).1 + c) by
    rcases H.1 with h | h
    · exact le_of_lt h
    · exact le_of_eq h.1
  induction j with
  | zero =>
    rw [sched_zero h0, sched_zero h0']
    simp only [Nat.zero_add]
    refine ⟨?_, hc⟩
    rcases Nat.eq_zero_or_pos c with h | h
    · right; subst h; exact ⟨rfl, hc⟩
    · left; exact h
  | succ j ih =>
    obtain ⟨h1, h2⟩ := ih
    simp only [sched, schedNorm]
    by_cases a : (sched T dur j).2 - T < EPS
    · by_cases b : (sched T dur' j).2 - T < EPS
      · rw [if_pos a, if_pos b]
        simp only
        rw [hs]
        refine ⟨?_, le_rfl⟩
        rcases h1 with h | ⟨h, -⟩
        · left; omega
        · right
          refine ⟨by omega, ?_⟩
          rw [h]
          apply le_of_eq
          congr 1; omega
      · rw [if_pos a, if_neg b]
        simp only
        refine ⟨?_, by linarith⟩
        rcases h1 with h | ⟨h, hr⟩
        · rcases Nat.lt_or_ge ((sched T dur j).1 + 1) ((sched T dur' j).1 + c) with hh | hh
          · left; exact hh
          · right
            have e : (sched T dur j).1 + 1 = (sched T dur' j).1 + c := by omega
            refine ⟨e, ?_⟩
            rw [e]; linarith
        · exact absurd (lt_of_le_of_lt (sub_le_sub_right hr T) a) b
    · by_cases b : (sched T dur' j).2 - T < EPS
      · rw [if_neg a, if_pos b]
        simp only
        rw [hs]
        refine ⟨?_, le_rfl⟩
        left
        rcases h1 with h | ⟨h, -⟩ <;> omega
      · rw [if_neg a, if_neg b]
        simp only
        refine ⟨?_, by linarith⟩
        rcases h1 with h | ⟨h, hr⟩
        · left; exact h
        · right; exact ⟨h, by linarith⟩

/-- The current phase ends inside of the horizon. -/
theorem sched_pos_iff (hT : 0 ≤ T) (h0 : EPS ≤ dur 0) (N : ℕ) :
    1 ≤ (sched T dur N).1 ↔ dur 0 - N * T < EPS := by
  constructor
  · intro h
    have h1 := sched_over (k := 0) h0 (by omega : 0 + 1 ≤ (sched T dur N).1)
    have h2 := schedStart_le (T := T) (dur := dur) (N := N) h
    rw [schedStart_zero, Nat.sub_zero] at h1
    have h3 : (schedStart T dur N (0 + 1) : K) ≤ (N : K) := by exact_mod_cast h2
    nlinarith
  · intro h
    by_contra hc
    have h1 : (sched T dur N).1 = 0 := by omega
    rcases Nat.eq_zero_or_pos N with hN | hN
    · subst hN
      simp only [Nat.cast_zero, zero_mul, sub_zero] at h
      exact absurd h (not_lt.2 h0)
    · have := sched_running (T := T) (dur := dur) (N := N) (k := 0) (j := N) h0 le_rfl
        (by rw [schedStart_zero]; exact hN) h1
      rw [schedStart_zero, Nat.sub_zero] at this
      exact absurd h (not_lt.2 this)

end

theorem Sup.typeAt_shift (s : Sup K) (t : PhaseType) (k : ℕ) :
    s.typeAt t (k + 1) = s.typeAt (s.nextType t) k := by
  induction k with
  | zero => rfl
  | succ k ih => rw [Sup.typeAt, ih]; rfl

theorem Sup.ssCount_shift (s : Sup K) (t : PhaseType) (k : ℕ) :
    s.ssCount t (k + 1) = (if t = .DS then 0 else 1) + s.ssCount (s.nextType t) k := by
  induction k with
  | zero => simp only [Sup.ssCount, Sup.typeAt, Nat.zero_add, Nat.add_zero]; rfl
  | succ k ih => rw [Sup.ssCount, ih, Sup.typeAt_shift, Sup.ssCount, Nat.add_assoc]

theorem Sup.period_congr {s s' : Sup K} (hd : s'.dsPeriod = s.dsPeriod)
    (hs : s'.stepPeriod = s.stepPeriod) (t : PhaseType) : s'.period t = s.period t := by
  cases t <;> simp [Sup.period, hd, hs]

theorem Sup.shorten_ok' {s : Sup K} {v v' : Vec K} {m : ℕ} (hv : v.size = 2 * s.N + 2 * m)
    (h : s.shorten v = .ok v') : 1 ≤ m ∧ v'.size = 2 * s.N + 2 * (m - 1) := by
  have h1 := Sup.shorten_size h
  obtain ⟨k, rfl⟩ : ∃ k, m = k + 1 := ⟨m - 1, by omega⟩
  obtain ⟨w, h2, h3, -⟩ := Sup.shorten_ok (s := s) (var := v) (m := k) hv
  rw [h2] at h
  cases h
  exact ⟨by omega, by simpa using h3⟩

/-- What holds between two cycles. `mv` and `R` are the walking request and the remaining time at
the last update. -/
structure HInv (a : Sup K × Vec K) (f : Phase K) (mv : Bool) (R : K) : Prop where
  N : 0 < a.1.N
  T : EPS ≤ a.1.T
  step : EPS ≤ a.1.stepPeriod
  ds : EPS ≤ a.1.dsPeriod
  kin : HasKin a.1
  front : a.1.timeline[0]? = some f
  hR : EPS ≤ R
  le : a.1.ttnp ≤ R
  next : ∀ g, a.1.timeline[1]? = some g → g = Sup.phaseAt { a.1 with move := mv } f 1
  var : a.2.size = 2 * a.1.N + 2 * a.1.M
  steps : a.1.M ≤ Sup.ssCount { a.1 with move := mv } f.type
    (Sup.sched { a.1 with move := mv, ttnp := R } f.type a.1.N).1
  stop : a.1.move = false → mv = true → f.type ≠ .DS ∨ a.1.M = 0 ∨ a.1.ttnp < EPS

theorem HasKin.pos {s : Sup K} (h : HasKin s) {t : PhaseType} {i k : ℕ} (hi : i < s.ssCount t k) :
    0 < (s.kinOf (s.typeAt t (i + s.stepOff t))).vertices.size := by
  have := (Sup.step_phase hi).2
  cases ht : s.typeAt t (i + s.stepOff t)
  · exact absurd ht this
  · exact h.1
  · exact h.2

/-- Number of footsteps previewed with the request `mv` and the remaining time `R`. -/
def Sup.cnt (s : Sup K) (mv : Bool) (R : K) (t : PhaseType) : ℕ :=
  Sup.ssCount { s with move := mv } t (Sup.sched { s with move := mv, ttnp := R } t s.N).1

theorem Sup.cnt_self (s : Sup K) (t : PhaseType) :
    s.cnt s.move s.ttnp t = s.ssCount t (s.sched t s.N).1 := rfl

theorem Sup.cnt_congr {s s' : Sup K} (hN : s'.N = s.N) (hT : s'.T = s.T)
    (hs : s'.stepPeriod = s.stepPeriod) (hd : s'.dsPeriod = s.dsPeriod) (mv : Bool) (R : K)
    (t : PhaseType) : s'.cnt mv R t = s.cnt mv R t := by
  unfold Sup.cnt Sup.sched
  rw [Sup.ssCount_congr (s := { s with move := mv }) (s' := { s' with move := mv }) rfl]
  have : Sup.durAt { s' with move := mv, ttnp := R } t =
      Sup.durAt { s with move := mv, ttnp := R } t :=
    funext fun k => Sup.durAt_congr (s := { s with move := mv, ttnp := R })
      (s' := { s' with move := mv, ttnp := R }) rfl hd hs rfl t k
  rw [this]
  simp only [hT, hN]

section
variable [IsStrictOrderedRing K]

/-- The decision vector has no footstep left over. -/
theorem Sup.nbSteps_cnt {s : Sup K} {mv : Bool} {R : K} {t : PhaseType} {m : ℕ} (hT : EPS ≤ s.T)
    (hR : EPS ≤ s.ttnp) (hle : s.ttnp ≤ R) (hm : m ≤ s.cnt mv R t)
    (hstop : s.move = false → mv = true → t ≠ .DS ∨ m = 0) :
    s.nbSteps m (s.ssCount t (s.sched t s.N).1) = s.ssCount t (s.sched t s.N).1 := by
  have hT0 : 0 ≤ s.T := le_trans (le_of_lt EPS_pos) hT
  -- a footstep means that the current phase ends inside of the horizon
  have key : 1 ≤ m → t ≠ .DS → 1 ≤ s.ssCount t (s.sched t s.N).1 := by
    intro h1 ht
    have h2 : 1 ≤ (Sup.sched { s with move := mv, ttnp := R } t s.N).1 := by
      by_contra hc
      have : (Sup.sched { s with move := mv, ttnp := R } t s.N).1 = 0 := by omega
      unfold Sup.cnt at hm
      rw [this] at hm
      simp only [Sup.ssCount] at hm
      omega
    have h3 := (sched_pos_iff (dur := Sup.durAt { s with move := mv, ttnp := R } t) hT0
      (le_trans hR hle) s.N).1 h2
    have h4 : 1 ≤ (s.sched t s.N).1 := by
      refine (sched_pos_iff (dur := s.durAt t) hT0 hR s.N).2 ?_
      simp only [Sup.durAt] at h3 ⊢
      linarith
    obtain ⟨k, hk⟩ : ∃ k, (s.sched t s.N).1 = k + 1 := ⟨_, (Nat.succ_pred_eq_of_pos h4).symm⟩
    rw [hk, Sup.ssCount_succ_SS ht]
    split <;> omega
  unfold Sup.nbSteps
  cases hmv : s.move with
  | true =>
    rw [if_pos rfl, max_eq_right]
    cases hmv' : mv with
    | true =>
      rw [hmv'] at hm
      refine hm.trans ?_
      unfold Sup.cnt
      rw [Sup.ssCount_congr (s := s) (s' := { s with move := true }) hmv.symm]
      refine Sup.ssCount_mono _ _ ?_
      refine sched_anti 0 hT0 (le_trans hR hle) hR ?_ ?_ s.N
      · exact hle
      · intro k
        simp only [Sup.durAt]
        rw [Sup.typeAt_congr (s := s) (s' := { s with move := true, ttnp := R }) hmv.symm]
        exact (Sup.period_congr (s := s) (s' := { s with move := true, ttnp := R }) rfl rfl _).symm
    | false =>
      rw [hmv'] at hm
      have h1 : s.cnt false R t ≤ 1 := Sup.ssCount_still (s := { s with move := false }) rfl _ _
      by_cases ht : t = .DS
      · have : s.cnt false R t = 0 := by
          unfold Sup.cnt
          cases (Sup.sched { s with move := false, ttnp := R } t s.N).1 with
          | zero => rfl
          | succ k => rw [Sup.ssCount_succ_DS ht]; rfl
        omega
      · rcases Nat.eq_zero_or_pos m with h | h
        · omega
        · have := key h ht
          omega
  | false =>
    rw [if_neg (by simp), max_eq_right]
    rcases Nat.eq_zero_or_pos m with h | h
    · omega
    · have : 1 ≤ s.ssCount t (s.sched t s.N).1 := by
        apply key h
        cases hmv' : mv with
        | true =>
          rcases hstop hmv hmv' with h2 | h2
          · exact h2
          · omega
        | false =>
          intro ht
          rw [hmv'] at hm
          have : s.cnt false R t = 0 := by
            unfold Sup.cnt
            cases (Sup.sched { s with move := false, ttnp := R } t s.N).1 with
            | zero => rfl
            | succ k => rw [Sup.ssCount_succ_DS ht]; rfl
          omega
      omega

/-- The state between the phase change and the preview. -/
theorem HInv.pop {a : Sup K × Vec K} {f : Phase K} {mv : Bool} {R fb : K} (h : HInv a f mv R)
    {s₁ : Sup K} {v₁ : Vec K} (hpop : Sup.popPhase { a.1 with fb := fb } a.2 = .ok (s₁, v₁)) :
    ∃ f₁ m mv₁ R₁, s₁.N = a.1.N ∧ s₁.T = a.1.T ∧ s₁.stepPeriod = a.1.stepPeriod ∧
      s₁.dsPeriod = a.1.dsPeriod ∧ s₁.move = a.1.move ∧ s₁.left = a.1.left ∧
      s₁.right = a.1.right ∧ s₁.fb = fb ∧ Running a.1 f₁ s₁.ttnp ∧ s₁.timeline[0]? = some f₁ ∧
      v₁.size = 2 * s₁.N + 2 * m ∧ EPS ≤ s₁.ttnp ∧
      s₁.ttnp ≤ R₁ ∧ m ≤ s₁.cnt mv₁ R₁ f₁.type ∧
      (s₁.move = false → mv₁ = true → f₁.type ≠ .DS ∨ m = 0) := by
  have hT0 : 0 ≤ a.1.T := le_trans (le_of_lt EPS_pos) h.T
  rcases Sup.popPhase_of_ok hpop with ⟨h1, rfl, rfl⟩ | ⟨h1, f', g, r, h2, rfl, h3, h4⟩
  · refine ⟨f, a.1.M, mv, R, rfl, rfl, rfl, rfl, rfl, rfl, rfl, rfl, Or.inl ⟨h1, h.front, rfl⟩,
      h.front, h.var, h1, h.le, ?_, ?_⟩
    · exact h.steps.trans (le_of_eq (Sup.cnt_congr (s := a.1) (s' := { a.1 with fb := fb })
        rfl rfl rfl rfl mv R f.type).symm)
    intro h5 h6
    rcases h.stop h5 h6 with h7 | h7 | h7
    · exact Or.inl h7
    · exact Or.inr h7
    · exact absurd h1 (not_le.2 h7)
  · simp only at h1 h2 h3 h4
    have hf : f' = f := by
      have := h.front
      rw [h2] at this
      simpa using this
    subst hf
    have hg : g = Sup.phaseAt { a.1 with move := mv } f' 1 := h.next g (by rw [h2]; rfl)
    have hgd : EPS ≤ g.duration := by
      rw [hg]
      simp only [Sup.phaseAt]
      cases Sup.typeAt { a.1 with move := mv } f'.type (0 + 1)
      · exact h.ds
      · exact h.step
      · exact h.step
    have hgt : g.type = Sup.nextType { a.1 with move := mv } f'.type := by rw [hg]; rfl
    -- the footsteps that remain
    have hcnt : a.1.M ≤ (if f'.type = .DS then 0 else 1) +
        Sup.cnt { a.1 with fb := fb, timeline := g :: r, ttnp := g.duration } mv g.duration
          g.type := by
      refine h.steps.trans ?_
      have h5 : (Sup.sched { a.1 with move := mv, ttnp := R } f'.type a.1.N).1 ≤
          (Sup.sched { a.1 with fb := fb, timeline := g :: r, ttnp := g.duration, move := mv }
            g.type a.1.N).1 + 1 := by
        refine sched_anti 1 hT0 h.hR hgd ?_ ?_ a.1.N
        · show g.duration ≤ _
          rw [hg]
          exact le_rfl
        · intro k
          show Sup.period _ _ = Sup.period _ _
          rw [Sup.period_congr (s := a.1)
              (s' := { a.1 with fb := fb, timeline := g :: r, ttnp := g.duration, move := mv })
              rfl rfl, Sup.period_congr (s := a.1) (s' := { a.1 with move := mv, ttnp := R }) rfl rfl,
            Sup.typeAt_shift { a.1 with move := mv, ttnp := R }, hgt,
            Sup.typeAt_congr (s := { a.1 with move := mv })
              (s' := { a.1 with fb := fb, timeline := g :: r, ttnp := g.duration, move := mv }) rfl,
            Sup.typeAt_congr (s := { a.1 with move := mv })
              (s' := { a.1 with move := mv, ttnp := R }) rfl]
          rfl
      refine (Sup.ssCount_mono _ _ h5).trans ?_
      rw [Sup.ssCount_shift, ← hgt]
      refine Nat.add_le_add_left (le_of_eq ?_) _
      unfold Sup.cnt
      rw [Sup.ssCount_congr (s := { a.1 with move := mv })
        (s' := { a.1 with fb := fb, timeline := g :: r, ttnp := g.duration, move := mv }) rfl]
    obtain ⟨m, hm, hv⟩ : ∃ m, a.1.M = (if f'.type = .DS then 0 else 1) + m ∧
        v₁.size = 2 * a.1.N + 2 * m := by
      by_cases hd : f'.type = .DS
      · exact ⟨a.1.M, by simp [hd], by rw [h3 hd]; exact h.var⟩
      · obtain ⟨h5, h6⟩ := Sup.shorten_ok' (s := { a.1 with fb := fb }) (v := a.2) h.var (h4 hd)
        exact ⟨a.1.M - 1, by simp [hd]; omega, h6⟩
    refine ⟨g, m, mv, g.duration, rfl, rfl, rfl, rfl, rfl, rfl, rfl, rfl,
      Or.inr ⟨h1, by rw [h2]; rfl, rfl⟩, rfl, hv, hgd, le_rfl,
      (Nat.le_of_add_le_add_left (hm ▸ hcnt) : m ≤ _), ?_⟩
    intro h5 h6
    left
    rw [hgt, h6]
    cases f'.type <;> simp [Sup.nextType]

end

/-- `updateFeetStates` only changes the feet, the remaining time and the footsteps. -/
theorem Sup.updateFeet_frame {s s' : Sup K} {sv : Vec K} {fb : K}
    (h : s.updateFeetStates sv fb = .ok s') :
    s'.N = s.N ∧ s'.T = s.T ∧ s'.fb = s.fb ∧ s'.M = s.M ∧ s'.stepPeriod = s.stepPeriod ∧
    s'.dsPeriod = s.dsPeriod ∧ s'.ttnp = s.ttnp - fb ∧ s'.move = s.move ∧
    s'.timeline = s.timeline ∧ s'.left.kin = s.left.kin ∧ s'.right.kin = s.right.kin ∧
    s'.V = s.V ∧ s'.V0 = s.V0 ∧ s'.stepVec = sv := by
  have hfly : ∀ {f g : Foot K} {a b c d e : K}, f.fly a b c d e = .ok g → g.kin = f.kin := by
    intro f g a b c d e h
    unfold Foot.fly at h
    obtain ⟨_, -, h⟩ := bind_eq_ok.1 h
    obtain ⟨_, -, h⟩ := bind_eq_ok.1 h
    dsimp only at h
    split at h
    all_goals
      obtain ⟨_, -, h⟩ := bind_eq_ok.1 h
      cases h; rfl
  unfold Sup.updateFeetStates at h
  obtain ⟨f, hf, h⟩ := bind_eq_ok.1 h
  obtain ⟨ds, hds, h⟩ := bind_eq_ok.1 h
  dsimp only at h
  split at h
  · cases hty : f.type with
    | DS => rw [hty] at h; simp at h
    | leftSS =>
      rw [hty] at h
      obtain ⟨_, -, h⟩ := bind_eq_ok.1 h
      obtain ⟨_, -, h⟩ := bind_eq_ok.1 h
      obtain ⟨g, hg, h⟩ := bind_eq_ok.1 h
      cases h
      exact ⟨rfl, rfl, rfl, rfl, rfl, rfl, rfl, rfl, rfl, rfl, hfly hg, rfl, rfl, rfl⟩
    | rightSS =>
      rw [hty] at h
      obtain ⟨_, -, h⟩ := bind_eq_ok.1 h
      obtain ⟨_, -, h⟩ := bind_eq_ok.1 h
      obtain ⟨g, hg, h⟩ := bind_eq_ok.1 h
      cases h
      exact ⟨rfl, rfl, rfl, rfl, rfl, rfl, rfl, rfl, rfl, hfly hg, rfl, rfl, rfl, rfl⟩
  · cases h
    exact ⟨rfl, rfl, rfl, rfl, rfl, rfl, rfl, rfl, rfl, rfl, rfl, rfl, rfl, rfl⟩

section
variable [IsStrictOrderedRing K]

/-- What an update of the timeline gives between two cycles. -/
structure Updated (a : Sup K × Vec K) (fb : K) (s₁ : Sup K) (v₁ : Vec K) (f₁ : Phase K) (m : ℕ)
    (s' : Sup K) (v' : Vec K) : Prop where
  pop : Sup.popPhase { a.1 with fb := fb } a.2 = .ok (s₁, v₁)
  N : s₁.N = a.1.N
  T : s₁.T = a.1.T
  step : s₁.stepPeriod = a.1.stepPeriod
  ds : s₁.dsPeriod = a.1.dsPeriod
  move : s₁.move = a.1.move
  left : s₁.left = a.1.left
  right : s₁.right = a.1.right
  fbe : s₁.fb = fb
  running : Running a.1 f₁ s₁.ttnp
  front : s₁.timeline[0]? = some f₁
  var : v₁.size = 2 * s₁.N + 2 * m
  pos : EPS ≤ s₁.ttnp
  preview : s₁.Previewed f₁ v₁ m s' v'
  size : v'.size = 2 * s'.N + 2 * s'.M
  content : Content s₁ f₁.type v₁ m s'.M v'
  steps : s'.M = s₁.cnt s₁.move s₁.ttnp f₁.type

theorem HInv.update {a : Sup K × Vec K} {f : Phase K} {mv : Bool} {R fb : K} (h : HInv a f mv R)
    {s' : Sup K} {v' : Vec K} (hu : a.1.updateTimeline a.2 fb = .ok (s', v')) :
    ∃ s₁ v₁ f₁ m, Updated a fb s₁ v₁ f₁ m s' v' := by
  obtain ⟨h1, h2, s₁, v₁, hpop⟩ := Sup.updateTimeline_pop hu
  obtain ⟨f₁, m, mv₁, R₁, hN, hT, hs, hd, hmv, hl, hr, hfb, hrun, hfr, hvs, hp, hle, hc, hst⟩ :=
    h.pop hpop
  have hT' : EPS ≤ s₁.T := by rw [hT]; exact h.T
  have hk : HasKin s₁ := by
    unfold HasKin; rw [hl, hr]; exact h.kin
  have hpre := Sup.updateTimeline_of_ok (by rw [hN]; exact h.N) hT' h1 h2 hpop hfr hvs
    (fun i _ hi => hk.pos hi) hu
  have hn := Sup.nbSteps_cnt (s := s₁) hT' hp hle hc hst
  have hv := hpre.var
  rw [hn] at hv
  exact ⟨s₁, v₁, f₁, m, hpop, hN, hT, hs, hd, hmv, hl, hr, hfb, hrun, hfr, hvs, hp, hpre,
    by rw [hv.size, hpre.same.N, hpre.M], by rw [hpre.M]; exact hv, hpre.M⟩

theorem Updated.hinv {a b : Sup K × Vec K} {f : Phase K} {mv : Bool} {R fb : K} (h : HInv a f mv R)
    (hfb : 0 ≤ fb) {s₁ : Sup K} {v₁ : Vec K} {f₁ : Phase K} {m : ℕ} {s' : Sup K} {v' sv : Vec K}
    (hu : Updated a fb s₁ v₁ f₁ m s' v') (hb : b.2.size = v'.size)
    (hf : s'.updateFeetStates sv fb = .ok b.1) :
    HInv b f₁ b.1.move s₁.ttnp := by
  obtain ⟨e1, e2, e3, e4, e5, e6, e7, e8, e9, e10, e11, -⟩ := Sup.updateFeet_frame hf
  have hp := hu.preview
  have hmv : b.1.move = s₁.move := by rw [e8, hp.same.move]
  have hst : b.1.stepPeriod = s₁.stepPeriod := by rw [e5, hp.same.stepPeriod]
  have hds : b.1.dsPeriod = s₁.dsPeriod := by rw [e6, hp.same.dsPeriod]
  have hN : b.1.N = s₁.N := by rw [e1, hp.same.N]
  have hT : b.1.T = s₁.T := by rw [e2, hp.same.T]
  refine ⟨?_, ?_, ?_, ?_, ?_, ?_, hu.pos, ?_, ?_, ?_, ?_, ?_⟩
  · rw [hN, hu.N]; exact h.N
  · rw [hT, hu.T]; exact h.T
  · rw [hst, hu.step]; exact h.step
  · rw [hds, hu.ds]; exact h.ds
  · unfold HasKin
    rw [e10, e11, hp.same.left, hp.same.right, hu.left, hu.right]; exact h.kin
  · rw [e9, hp.tl, List.getElem?_map, List.getElem?_range (by omega)]; rfl
  · rw [e7, hp.same.ttnp]; linarith
  · intro g hg
    rw [e9, hp.tl, List.getElem?_map] at hg
    cases hr : (List.range ((s₁.sched f₁.type s₁.N).1 + 1))[1]? with
    | none => rw [hr] at hg; simp at hg
    | some k =>
      rw [hr] at hg
      obtain ⟨_, hk⟩ := List.getElem?_eq_some_iff.1 hr
      rw [List.getElem_range] at hk
      subst hk
      simp only [Option.map_some, Option.some.injEq] at hg
      rw [← hg]
      exact (Sup.phaseAt_congr (s := s₁) (s' := { b.1 with move := b.1.move }) hmv hds hst f₁ 1).symm
  · rw [hb, hu.size, e1, e4]
  · show _ ≤ b.1.cnt b.1.move s₁.ttnp f₁.type
    rw [e4, hu.steps, hmv, Sup.cnt_congr hN hT hst hds]
  · intro h1 h2; rw [h1] at h2; simp at h2

/-- The invariant is kept by a cycle. -/
theorem HInv.cycle {a b : Sup K × Vec K} {f : Phase K} {mv : Bool} {R fb : K} (h : HInv a f mv R)
    (hfb : 0 ≤ fb) (hc : Cycle fb a b) : ∃ f' R', HInv b f' b.1.move R' := by
  obtain ⟨s', v', hu, hb, hf⟩ := hc
  obtain ⟨s₁, v₁, f₁, m, hU⟩ := h.update hu
  exact ⟨f₁, s₁.ttnp, hU.hinv h hfb hb hf⟩

theorem Ready.hinv {a : Sup K × Vec K} (h : Ready a) :
    HInv a ⟨.DS, a.1.dsPeriod⟩ false a.1.ttnp := by
  refine ⟨h.N, h.T, h.step, h.ds, h.kin, by rw [h.timeline]; rfl, by rw [h.ttnp]; exact h.ds, le_rfl,
    ?_, by rw [h.var, h.M]; omega, by rw [h.M]; exact Nat.zero_le _, fun _ h2 => by simp at h2⟩
  intro g hg
  rw [h.timeline] at hg
  simp at hg

theorem Reach.hinv {okfb : K → Prop} {ok : Sup K → Bool → Prop} (hfb : ∀ x, okfb x → 0 ≤ x)
    (hok : ∀ s m, ok s m → CanStop s m) {a : Sup K × Vec K} (h : Reach okfb ok a) :
    ∃ f mv R, HInv a f mv R := by
  induction h with
  | start h => exact ⟨_, _, _, h.hinv⟩
  | cycle _ h1 h2 ih =>
    obtain ⟨f, mv, R, ih⟩ := ih
    obtain ⟨f', R', h'⟩ := ih.cycle (hfb _ h1) h2
    exact ⟨f', _, R', h'⟩
  | setMove _ h1 ih =>
    rename_i s v m _
    obtain ⟨f, mv, R, ih⟩ := ih
    refine ⟨f, mv, R, ih.N, ih.T, ih.step, ih.ds, ih.kin, ih.front, ih.hR, ih.le, ih.next, ih.var,
      ih.steps, ?_⟩
    intro h2 _
    change m = false at h2
    rcases hok _ _ h1 with h3 | ⟨g, h3, h4⟩ | h3 | h3
    · rw [h2] at h3; simp at h3
    · left
      have := ih.front
      change s.timeline[0]? = _ at this
      rw [h3] at this
      cases this
      exact h4
    · exact Or.inr (Or.inl h3)
    · exact Or.inr (Or.inr h3)

end

end MPC
