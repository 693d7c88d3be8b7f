import Verif.Spec.CopRun
import Verif.Props.HumCycle
import Verif.Props.Phases

/-! # Support of the robot at a sampling instant -/

set_option linter.unusedSectionVars false

namespace MPC

variable {K : Type} [Field K] [LinearOrder K] [IsStrictOrderedRing K]

theorem Sup.updateFeet_cop {s s' : Sup K} {sv : Vec K} {fb : K} (h : s.updateFeetStates sv fb = .ok s') :
    s'.left.cop = s.left.cop ∧ s'.right.cop = s.right.cop := by
  have hfly : ∀ {f g : Foot K} {a b c d e : K}, f.fly a b c d e = .ok g → g.cop = f.cop := by
    intro f g a b c d e h
    unfold Foot.fly at h
    obtain ⟨_, -, h⟩ := bind_eq_ok.1 h
    obtain ⟨_, -, h⟩ := bind_eq_ok.1 h
    dsimp only at h
    split at h
    all_goals
      obtain ⟨_, -, h⟩ := bind_eq_ok.1 h
      cases h
      rfl
  obtain ⟨f, hf, -⟩ := bind_eq_ok.1 h
  have hf : s.timeline[0]? = some f := listAt_eq_ok.1 hf
  rcases Sup.updateFeet_cases hf h with ⟨-, e1, e2⟩ | ⟨-, -, -, ⟨-, e1, e2⟩ | ⟨-, e1, e2⟩⟩
  · rw [e1, e2]; exact ⟨rfl, rfl⟩
  · rw [e1]; exact ⟨rfl, hfly e2⟩
  · rw [e1]; exact ⟨hfly e2, rfl⟩

theorem Sup.updateTimeline_stepVec {s s' : Sup K} {v v' : Vec K} {fb : K} (h : s.updateTimeline v fb = .ok (s', v')) :
    ∀ i, s'.stepVec.get i = v'.get (2 * s'.N + i) := by
  unfold Sup.updateTimeline at h
  obtain ⟨_, -, h⟩ := bind_eq_ok.1 h
  obtain ⟨_, -, h⟩ := bind_eq_ok.1 h
  obtain ⟨⟨s1, v1⟩, -, h⟩ := bind_eq_ok.1 h
  obtain ⟨l, -, h⟩ := bind_eq_ok.1 h
  obtain ⟨sv, hsv, h⟩ := bind_eq_ok.1 h
  obtain ⟨wt, -, h⟩ := bind_eq_ok.1 h
  obtain ⟨s2, h2, h⟩ := bind_eq_ok.1 h
  simp only [pure, Except.pure, Except.ok.injEq, Prod.mk.injEq] at h
  obtain ⟨rfl, rfl⟩ := h
  unfold Sup.selection at h2
  obtain ⟨_, -, h2⟩ := bind_eq_ok.1 h2
  obtain ⟨_, -, h2⟩ := bind_eq_ok.1 h2
  obtain ⟨_, -, h2⟩ := bind_eq_ok.1 h2
  obtain rfl := Except.ok.inj h2
  obtain ⟨-, rfl⟩ := Vec.segment?_eq_ok hsv
  intro i
  rfl

/-- All phases of the timeline have the durations configured for their types. -/
theorem Reach.durations {okfb : K → Prop} {ok : Sup K → Bool → Prop} {a : Sup K × Vec K} (h : Reach okfb ok a) :
    ∀ (k : ℕ) (p : Phase K), a.1.timeline[k]? = some p → p.duration = a.1.period p.type := by
  induction h with
  | start h =>
    intro k p hp
    rw [h.timeline] at hp
    cases k with
    | zero => simp only [List.getElem?_cons_zero, Option.some.injEq] at hp; subst hp; rfl
    | succ k => simp at hp
  | setMove _ _ ih => exact ih
  | cycle _ _ hc ih =>
    obtain ⟨s', v', hu, -, hf⟩ := hc
    obtain ⟨f, hr, h0, -, -, h3, h4, -, -, -, -, hn, -⟩ := Sup.updateTimeline_running hu
    obtain ⟨-, -, -, -, g3, g4, -, -, gt, -⟩ := Sup.updateFeet_frame hf
    have hp : ∀ {s t : Sup K} (_ : s.stepPeriod = t.stepPeriod) (_ : s.dsPeriod = t.dsPeriod) x,
        s.period x = t.period x := by
      intro s t e1 e2 x
      cases x <;> simp only [Sup.period, e1, e2]
    intro k p hk
    rw [gt] at hk
    rw [hp (g3.trans h3) (g4.trans h4)]
    cases k with
    | zero =>
      obtain rfl := Option.some.inj (h0.symm.trans hk)
      rcases hr with ⟨-, e, -⟩ | ⟨-, e, -⟩ <;> exact ih _ _ e
    | succ k =>
      have hlt : k < s'.timeline.length := by
        have := (List.getElem?_eq_some_iff.1 hk).1
        omega
      rw [hn k _ p (List.getElem?_eq_getElem hlt) hk]
      rfl

/-- The support at a sampling instant: the phase that runs after the cycle is the one to which the solver attached the
first sample, and the feet are where the plan says. -/
theorem sample_support [Archimedean K] [FloorRing K] {fb : K} {a : Sup K × Vec K} (hR : Reach (· = fb) CanStop a)
    (hg : Grid fb a.1) (hstep : a.1.T ≤ a.1.stepPeriod) (hfly : fb < (a.1.stepPeriod - a.1.T) / 2 + EPS)
    {s' s2 : Sup K} {v' x : Vec K} (hu : a.1.updateTimeline a.2 fb = .ok (s', v')) (hx : x.size = v'.size)
    (hf : s'.updateFeetStates ⟨2 * s'.M, fun i => x.get (2 * s'.N + i)⟩ fb = .ok s2) (hn : s'.nbCalls = .ok 1)
    {ph : Phase K} {R : K} (hph : Running s2 ph R) :
    ∃ q, RowIsUnit s' 0 q ∧ s'.timeline[s'.phaseIdx.get 0]? = some ph ∧ ∀ p, Spec.SupportAt s' p →
      (ph.type = .leftSS → Spec.previous s'.N s'.M p x.get q = s2.left.pos) ∧
      (ph.type = .rightSS → Spec.previous s'.N s'.M p x.get q = s2.right.pos) ∧
      (ph.type = .DS → ∀ l r t, Spec.DoubleSupport s' l r t →
        (∀ f, s'.timeline[0]? = some f → f.type ≠ .DS →
          Spec.footstep s'.N s'.M x.get 0 = ⟨s'.stepVec.get 0, s'.stepVec.get s'.M⟩) →
        l = s2.left.pos ∧ r = s2.right.pos ∧ t = Spec.previous s'.N s'.M p x.get q) := by
  have hE : (0 : K) < EPS := EPS_pos
  have hfb : 0 < fb := hE.trans hg.pos
  have hcyc : Cycle fb a (s2, x) := ⟨s', v', hu, hx, hf⟩
  obtain ⟨nT, hnT, hT⟩ := hg.T
  obtain ⟨i, c, hc, -, -, httnp⟩ := C34_calls_partial a fb hR hg nT hT s' v' hu
  have hc1 : (c : ℤ) = 1 := Except.ok.inj (hc.symm.trans hn)
  obtain rfl : c = 1 := by exact_mod_cast hc1
  obtain ⟨f, hrun, h0, hN, hTT, hsp, -, hmv, hl, hr, -, hnext, -⟩ := Sup.updateTimeline_running hu
  obtain ⟨gN, gT, -, gM, -, -, gt, gmv, gtl, -⟩ := Sup.updateFeet_frame hf
  obtain ⟨s3, v3, b, f3, R3, e3, hrun3, hcov, -, -, -, -, -, -, hsel⟩ := C28_selection_grid fb a hR hg
  obtain ⟨rfl, rfl⟩ := Prod.mk.inj (Except.ok.inj (hu.symm.trans e3))
  obtain ⟨rfl, rfl⟩ := hrun.unique hrun3
  obtain ⟨f0, mv0, R0, hI⟩ := hR.ginv hfb.le hg
  have hN0 : 0 < a.1.N := hI.hist.N
  have hTE : EPS ≤ a.1.T := hI.hist.T
  obtain ⟨k, hk, hki, hrow⟩ := hsel 0 hN0
  have hdur : f.type ≠ .DS → f.duration = a.1.stepPeriod := by
    intro hne
    have : f.duration = a.1.period f.type := by
      rcases hrun with ⟨-, e, -⟩ | ⟨-, e, -⟩ <;> exact hR.durations _ _ e
    rw [this]
    cases hft : f.type <;> simp_all [Sup.period]
  have httnp2 : s2.ttnp = i * a.1.T := by rw [gt, httnp, hTT]; push_cast; ring
  have hcontact := C31_contact a (s2, x) fb hcyc f _ hrun
  refine ⟨_, hrow, ?_⟩
  rw [hki]
  by_cases hi : i = 0
  · -- the phase ends with the cycle
    subst hi
    have h20 : s2.ttnp = 0 := by rw [httnp2]; simp
    have hph1 : s'.timeline[1]? = some ph := by
      rcases hph with ⟨h1, -, -⟩ | ⟨-, h2, -⟩
      · rw [h20] at h1; exact absurd h1 (not_le.2 hE)
      · rw [gtl] at h2; exact h2
    have hlen : 1 < s'.timeline.length := (List.getElem?_eq_some_iff.1 hph1).1
    have hb1 : b 1 = 1 := by
      have ho : b 0 < b 1 := hcov.order 0 (by omega)
      rw [hcov.start] at ho
      by_contra hne
      have := hcov.running 0 (by omega) 1 (by rw [hcov.start]; omega) (by omega) (fun _ => by show 1 < b 1; omega)
      rw [if_pos rfl, hcov.start, httnp] at this
      simp only [Nat.cast_zero, zero_mul, zero_add, Nat.cast_one, one_mul, Nat.sub_zero] at this
      have h5 : fb ≤ a.1.T := by
        rw [hT]
        have : (1 : K) ≤ nT := by exact_mod_cast hnT
        nlinarith
      linarith
    have hk1 : k = 1 := by
      obtain ⟨k1, k2, k3⟩ := hk
      rcases Nat.lt_trichotomy k 1 with h | h | h
      · have : k = 0 := by omega
        subst this
        have := k3 (by omega)
        simp only [zero_add] at this
        omega
      · exact h
      · exfalso
        have hmono : ∀ j, j < s'.timeline.length → 1 < j → 1 < b j := by
          intro j hj h1j
          induction j with
          | zero => omega
          | succ j ih =>
            have := hcov.order j hj
            rcases Nat.lt_or_ge 1 j with h' | h'
            · have := ih (by omega) h'; omega
            · have : j = 1 := by omega
              subst this
              omega
        have := hmono k k1 h
        omega
    subst hk1
    refine ⟨hph1, fun p hp => ?_⟩
    have hsteps : stepsBefore s'.timeline 1 = if f.type = .DS then 0 else 1 := by
      unfold stepsBefore
      obtain ⟨f', tl, etl⟩ : ∃ f' tl, s'.timeline = f' :: tl := by
        cases hh : s'.timeline with
        | nil => rw [hh] at hlen; simp at hlen
        | cons f' tl => exact ⟨f', tl, rfl⟩
      rw [etl] at h0 ⊢
      simp only [List.getElem?_cons_zero, Option.some.injEq] at h0
      subst h0
      by_cases hds : f'.type = .DS <;> simp [hds]
    rw [hsteps]
    have hq := hnext 0 f ph h0 hph1
    obtain ⟨fp, hfp, p1, p2, p3, p4⟩ := hp
    obtain rfl := Option.some.inj (h0.symm.trans hfp)
    have hty : ph.type = a.1.nextType f.type := by rw [hq]; rfl
    cases hft : f.type with
    | DS =>
      rw [if_pos rfl]
      obtain ⟨c1, c2⟩ := hcontact.1 (Or.inl hft)
      have c1 : s2.left = s'.left := by rw [hl]; exact c1
      have c2 : s2.right = s'.right := by rw [hr]; exact c2
      rw [hft] at hty
      simp only [Sup.nextType] at hty
      refine ⟨fun h => ?_, fun h => ?_, fun h l r t hd _ => ?_⟩
      · have hm : a.1.move = true := by
          by_contra hm
          rw [h, if_neg hm] at hty
          simp at hty
        rw [c1]
        exact p3 hft (by rw [hmv]; exact hm)
      · rw [h] at hty
        split at hty <;> simp at hty
      · have hm : a.1.move = false := by
          by_contra hm
          rw [h, if_pos (by simpa using hm)] at hty
          simp at hty
        obtain ⟨fd, hfd, -, d2, -, -⟩ := hd
        obtain rfl := Option.some.inj (h0.symm.trans hfd)
        obtain ⟨e1, e2, e3⟩ := d2 (by rw [hmv]; exact hm) hft
        refine ⟨by rw [c1]; exact e1, by rw [c2]; exact e2, ?_⟩
        have := p4 hft (by rw [hmv]; exact hm)
        rw [e3, e1, e2]
        show _ = p
        rw [this]
        simp only [Pt.mk.injEq]
        constructor <;> ring
    | leftSS =>
      rw [if_neg (by simp)]
      have hne : f.type ≠ .DS := by rw [hft]; simp
      have hdf := hdur hne
      obtain ⟨-, l1, l2, -⟩ := C32_lands_grid_partial a (s2, x) fb hR hg hcyc f (by rw [gtl]; exact h0) hne
        (by rw [h20]; exact hE) (by rw [hdf]; exact hstep) (by rw [hdf]; exact hfly)
      rw [if_pos hft] at l1 l2
      have hland : Spec.footstep s'.N s'.M x.get 0 = s2.right.pos := by
        unfold Spec.footstep Foot.pos
        rw [l1, l2]
        simp only [gN, gM, Nat.add_zero]
      have c1 : s2.left = s'.left := by rw [hl]; exact hcontact.2.1 hft
      rw [hft] at hty
      simp only [Sup.nextType] at hty
      refine ⟨fun h => ?_, fun h => hland, fun h l r t hd hkeep => ?_⟩
      · rw [h] at hty
        split at hty <;> simp at hty
      · have hm : a.1.move = false := by
          by_contra hm
          rw [h, if_pos (by simpa using hm)] at hty
          simp at hty
        obtain ⟨fd, hfd, -, -, d3, -⟩ := hd
        obtain rfl := Option.some.inj (h0.symm.trans hfd)
        obtain ⟨e1, e2, e3⟩ := d3 (by rw [hmv]; exact hm) hft
        have hkp := hkeep f h0 hne
        refine ⟨by rw [c1]; exact e1, by rw [e2, ← hkp, hland], ?_⟩
        show t = Spec.footstep s'.N s'.M x.get 0
        rw [e3, e2, hkp]
    | rightSS =>
      rw [if_neg (by simp)]
      have hne : f.type ≠ .DS := by rw [hft]; simp
      have hdf := hdur hne
      obtain ⟨-, l1, l2, -⟩ := C32_lands_grid_partial a (s2, x) fb hR hg hcyc f (by rw [gtl]; exact h0) hne
        (by rw [h20]; exact hE) (by rw [hdf]; exact hstep) (by rw [hdf]; exact hfly)
      rw [if_neg (by rw [hft]; simp)] at l1 l2
      have hland : Spec.footstep s'.N s'.M x.get 0 = s2.left.pos := by
        unfold Spec.footstep Foot.pos
        rw [l1, l2]
        simp only [gN, gM, Nat.add_zero]
      have c1 : s2.right = s'.right := by rw [hr]; exact hcontact.2.2 hft
      rw [hft] at hty
      simp only [Sup.nextType] at hty
      refine ⟨fun h => hland, fun h => ?_, fun h l r t hd hkeep => ?_⟩
      · rw [h] at hty
        split at hty <;> simp at hty
      · have hm : a.1.move = false := by
          by_contra hm
          rw [h, if_pos (by simpa using hm)] at hty
          simp at hty
        obtain ⟨fd, hfd, -, -, -, d4⟩ := hd
        obtain rfl := Option.some.inj (h0.symm.trans hfd)
        obtain ⟨e1, e2, e3⟩ := d4 (by rw [hmv]; exact hm) hft
        have hkp := hkeep f h0 hne
        refine ⟨by rw [e2, ← hkp, hland], by rw [c1]; exact e1, ?_⟩
        show t = Spec.footstep s'.N s'.M x.get 0
        rw [e3, e2, hkp]
  · -- the phase goes on
    have hi1 : (1 : K) ≤ i := by exact_mod_cast Nat.one_le_iff_ne_zero.2 hi
    have hT0 : 0 < a.1.T := hE.trans_le hTE
    have hph0 : f = ph := by
      rcases hph with ⟨-, h2, -⟩ | ⟨h1, -, -⟩
      · rw [gtl] at h2; exact Option.some.inj (h0.symm.trans h2)
      · rw [httnp2] at h1; nlinarith
    subst hph0
    have hk0 : k = 0 := by
      obtain ⟨k1, k2, k3⟩ := hk
      by_contra hne
      have hlen : 0 + 1 < s'.timeline.length := by omega
      have hb : 1 < b 1 := by
        have ho : b 0 < b 1 := hcov.order 0 hlen
        rw [hcov.start] at ho
        by_contra hb
        have hb1 : b 1 = 1 := by omega
        have := hcov.over 0 hlen
        rw [if_pos rfl, hcov.start, hb1, httnp, hTT] at this
        simp only [Nat.cast_one, one_mul, Nat.sub_zero] at this
        nlinarith [hg.pos]
      have hmono : ∀ j, j < s'.timeline.length → 1 ≤ j → 1 < b j := by
        intro j hj h1j
        induction j with
        | zero => omega
        | succ j ih =>
          rcases Nat.eq_zero_or_pos j with h' | h'
          · subst h'; exact hb
          · have := ih (by omega) h'
            have := hcov.order j hj
            omega
      have := hmono k k1 (by omega)
      omega
    subst hk0
    refine ⟨h0, fun p hp => ?_⟩
    have hs0 : stepsBefore s'.timeline 0 = 0 := by simp [stepsBefore]
    rw [hs0]
    obtain ⟨fp, hfp, p1, p2, p3, p4⟩ := hp
    obtain rfl := Option.some.inj (h0.symm.trans hfp)
    refine ⟨fun h => ?_, fun h => ?_, fun h l r t hd _ => ?_⟩
    · have c1 : s2.left = s'.left := by rw [hl]; exact hcontact.2.1 h
      rw [c1]; exact p2 h
    · have c1 : s2.right = s'.right := by rw [hr]; exact hcontact.2.2 h
      rw [c1]; exact p1 h
    · obtain ⟨c1, c2⟩ := hcontact.1 (Or.inl h)
      have c1 : s2.left = s'.left := by rw [hl]; exact c1
      have c2 : s2.right = s'.right := by rw [hr]; exact c2
      obtain ⟨fd, hfd, d1, d2, -, -⟩ := hd
      obtain rfl := Option.some.inj (h0.symm.trans hfd)
      rcases hm : s'.move with _ | _
      · obtain ⟨e1, e2, e3⟩ := d2 hm h
        refine ⟨by rw [c1]; exact e1, by rw [c2]; exact e2, ?_⟩
        show _ = p
        rw [p4 h hm, e3, e1, e2]
        simp only [Pt.mk.injEq]
        constructor <;> ring
      · obtain ⟨e1, e2, e3⟩ := d1 hm
        refine ⟨by rw [c1]; exact e1, by rw [c2]; exact e2, ?_⟩
        show _ = p
        rw [p3 h hm, e3, e1]

/-- The CoP of a motion with constant jerk is close to the chord. -/
theorem cop_chord {h A S t j : K} {s : State3 K} (hS : 0 < S) (h0 : 0 ≤ t) (h1 : t ≤ S) (ha : |s.a| ≤ A)
    (hb : |(Spec.cubic s j S).a| ≤ A) :
    |Spec.copOf 1 h 0 GRAVITY_NORM (Spec.cubic s j t) - ((1 - t / S) * Spec.copOf 1 h 0 GRAVITY_NORM s
      + t / S * Spec.copOf 1 h 0 GRAVITY_NORM (Spec.cubic s j S))| ≤ t * (S - t) / 2 * A := by
  have e : Spec.copOf 1 h 0 GRAVITY_NORM (Spec.cubic s j t) - ((1 - t / S) * Spec.copOf 1 h 0 GRAVITY_NORM s
      + t / S * Spec.copOf 1 h 0 GRAVITY_NORM (Spec.cubic s j S))
      = t * (S - t) / 6 * ((2 - t / S) * (-s.a) + (1 + t / S) * (-(Spec.cubic s j S).a)) := by
    unfold Spec.copOf Spec.cubic
    field_simp
    ring
  have hr0 : 0 ≤ t / S := by positivity
  have hr1 : t / S ≤ 1 := (div_le_one hS).2 h1
  have hts : 0 ≤ t * (S - t) / 6 := by
    have := mul_nonneg h0 (sub_nonneg.2 h1)
    positivity
  rw [e, abs_mul, abs_of_nonneg hts]
  have hA : |(2 - t / S) * (-s.a) + (1 + t / S) * (-(Spec.cubic s j S).a)| ≤ 3 * A := by
    refine (abs_add_le _ _).trans ?_
    rw [abs_mul, abs_mul, abs_neg, abs_neg, abs_of_nonneg (by linarith : (0 : K) ≤ 2 - t / S),
      abs_of_nonneg (by linarith : (0 : K) ≤ 1 + t / S)]
    have i1 := mul_le_mul_of_nonneg_left ha (by linarith : (0 : K) ≤ 2 - t / S)
    have i2 := mul_le_mul_of_nonneg_left hb (by linarith : (0 : K) ≤ 1 + t / S)
    linarith
  calc t * (S - t) / 6 * _ ≤ t * (S - t) / 6 * (3 * A) := mul_le_mul_of_nonneg_left hA hts
    _ = t * (S - t) / 2 * A := by ring

/-- `solve` builds its QP for the state of the CoM in which it is called. -/
theorem prepare_state [FloorRing K] {hull : Vec (Pt K) → Res (Polygon K)} {w w' : HWalkgen K} {fb : K} {idx : ℕ}
    {qp : QPMatrices K} (h : HumInv w) (hp : w.prepare hull fb = .ok (w', idx, qp)) :
    w'.lip.x = w.lip.x ∧ w'.lip.y = w.lip.y ∧ w'.lip.comHeight = w.lip.comHeight ∧ w'.lip.N = w.lip.N := by
  obtain ⟨w0, a, b, q0, q1, hb, -, -, -, -, -, rfl⟩ := hprepare_ok hp
  unfold HWalkgen.begin at hb
  obtain ⟨⟨s, X⟩, h1, hb⟩ := bind_eq_ok.1 hb
  dsimp only at hb
  have key : ∃ l, (w.lip.setFeedbackPeriod fb = .ok l ∨ l = w.lip) ∧ (do
      require (0 < fb)
      require (s.N = l.N)
      HWalkgen.firstGuess { w with sup := s, X := X, lip := l }) = .ok w0 := by
    split at hb
    · obtain ⟨l, h2, hb⟩ := bind_eq_ok.1 hb
      exact ⟨l, .inl h2, hb⟩
    · obtain ⟨l, h2, hb⟩ := bind_eq_ok.1 hb
      exact ⟨l, .inr (Except.ok.inj h2).symm, hb⟩
  obtain ⟨l, h2, hb⟩ := key
  obtain ⟨_, -, hb⟩ := bind_eq_ok.1 hb
  obtain ⟨_, -, hb⟩ := bind_eq_ok.1 hb
  have hw : w0.lip = l := by
    unfold HWalkgen.firstGuess at hb
    split at hb
    · simp only [bind_eq_ok] at hb
      obtain ⟨_, -, _, -, _, -, _, -, _, -, _, -, _, -, _, -, _, -, _, -, _, -, _, -, hb⟩ := hb
      obtain rfl := Except.ok.inj hb
      rfl
    · obtain rfl := Except.ok.inj hb
      rfl
  show w0.lip.x = _ ∧ w0.lip.y = _ ∧ w0.lip.comHeight = _ ∧ w0.lip.N = _
  rw [hw]
  rcases h2 with h2 | rfl
  · unfold Lip.setFeedbackPeriod at h2
    obtain ⟨_, -, h2⟩ := bind_eq_ok.1 h2
    obtain ⟨-, -, p2, -, -, p5, p6, -, p8, -⟩ := Lip.refresh_fresh (l := { w.lip with fb := fb }) h.fresh.auto h2
    exact ⟨p5, p6, p8, p2⟩
  · exact ⟨rfl, rfl, rfl, rfl⟩

end MPC
