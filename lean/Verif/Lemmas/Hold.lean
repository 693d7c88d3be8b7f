import Verif.Lemmas.CopRun
import Verif.Spec.Hold

/-! # The preview of two successive cycles -/

set_option linter.unusedSectionVars false

namespace MPC

variable {K : Type} [Field K] [LinearOrder K] [IsStrictOrderedRing K]

/-! ### Schedules -/

/-- The schedule does not depend on when exactly the current phase ends inside of a sampling interval. -/
theorem sched_hold {T : K} {dur dur' : ℕ → K} (h0 : EPS ≤ dur 0) (h0' : EPS ≤ dur' 0)
    (hd : ∀ k, 1 ≤ k → dur' k = dur k) (he : ∀ j : ℕ, dur' 0 - j * T < EPS ↔ dur 0 - j * T < EPS) (j : ℕ) :
    ((sched T dur j).1 = 0 ∧ (sched T dur' j).1 = 0 ∧ (sched T dur j).2 = dur 0 - j * T ∧
      (sched T dur' j).2 = dur' 0 - j * T) ∨ (1 ≤ (sched T dur j).1 ∧ sched T dur' j = sched T dur j) := by
  induction j with
  | zero => rw [sched_zero h0, sched_zero h0']; left; simp
  | succ j ih =>
    simp only [sched]
    rcases ih with ⟨a1, a2, a3, a4⟩ | ⟨a1, a2⟩
    · rw [a1, a2, a3, a4]
      have e1 : dur 0 - j * T - T = dur 0 - ((j + 1 : ℕ) : K) * T := by push_cast; ring
      have e2 : dur' 0 - j * T - T = dur' 0 - ((j + 1 : ℕ) : K) * T := by push_cast; ring
      rw [e1, e2]
      unfold schedNorm
      by_cases hc : dur 0 - ((j + 1 : ℕ) : K) * T < EPS
      · right
        rw [if_pos (by exact hc), if_pos (by exact (he _).2 hc)]
        exact ⟨by simp, by simp only [zero_add]; rw [hd 1 le_rfl]⟩
      · left
        rw [if_neg (by exact hc), if_neg (by exact fun h => hc ((he _).1 h))]
        exact ⟨rfl, rfl, rfl, rfl⟩
    · right
      rw [a2]
      unfold schedNorm
      split
      · exact ⟨by simp, by rw [hd _ (by simp)]⟩
      · exact ⟨a1, rfl⟩

theorem sched_hold_fst {T : K} {dur dur' : ℕ → K} (h0 : EPS ≤ dur 0) (h0' : EPS ≤ dur' 0)
    (hd : ∀ k, 1 ≤ k → dur' k = dur k) (he : ∀ j : ℕ, dur' 0 - j * T < EPS ↔ dur 0 - j * T < EPS) (j : ℕ) :
    (sched T dur' j).1 = (sched T dur j).1 := by
  rcases sched_hold h0 h0' hd he j with ⟨a1, a2, -⟩ | ⟨-, a⟩
  · rw [a1, a2]
  · rw [a]

/-- The schedule a sampling period later, in the same phase. -/
theorem sched_later {T : K} {dur dur' : ℕ → K} (h0 : EPS ≤ dur 0) (h0' : EPS ≤ dur' 0)
    (hd : ∀ k, 1 ≤ k → dur' k = dur k) (he : dur' 0 = dur 0 - T) (j : ℕ) :
    sched T dur' j = sched T dur (j + 1) := by
  induction j with
  | zero =>
    rw [sched_zero h0', sched, sched_zero h0, schedNorm, he, if_neg (by rw [← he]; exact not_lt.2 h0')]
  | succ j ih =>
    rw [sched, ih, sched.eq_def T dur (j + 1 + 1)]
    simp only
    unfold schedNorm
    split
    · rw [hd _ (by simp)]
    · rfl

/-- The schedule when the current phase ended at the first sample. -/
theorem sched_popped {T : K} {dur dur' : ℕ → K} (h0 : EPS ≤ dur 0) (h1 : dur 0 - T < EPS) (h0' : EPS ≤ dur' 0)
    (hd : ∀ k, dur' k = dur (k + 1)) (j : ℕ) :
    sched T dur (j + 1) = ((sched T dur' j).1 + 1, (sched T dur' j).2) := by
  induction j with
  | zero =>
    rw [sched_zero h0', sched, sched_zero h0, schedNorm, if_pos (by exact h1), hd]
  | succ j ih =>
    rw [sched, ih, sched.eq_def T dur' (j + 1)]
    simp only
    unfold schedNorm
    simp only
    split
    · rw [hd]
    · rfl

/-! ### The supervisor -/

theorem grid_lt_int {fb : K} (h : EPS < fb) (z : ℤ) : (z : K) * fb < EPS ↔ z ≤ 0 := by
  have hE : (0 : K) < EPS := EPS_pos
  constructor
  · intro h1
    by_contra hc
    have h2 : (1 : K) ≤ z := by exact_mod_cast not_le.1 hc
    nlinarith
  · intro h1
    have h2 : (z : K) ≤ 0 := by exact_mod_cast h1
    nlinarith

/-- The sample instants, inside of a sampling interval. -/
theorem grid_interval {fb T : K} (h : EPS < fb) {n c d : ℕ} (hT : T = n * fb) (hc : 1 ≤ c) (hcn : c ≤ n) (hd : 1 ≤ d)
    (hdn : d ≤ n) (i j : ℕ) : (i * T + d * fb) - j * T < EPS ↔ (i * T + c * fb) - j * T < EPS := by
  have e : ∀ c : ℕ, (i * T + c * fb) - j * T = ((((i : ℤ) - j) * n + c : ℤ) : K) * fb := by
    intro c; rw [hT]; push_cast; ring
  rw [e, e, grid_lt_int h, grid_lt_int h]
  rcases lt_or_ge i j with hij | hij
  · have h1 : (i : ℤ) - j ≤ -1 := by omega
    constructor <;> intro _ <;> nlinarith
  · have h1 : (0 : ℤ) ≤ ((i : ℤ) - j) * n := mul_nonneg (by omega) (by omega)
    constructor <;> intro _ <;> omega

/-- The selection matrices and the phases of the samples, in closed form. -/
structure Shown (s₁ : Sup K) (f : Phase K) (s' : Sup K) : Prop where
  Vc : s'.V.cols = s'.M
  V0 : ∀ r < s₁.N, s'.V0.get r 0 = if s₁.ssCount f.type (s₁.smp f.type r) = 0 then 1 else 0
  V : ∀ r < s₁.N, ∀ c, s'.V.get r c = if s₁.ssCount f.type (s₁.smp f.type r) = c + 1 then 1 else 0
  idx : ∀ r < s₁.N, s'.phaseIdx.get r = s₁.smp f.type r

theorem GInv.update_shown [Archimedean K] {fb fb' : K} {a : Sup K × Vec K} {f : Phase K} {mv : Bool}
    {R : K} (h : GInv fb a f mv R) (hg : Grid fb a.1) {s' : Sup K} {v' : Vec K}
    (hu : a.1.updateTimeline a.2 fb' = .ok (s', v')) :
    ∃ s₁ v₁ f₁ m, Updated a fb' s₁ v₁ f₁ m s' v' ∧ Shown s₁ f₁ s' := by
  obtain ⟨s₁, v₁, f₁, m, hU⟩ := h.hist.update hu
  refine ⟨s₁, v₁, f₁, m, hU, ?_⟩
  have hk : HasKin s₁ := by unfold HasKin; rw [hU.left, hU.right]; exact h.hist.kin
  obtain ⟨⟨j, -, hj⟩, -⟩ := h.running hg hU.running
  have htl : 0 < a.1.timeline.length := (List.getElem?_eq_some_iff.1 h.hist.front).1
  obtain ⟨s'', v'', h1, -, -, -, -, h2, -, -, h3, h4, h5, -⟩ := Sup.updateTimeline_ok (by rw [hU.N]; exact h.hist.N)
    (by rw [hU.T]; exact h.hist.T) htl (by rw [h.hist.var]; omega) hU.pop hU.front hU.var
    (fun i _ hi => hk.pos hi) hU.pos ((hg.congr hU.N hU.T hU.step hU.ds).generic ⟨j, hj⟩ _)
  obtain ⟨rfl, rfl⟩ := Prod.mk.inj (Except.ok.inj (hu.symm.trans h1))
  exact ⟨h2, h3, h4, h5⟩

theorem rowIsUnit_unique {s : Sup K} {r q q' : ℕ} (h : RowIsUnit s r q) (h' : RowIsUnit s r q') : q = q' := by
  obtain ⟨a1, a2, a3⟩ := h
  obtain ⟨b1, b2, b3⟩ := h'
  rcases Nat.eq_zero_or_pos q with rfl | hq
  · rw [a2] at b2
    by_contra hne
    simp [Ne.symm hne] at b2
  · have := a3 (q - 1) (by omega)
    rw [b3 (q - 1) (by omega), if_pos (by omega : q = q - 1 + 1)] at this
    by_contra hne
    rw [if_neg (by omega)] at this
    simp at this

/-- Row of a sample. -/
theorem Shown.unit {a : Sup K × Vec K} {fb : K} {s₁ : Sup K} {v₁ : Vec K} {f₁ : Phase K} {m : ℕ} {s' : Sup K}
    {v' : Vec K} (h : Shown s₁ f₁ s') (hU : Updated a fb s₁ v₁ f₁ m s' v') {r : ℕ} (hr : r < s₁.N) :
    RowIsUnit s' r (s₁.ssCount f₁.type (s₁.smp f₁.type r)) := by
  refine ⟨?_, h.V0 r hr, fun c _ => h.V r hr c⟩
  rw [h.Vc, hU.preview.M]
  exact Sup.ssCount_mono _ _ (sched_mono (by omega))

/-- The support foot, when the phase goes on and the feet on the ground do not move. -/
theorem supportAt_congr {s s' : Sup K} {f : Phase K} (h : s.timeline[0]? = some f) (h' : s'.timeline[0]? = some f)
    (hm : s'.move = s.move) (hd : f.type = .DS → s'.left = s.left ∧ s'.right = s.right)
    (hl : f.type = .leftSS → s'.left = s.left) (hr : f.type = .rightSS → s'.right = s.right) (p : Pt K) :
    Spec.SupportAt s' p ↔ Spec.SupportAt s p := by
  unfold Spec.SupportAt
  rw [h, h', hm]
  refine exists_congr fun g => and_congr_right fun hg => ?_
  obtain rfl := Option.some.inj hg
  cases ht : f.type with
  | DS => obtain ⟨e1, e2⟩ := hd ht; rw [e1, e2]
  | leftSS => rw [hl ht]; simp
  | rightSS => rw [hr ht]; simp

/-- **The preview does not change inside of a sampling interval.** -/
theorem hold_preview [Archimedean K] [FloorRing K] {fb : K} {a : Sup K × Vec K} (hR : Reach (· = fb) CanStop a)
    (hg : Grid fb a.1) {s' s2 s3 : Sup K} {v' x v3 : Vec K} (hu : a.1.updateTimeline a.2 fb = .ok (s', v'))
    (hx : x.size = v'.size) (hf : s'.updateFeetStates ⟨2 * s'.M, fun i => x.get (2 * s'.N + i)⟩ fb = .ok s2) {n : ℤ}
    (hn : s'.nbCalls = .ok n) (h2 : 2 ≤ n) (hu2 : s2.updateTimeline x fb = .ok (s3, v3)) :
    Spec.SamePreview s' s3 ∧ s3.nbCalls = .ok (n - 1) ∧ v3.size = x.size ∧ ∀ k < x.size, v3.get k = x.get k := by
  have hE : (0 : K) < EPS := EPS_pos
  have hfb : 0 < fb := hE.trans hg.pos
  have hcyc : Cycle fb a (s2, x) := ⟨s', v', hu, hx, hf⟩
  obtain ⟨nT, hnT, hT⟩ := hg.T
  obtain ⟨i, c, hc, -, hcn, httnp⟩ := C34_calls_partial a fb hR hg nT hT s' v' hu
  obtain rfl : (c : ℤ) = n := Except.ok.inj (hc.symm.trans hn)
  have hc2 : 2 ≤ c := by exact_mod_cast h2
  obtain ⟨f0, mv0, R0, hI⟩ := hR.ginv hfb.le hg
  obtain ⟨s₁, v₁, f₁, m, hU, hS⟩ := hI.update_shown hg hu
  obtain ⟨f2, R2, hI2⟩ := hI.cycle hg hcyc
  obtain ⟨g1, g2, g3, g4, -⟩ := hcyc.params hI.hist
  have hg2 : Grid fb s2 := hg.congr g1 g2 g3 g4
  obtain ⟨t₁, w₁, f₂, m₂, hU2, hS2⟩ := hI2.update_shown hg2 hu2
  obtain ⟨e1, e2, e3, e4, e5, e6, e7, e8, e9, -⟩ := Sup.updateFeet_frame hf
  have hp := hU.preview.same
  have hTT : s'.T = a.1.T := by rw [hp.T, hU.T]
  have ht2 : s2.ttnp = i * a.1.T + ((c - 1 : ℕ) : K) * fb := by
    rw [e7, httnp, hTT, Nat.cast_sub (by omega)]; push_cast; ring
  have hpos : EPS ≤ s2.ttnp := by
    rw [ht2]
    have h1 : (1 : K) ≤ ((c - 1 : ℕ) : K) := by exact_mod_cast (by omega : 1 ≤ c - 1)
    have h3 : (0 : K) ≤ i * a.1.T := mul_nonneg (Nat.cast_nonneg _) (hE.le.trans hI.hist.T)
    nlinarith [hg.pos]
  obtain ⟨k0, htm, htl, rfl⟩ : t₁.fb = fb ∧ t₁.ttnp = s2.ttnp ∧ t₁.timeline = s2.timeline ∧ x = w₁ := by
    rcases Sup.popPhase_of_ok hU2.pop with ⟨-, k1, k2⟩ | ⟨k1, -⟩
    · rw [k1]; exact ⟨rfl, rfl, rfl, k2.symm⟩
    · exact absurd hpos (not_le.2 k1)
  obtain rfl : f₂ = f₁ := by
    have h1 := hU2.front
    have h3 := hU.front'
    rw [htl, e9] at h1
    exact Option.some.inj (h1.symm.trans h3)
  have hN : t₁.N = s₁.N := by rw [hU2.N]; show s2.N = _; rw [e1, hp.N]
  have hT' : t₁.T = s₁.T := by rw [hU2.T]; show s2.T = _; rw [e2, hp.T]
  have hmv : t₁.move = s₁.move := by rw [hU2.move]; show s2.move = _; rw [e8, hp.move]
  have hds : t₁.dsPeriod = s₁.dsPeriod := by rw [hU2.ds]; show s2.dsPeriod = _; rw [e6, hp.dsPeriod]
  have hst : t₁.stepPeriod = s₁.stepPeriod := by rw [hU2.step]; show s2.stepPeriod = _; rw [e5, hp.stepPeriod]
  -- the schedule
  have hsch : ∀ j, (t₁.sched f₂.type j).1 = (s₁.sched f₂.type j).1 := by
    intro j
    unfold Sup.sched
    rw [hT']
    refine sched_hold_fst hU.pos hU2.pos ?_ ?_ j
    · intro k hk
      obtain ⟨k, rfl⟩ : ∃ l, k = l + 1 := ⟨k - 1, by omega⟩
      simp only [Sup.durAt]
      rw [Sup.typeAt_congr hmv]
      exact Sup.period_congr hds hst _
    · intro j
      show t₁.ttnp - _ < EPS ↔ s₁.ttnp - _ < EPS
      rw [htm, ht2, ← hp.ttnp, httnp, hTT, hU.T]
      exact grid_interval hg.pos hT (by omega) hcn (by omega) (by omega) i j
  have hss : ∀ k, t₁.ssCount f₂.type k = s₁.ssCount f₂.type k := Sup.ssCount_congr hmv _
  have hM : s3.M = s'.M := by
    rw [hU2.preview.M, hU.preview.M, hss, hsch, hN]
  have hxs : x.size = 2 * s₁.N + 2 * s'.M := by rw [hx, hU.size, hp.N]
  have hm : m₂ = s'.M := by
    have := hU2.var
    omega
  have hq := hU2.preview.same
  have hcont := C31_contact a (s2, x) fb hcyc f₂ _ hU.running
  refine ⟨⟨?_, ?_, ?_, hM, ?_, ?_, ?_⟩, ?_, ?_, ?_⟩
  · rw [hq.N, hp.N]; exact hN
  · rw [hq.T, hp.T]; exact hT'
  · rw [hU2.preview.tl, hU.preview.tl, hsch, hN]
    exact List.map_congr_left fun k _ => Sup.phaseAt_congr hmv hds hst _ _
  · intro r hr
    rw [hp.N] at hr
    rw [hS2.idx r (by omega), hS.idx r hr]
    exact hsch _
  · intro r hr q
    rw [hp.N] at hr
    have u1 := hS.unit hU hr
    have u2 := hS2.unit hU2 (r := r) (by omega)
    rw [hss, Sup.smp, hsch] at u2
    exact ⟨fun h => rowIsUnit_unique u2 h ▸ u1, fun h => rowIsUnit_unique u1 h ▸ u2⟩
  · refine supportAt_congr hU.front' hU2.front' ?_ ?_ ?_ ?_
    · rw [hq.move, hU2.move]; exact e8
    · intro ht
      obtain ⟨k1, k2⟩ := hcont.1 (Or.inl ht)
      exact ⟨by rw [hq.left, hU2.left, hp.left, hU.left]; exact k1, by rw [hq.right, hU2.right, hp.right, hU.right]; exact k2⟩
    · intro ht; rw [hq.left, hU2.left, hp.left, hU.left]; exact hcont.2.1 ht
    · intro ht; rw [hq.right, hU2.right, hp.right, hU.right]; exact hcont.2.2 ht
  · have hR2 : Reach (· = fb) CanStop (s2, x) := .cycle hR rfl hcyc
    obtain ⟨i3, c3, k1, k2, k3, k4⟩ := C34_calls_partial (s2, x) fb hR2 hg2 nT (by rw [← hT]; exact g2) s3 v3 hu2
    rw [k1]
    have : s3.ttnp = s2.ttnp := hq.ttnp.trans htm
    rw [this, ht2, hq.T, hU2.T] at k4
    have k4 : (i : K) * a.1.T + ((c - 1 : ℕ) : K) * fb = i3 * s2.T + c3 * fb := k4
    have : s2.T = a.1.T := g2
    rw [this, hT] at k4
    have k5 : ((i * nT + (c - 1) : ℕ) : K) = ((i3 * nT + c3 : ℕ) : K) := by
      push_cast
      have := mul_right_cancel₀ hfb.ne' (show ((i : K) * nT + ((c - 1 : ℕ) : K)) * fb = (i3 * nT + c3) * fb by
        linear_combination k4)
      exact this
    have k6 : i * nT + (c - 1) = i3 * nT + c3 := by exact_mod_cast k5
    have k7 : i = i3 := by
      rcases lt_trichotomy i i3 with h | h | h
      · have := Nat.mul_le_mul_right nT (by omega : i + 1 ≤ i3); rw [Nat.add_mul] at this; omega
      · exact h
      · have := Nat.mul_le_mul_right nT (by omega : i3 + 1 ≤ i); rw [Nat.add_mul] at this; omega
    subst k7
    have : c3 = c - 1 := by omega
    rw [this, Nat.cast_sub (by omega)]; rfl
  · rw [hU2.size, hM, hq.N]; omega
  · intro k hk
    have hC := hU2.content
    rw [hM, hm] at hC
    rcases lt_or_ge k (2 * t₁.N) with h | h
    · exact hC.cop k h
    · rcases lt_or_ge k (2 * t₁.N + s'.M) with h3 | h3
      · have := hC.oldX (k - 2 * t₁.N) (by omega) (by omega)
        rw [show 2 * t₁.N + (k - 2 * t₁.N) = k by omega] at this
        exact this
      · have := hC.oldY (k - 2 * t₁.N - s'.M) (by omega) (by omega)
        rw [show 2 * t₁.N + s'.M + (k - 2 * t₁.N - s'.M) = k by omega] at this
        exact this

theorem supportAt_unique {s : Sup K} {p p' : Pt K} (h : Spec.SupportAt s p) (h' : Spec.SupportAt s p') : p = p' := by
  obtain ⟨f, hf, a1, a2, a3, a4⟩ := h
  obtain ⟨g, hg, b1, b2, b3, b4⟩ := h'
  obtain rfl := Option.some.inj (hf.symm.trans hg)
  cases ht : f.type with
  | rightSS => rw [a1 ht, b1 ht]
  | leftSS => rw [a2 ht, b2 ht]
  | DS =>
    cases hm : s.move with
    | true => rw [a3 ht hm, b3 ht hm]
    | false => rw [a4 ht hm, b4 ht hm]

/-- Footsteps of the decision vector that a phase change and a preview keep. -/
theorem Content.previous_eq {s : Sup K} {t : PhaseType} {u v : Vec K} {m0 m : ℕ} (hC : Content s t u m0 m v) {j : ℕ}
    (h1 : j + 1 ≤ m0) (h2 : j + 1 ≤ m) (p : Pt K) :
    Spec.previous s.N m p v.get (j + 1) = ⟨u.get (2 * s.N + j), u.get (2 * s.N + m0 + j)⟩ := by
  show Spec.footstep s.N m v.get j = _
  unfold Spec.footstep
  rw [hC.oldX j (by omega) (by omega), hC.oldY j (by omega) (by omega)]

/-- **The preview moves by one sample when a sampling interval ends.** -/
theorem next_preview [Archimedean K] [FloorRing K] {fb : K} {a : Sup K × Vec K} (hR : Reach (· = fb) CanStop a)
    (hg : Grid fb a.1) {s' s2 s3 : Sup K} {v' x v3 : Vec K} (hu : a.1.updateTimeline a.2 fb = .ok (s', v'))
    (hx : x.size = v'.size) (hf : s'.updateFeetStates ⟨2 * s'.M, fun i => x.get (2 * s'.N + i)⟩ fb = .ok s2)
    (hn : s'.nbCalls = .ok 1) (hu2 : s2.updateTimeline x fb = .ok (s3, v3)) :
    ∃ k q f, s'.timeline[0]? = some f ∧ Spec.NextPreview s' s3 k q ∧
      (k = 0 ∧ q = 0 ∧ EPS ≤ s2.ttnp ∨ k = 1 ∧ (q = if f.type = .DS then 0 else 1) ∧ s2.ttnp < EPS) ∧
      (f.type = .DS ∨ s'.move = true → a.1.T ≤ a.1.stepPeriod → fb < (a.1.stepPeriod - a.1.T) / 2 + EPS →
        ∀ p p', Spec.SupportAt s' p → Spec.SupportAt s3 p' → ∀ j, j + q ≤ s'.M →
          j ≤ s3.M ∧ Spec.previous s3.N s3.M p' v3.get j = Spec.previous s'.N s'.M p x.get (j + q)) := by
  have hE : (0 : K) < EPS := EPS_pos
  have hfb : 0 < fb := hE.trans hg.pos
  have hcyc : Cycle fb a (s2, x) := ⟨s', v', hu, hx, hf⟩
  obtain ⟨nT, hnT, hT⟩ := hg.T
  obtain ⟨i, c, hc, -, hcn, httnp⟩ := C34_calls_partial a fb hR hg nT hT s' v' hu
  have hc1 : (c : ℤ) = 1 := Except.ok.inj (hc.symm.trans hn)
  obtain rfl : c = 1 := by exact_mod_cast hc1
  obtain ⟨f0, mv0, R0, hI⟩ := hR.ginv hfb.le hg
  obtain ⟨s₁, v₁, f₁, m, hU, hS⟩ := hI.update_shown hg hu
  obtain ⟨f2, R2, hI2⟩ := hI.cycle hg hcyc
  obtain ⟨g1, g2, g3, g4, -⟩ := hcyc.params hI.hist
  have hg2 : Grid fb s2 := hg.congr g1 g2 g3 g4
  obtain ⟨t₁, w₁, f₂, m₂, hU2, hS2⟩ := hI2.update_shown hg2 hu2
  obtain ⟨e1, e2, e3, e4, e5, e6, e7, e8, e9, -⟩ := Sup.updateFeet_frame hf
  have hp := hU.preview.same
  have hq := hU2.preview.same
  have hTT : s'.T = a.1.T := by rw [hp.T, hU.T]
  have ht2 : s2.ttnp = i * a.1.T := by rw [e7, httnp, hTT]; push_cast; ring
  have hN : t₁.N = s₁.N := by rw [hU2.N]; show s2.N = _; rw [e1, hp.N]
  have hT' : t₁.T = s₁.T := by rw [hU2.T]; show s2.T = _; rw [e2, hp.T]
  have hmv : t₁.move = s₁.move := by rw [hU2.move]; show s2.move = _; rw [e8, hp.move]
  have hds : t₁.dsPeriod = s₁.dsPeriod := by rw [hU2.ds]; show s2.dsPeriod = _; rw [e6, hp.dsPeriod]
  have hst : t₁.stepPeriod = s₁.stepPeriod := by rw [hU2.step]; show s2.stepPeriod = _; rw [e5, hp.stepPeriod]
  have hNN : s3.N = s'.N := by rw [hq.N, hN, hp.N]
  have hxs : x.size = 2 * s₁.N + 2 * s'.M := by rw [hx, hU.size, hp.N]
  have hs1 : s₁.ttnp = i * a.1.T + fb := by rw [← hp.ttnp, httnp, hTT]; push_cast; ring
  have hcont := C31_contact a (s2, x) fb hcyc f₁ _ hU.running
  have hC := hU2.content
  have hTn : fb ≤ a.1.T := by
    have h1 : (1 : K) ≤ nT := by exact_mod_cast hnT
    rw [hT]; nlinarith
  rcases Nat.eq_zero_or_pos i with hi | hi
  · -- the phase ends
    have hlt : s2.ttnp < EPS := by rw [ht2, hi]; simpa using hE
    obtain ⟨f, g, r, htl, et, hv1, hv2⟩ : ∃ f g r, s2.timeline = f :: g :: r ∧
        t₁ = { ({ s2 with fb := fb } : Sup K) with timeline := g :: r, ttnp := g.duration } ∧
        (f.type = .DS → w₁ = x) ∧ (f.type ≠ .DS → Sup.shorten { s2 with fb := fb } x = .ok w₁) := by
      rcases Sup.popPhase_of_ok hU2.pop with ⟨k1, -⟩ | ⟨-, f, g, r, h⟩
      · exact absurd hlt (not_lt.2 k1)
      · exact ⟨f, g, r, h⟩
    obtain rfl : f = f₁ := by
      have h3 := hU.front'
      rw [← e9, htl] at h3
      simpa using h3
    obtain rfl : g = f₂ := by
      have h1 := hU2.front
      rw [et] at h1
      simpa using h1
    have hgp : g = s₁.phaseAt f 1 := by
      have h1 : s'.timeline[1]? = some g := by rw [← e9, htl]; rfl
      rw [hU.preview.tl, List.getElem?_map] at h1
      cases hr : (List.range ((s₁.sched f.type s₁.N).1 + 1))[1]? with
      | none => rw [hr] at h1; simp at h1
      | some k =>
        rw [hr] at h1
        obtain ⟨_, hk⟩ := List.getElem?_eq_some_iff.1 hr
        rw [List.getElem_range] at hk
        subst hk
        simpa using h1.symm
    have hgt : g.type = s₁.nextType f.type := by rw [hgp]; rfl
    have hty : ∀ k, t₁.typeAt g.type k = s₁.typeAt f.type (k + 1) := by
      intro k; rw [Sup.typeAt_congr hmv, Sup.typeAt_shift, hgt]
    have hsch : ∀ j, s₁.sched f.type (j + 1) = ((t₁.sched g.type j).1 + 1, (t₁.sched g.type j).2) := by
      intro j
      unfold Sup.sched
      rw [hT']
      refine sched_popped hU.pos ?_ hU2.pos ?_ j
      · show s₁.ttnp - s₁.T < EPS
        rw [hs1, hi, hU.T]
        simp only [Nat.cast_zero, zero_mul, zero_add]
        linarith
      · intro k
        cases k with
        | zero =>
          show t₁.ttnp = s₁.period (s₁.typeAt f.type 1)
          rw [et]
          show g.duration = _
          rw [hgp]; rfl
        | succ k =>
          show t₁.period _ = s₁.period _
          rw [hty, Sup.period_congr hds hst]
    have hss : ∀ k, s₁.ssCount f.type (k + 1) = (if f.type = .DS then 0 else 1) + t₁.ssCount g.type k := by
      intro k; rw [Sup.ssCount_shift, ← hgt, Sup.ssCount_congr hmv]
    have hschN : (s₁.sched f.type s₁.N).1 ≤ (t₁.sched g.type t₁.N).1 + 1 := by
      rw [hN]
      have := congrArg Prod.fst (hsch s₁.N)
      simp only at this
      rw [← this]
      exact sched_mono (by omega)
    have hpos1 : 1 ≤ (s₁.sched f.type s₁.N).1 := by
      have h1 : s'.timeline.length = (s₁.sched f.type s₁.N).1 + 1 := by
        rw [hU.preview.tl, List.length_map, List.length_range]
      rw [← e9, htl] at h1
      simp only [List.length_cons] at h1
      omega
    have hMM : s'.M ≤ s3.M + (if f.type = .DS then 0 else 1) := by
      obtain ⟨k, hk⟩ : ∃ k, (s₁.sched f.type s₁.N).1 = k + 1 := ⟨_, (Nat.succ_pred_eq_of_pos hpos1).symm⟩
      rw [hU.preview.M, hU2.preview.M, hk, hss, Nat.add_comm]
      refine Nat.add_le_add_right (Sup.ssCount_mono _ _ ?_) _
      omega
    refine ⟨1, if f.type = .DS then 0 else 1, f, hU.front', ⟨hNN, by rw [hq.T, hp.T]; exact hT', ?_, ?_, ?_⟩,
      Or.inr ⟨rfl, rfl, hlt⟩, ?_⟩
    · intro k hk
      rw [hU.preview.tl, List.length_map, List.length_range] at hk
      rw [hU2.preview.tl, hU.preview.tl, List.getElem?_map, List.getElem?_map, List.getElem?_range (by omega),
        List.getElem?_range (by omega)]
      simp only [Option.map_some, Option.some.injEq]
      cases k with
      | zero => exact hgp
      | succ k =>
        show (⟨_, _⟩ : Phase K) = ⟨_, _⟩
        rw [hty, Sup.period_congr hds hst]
    · intro r hr
      rw [hp.N] at hr
      rw [hS2.idx r (by omega), hS.idx (r + 1) hr]
      exact (congrArg Prod.fst (hsch (r + 1))).symm
    · intro r hr
      rw [hp.N] at hr
      refine ⟨_, ?_, hS2.unit hU2 (r := r) (by omega)⟩
      have := hS.unit hU hr
      have e := congrArg Prod.fst (hsch (r + 1))
      simp only at e
      rw [Sup.smp, e, hss, Nat.add_comm (if f.type = .DS then 0 else 1)] at this
      exact this
    · intro hmd hstep hfly p p' hps hps' j hj
      refine ⟨by omega, ?_⟩
      have l3 : s3.left = s2.left := by rw [hq.left, hU2.left]
      have r3 : s3.right = s2.right := by rw [hq.right, hU2.right]
      have m3 : s3.move = s'.move := by rw [hq.move, hmv, hp.move]
      cases j with
      | zero =>
        rw [Nat.zero_add]
        show p' = _
        obtain ⟨h, hh, b1, b2, b3, b4⟩ := hps'
        obtain rfl := Option.some.inj (hU2.front'.symm.trans hh)
        by_cases hfd : f.type = .DS
        · rw [if_pos hfd]
          show p' = p
          obtain ⟨f', hf', a1, a2, a3, a4⟩ := hps
          obtain rfl := Option.some.inj (hU.front'.symm.trans hf')
          obtain ⟨c1, c2⟩ := hcont.1 (Or.inl hfd)
          have c1 : s3.left = s'.left := by rw [l3, hp.left, hU.left]; exact c1
          have c2 : s3.right = s'.right := by rw [r3, hp.right, hU.right]; exact c2
          rw [c1] at b2 b4
          rw [c2] at b4
          cases hm : s'.move with
          | true =>
            rw [a3 hfd hm]
            refine b2 ?_
            rw [hgt, hfd, Sup.nextType, ← hp.move, hm]; rfl
          | false =>
            rw [a4 hfd hm]
            refine b4 ?_ (m3.trans hm)
            rw [hgt, hfd, Sup.nextType, ← hp.move, hm]; rfl
        · rw [if_neg hfd]
          show p' = Spec.footstep s'.N s'.M x.get 0
          have hm : s'.move = true := hmd.resolve_left hfd
          have hdur : f.duration = a.1.stepPeriod := by
            have : f.duration = a.1.period f.type := by
              rcases hU.running with ⟨-, e, -⟩ | ⟨-, e, -⟩ <;> exact hR.durations _ _ e
            rw [this]
            cases hft : f.type <;> simp_all [Sup.period]
          obtain ⟨-, l1, l2, -⟩ := C32_lands_grid_partial a (s2, x) fb hR hg hcyc f (by rw [e9]; exact hU.front') hfd
            hlt (by rw [hdur]; exact hstep) (by rw [hdur]; exact hfly)
          cases hft : f.type with
          | DS => exact absurd hft hfd
          | leftSS =>
            rw [if_pos hft] at l1 l2
            have : g.type = .rightSS := by rw [hgt, hft, Sup.nextType, ← hp.move, hm]; rfl
            rw [b1 this, r3, l1, l2]
            unfold Spec.footstep
            simp only [e1, e4, Nat.add_zero]
          | rightSS =>
            rw [if_neg (by rw [hft]; simp)] at l1 l2
            have : g.type = .leftSS := by rw [hgt, hft, Sup.nextType, ← hp.move, hm]; rfl
            rw [b2 this, l3, l1, l2]
            unfold Spec.footstep
            simp only [e1, e4, Nat.add_zero]
      | succ j =>
        rw [hq.N, hp.N]
        by_cases hfd : f.type = .DS
        · rw [if_pos hfd] at hj ⊢
          obtain rfl := hv1 hfd
          have hm2 : m₂ = s'.M := by have := hU2.var; omega
          rw [hC.previous_eq (by omega) (by rw [if_pos hfd] at hMM; omega), hN, hm2]
          rfl
        · rw [if_neg hfd] at hj ⊢
          obtain ⟨M', hM'⟩ : ∃ M', s'.M = M' + 1 := ⟨s'.M - 1, by omega⟩
          have hs2N : s2.N = s₁.N := by rw [e1, hp.N]
          obtain ⟨w, hw, z1, -, z2, z3⟩ := Sup.shorten_ok (s := { s2 with fb := fb }) (var := x) (m := M')
            (by show _ = 2 * s2.N + _; omega)
          obtain rfl := Except.ok.inj (hw.symm.trans (hv2 hfd))
          simp only [hs2N] at z1 z2 z3
          have hm2 : m₂ = M' := by have := hU2.var; omega
          rw [hC.previous_eq (by omega) (by rw [if_neg hfd] at hMM; omega), hN, hm2, z2 j (by omega), z3 j (by omega), hM']
          rfl
  · -- the phase goes on
    have hpos : EPS ≤ s2.ttnp := by
      rw [ht2]
      have h1 : (1 : K) ≤ i := by exact_mod_cast hi
      nlinarith [hI.hist.T]
    obtain ⟨k0, htm, htl, rfl⟩ : t₁.fb = fb ∧ t₁.ttnp = s2.ttnp ∧ t₁.timeline = s2.timeline ∧ x = w₁ := by
      rcases Sup.popPhase_of_ok hU2.pop with ⟨-, k1, k2⟩ | ⟨k1, -⟩
      · rw [k1]; exact ⟨rfl, rfl, rfl, k2.symm⟩
      · exact absurd hpos (not_le.2 k1)
    obtain rfl : f₂ = f₁ := by
      have h1 := hU2.front
      have h3 := hU.front'
      rw [htl, e9] at h1
      exact Option.some.inj (h1.symm.trans h3)
    have hdur : ∀ k, 1 ≤ k → t₁.durAt f₂.type k = s₁.durAt f₂.type k := by
      intro k hk
      obtain ⟨k, rfl⟩ : ∃ l, k = l + 1 := ⟨k - 1, by omega⟩
      simp only [Sup.durAt]
      rw [Sup.typeAt_congr hmv]
      exact Sup.period_congr hds hst _
    have hsch : ∀ j, (t₁.sched f₂.type j).1 = (s₁.sched f₂.type (j + 1)).1 := by
      intro j
      unfold Sup.sched
      rw [hT']
      have hmid : EPS ≤ (i : K) * s₁.T + s₁.T := by
        rw [hU.T]
        have h1 : (1 : K) ≤ i := by exact_mod_cast hi
        nlinarith [hI.hist.T, hI.hist.T]
      rw [sched_later (T := s₁.T) (dur := fun k => if k = 0 then (i : K) * s₁.T + s₁.T else s₁.durAt f₂.type k)
        (dur' := t₁.durAt f₂.type) (by simpa using hmid) hU2.pos (fun k hk => by
          rw [if_neg (by omega)]; exact hdur k hk) (by
            show t₁.ttnp = _
            rw [htm, ht2, if_pos rfl, hU.T]; ring) j]
      refine sched_hold_fst hU.pos (by simpa using hmid) (fun k hk => by rw [if_neg (by omega)]) ?_ _
      intro l
      show (if (0 : ℕ) = 0 then (i : K) * s₁.T + s₁.T else _) - _ < EPS ↔ s₁.ttnp - _ < EPS
      rw [if_pos rfl, hs1, hU.T]
      have := grid_interval hg.pos hT (c := 1) (d := nT) le_rfl (by omega) (by omega) le_rfl i l
      rw [← hT, Nat.cast_one, one_mul] at this
      exact this
    have hss : ∀ k, t₁.ssCount f₂.type k = s₁.ssCount f₂.type k := Sup.ssCount_congr hmv _
    have hschN : (s₁.sched f₂.type s₁.N).1 ≤ (t₁.sched f₂.type t₁.N).1 := by
      rw [hN, hsch]
      exact sched_mono (by omega)
    have hMM : s'.M ≤ s3.M := by
      rw [hU.preview.M, hU2.preview.M, hss]
      exact Sup.ssCount_mono _ _ hschN
    refine ⟨0, 0, f₂, hU.front', ⟨hNN, by rw [hq.T, hp.T]; exact hT', ?_, ?_, ?_⟩, Or.inl ⟨rfl, rfl, hpos⟩, ?_⟩
    · intro k hk
      rw [hU.preview.tl, List.length_map, List.length_range] at hk
      rw [hU2.preview.tl, hU.preview.tl, List.getElem?_map, List.getElem?_map, List.getElem?_range (by omega),
        List.getElem?_range (by omega)]
      simp only [Option.map_some, Option.some.injEq]
      exact Sup.phaseAt_congr hmv hds hst _ _
    · intro r hr
      rw [hp.N] at hr
      rw [hS2.idx r (by omega), hS.idx (r + 1) hr]
      exact hsch (r + 1)
    · intro r hr
      rw [hp.N] at hr
      refine ⟨_, ?_, hS2.unit hU2 (r := r) (by omega)⟩
      have := hS.unit hU hr
      rw [hss, Sup.smp, hsch]
      exact this
    · intro _ _ _ p p' hps hps' j hj
      refine ⟨by omega, ?_⟩
      have hpp : p' = p := by
        refine supportAt_unique ((supportAt_congr hU.front' hU2.front' ?_ ?_ ?_ ?_ p').1 hps') hps
        · rw [hq.move, hmv, hp.move]
        · intro ht
          obtain ⟨k1, k2⟩ := hcont.1 (Or.inl ht)
          exact ⟨by rw [hq.left, hU2.left, hp.left, hU.left]; exact k1,
            by rw [hq.right, hU2.right, hp.right, hU.right]; exact k2⟩
        · intro ht; rw [hq.left, hU2.left, hp.left, hU.left]; exact hcont.2.1 ht
        · intro ht; rw [hq.right, hU2.right, hp.right, hU.right]; exact hcont.2.2 ht
      cases j with
      | zero => exact hpp
      | succ j =>
        have hm2 : m₂ = s'.M := by have := hU2.var; omega
        rw [hq.N, hp.N, hC.previous_eq (by omega) (by omega), hN, hm2]
        rfl

end MPC
