import Verif.Props.Timeline
import Verif.Props.Interpolator
import Verif.Lemmas.SupFeet
import Mathlib.Algebra.BigOperators.Group.Finset.Basic

/-!
# C31–C34, C36, C37: phases of the walk and motion of the feet
-/
set_option linter.unusedSectionVars false

namespace MPC

section
variable {K : Type} [Field K] [LinearOrder K] [IsStrictOrderedRing K]

/-! ### C31 -/

/-- **C31.** In every control cycle, from any state: no foot moves unless a foot is in flight; the
support foot of a single support never moves. -/
theorem C31_contact (a b : Sup K × Vec K) (fb : K) (hc : Cycle fb a b) (f : Phase K) (R : K)
    (hr : Running a.1 f R) :
    (f.type = .DS ∨ f.duration - a.1.T + EPS ≤ R → b.1.left = a.1.left ∧ b.1.right = a.1.right) ∧
    (f.type = .leftSS → b.1.left = a.1.left) ∧ (f.type = .rightSS → b.1.right = a.1.right) := by
  obtain ⟨s', v', hu, hb, hf⟩ := hc
  obtain ⟨f', hr', h1, h2, h3, -, -, -, h4, h5, -⟩ := Sup.updateTimeline_running hu
  obtain ⟨rfl, rfl⟩ := hr.unique hr'
  rcases Sup.updateFeet_cases h1 hf with ⟨-, e1, e2⟩ | ⟨h6, -, -, ⟨h7, e1, -⟩ | ⟨h7, e1, -⟩⟩
  · rw [e1, e2, h4, h5]
    exact ⟨fun _ => ⟨rfl, rfl⟩, fun _ => rfl, fun _ => rfl⟩
  · rw [e1, h4]
    refine ⟨?_, fun _ => rfl, fun h => by rw [h7] at h; simp at h⟩
    rintro (h | h)
    · exact absurd h h6.1
    · have := h6.2
      rw [h3] at this
      exact absurd h (not_le.2 this)
  · rw [e1, h5]
    refine ⟨?_, fun h => by rw [h7] at h; simp at h, fun _ => rfl⟩
    rintro (h | h)
    · exact absurd h h6.1
    · have := h6.2
      rw [h3] at this
      exact absurd h (not_le.2 this)

/-! ### C32 -/

theorem Foot.fly_lands {f g : Foot K} (hf : f.HasFactors) {tx ty F R : K} (hR : 0 < R)
    (hF : R < F / 2 + EPS) (h : f.fly tx ty F R R = .ok g) :
    g.x.state = ⟨tx, 0, 0⟩ ∧ g.y.state = ⟨ty, 0, 0⟩ ∧ g.z.state = ⟨0, 0, 0⟩ := by
  obtain ⟨x, hx, sx⟩ := (C10_endpoints f.x hf.1 ⟨tx, 0, 0⟩ R hR).2
  obtain ⟨y, hy, sy⟩ := (C10_endpoints f.y hf.2.1 ⟨ty, 0, 0⟩ R hR).2
  obtain ⟨z, hz, sz⟩ := (C10_endpoints f.z hf.2.2 ⟨0, 0, 0⟩ R hR).2
  unfold Foot.fly at h
  rw [hx, ok_bind, hy, ok_bind] at h
  dsimp only at h
  rw [if_pos hF, hz, ok_bind] at h
  cases h
  exact ⟨sx, sy, sz⟩

/-- **C32 (partial).** In every history, whatever the periods and the solver answers: if a cycle ends
exactly with the single support, the flying foot is then on the footstep given by the solver, on the
ground, at rest.

Excluded, see `C32_violated`: a last control period longer than half of the flight. -/
theorem C32_lands_partial (a b : Sup K × Vec K) (hr : Reach (0 ≤ ·) CanStop a) (fb : K) (hfb : 0 < fb)
    (hc : Cycle fb a b) (f : Phase K) (hf : b.1.timeline[0]? = some f) (hss : f.type ≠ .DS)
    (hend : b.1.ttnp = 0) (hT : a.1.T ≤ f.duration)
    (hfly : fb < (f.duration - a.1.T) / 2 + EPS) :
    let foot := if f.type = .leftSS then b.1.right else b.1.left
    foot.x.state = ⟨b.2.get (2 * b.1.N), 0, 0⟩ ∧
      foot.y.state = ⟨b.2.get (2 * b.1.N + b.1.M), 0, 0⟩ ∧ foot.z.state = ⟨0, 0, 0⟩ := by
  obtain ⟨hl, hri⟩ := hr.factors (fun _ h => h) (fun _ _ h => h)
  obtain ⟨s', v', hu, hb, hfe⟩ := hc
  obtain ⟨f', -, h1, h2, h3, -, -, -, h4, h5, -⟩ := Sup.updateTimeline_running hu
  obtain ⟨e1, e2, e3, e4, e5, e6, e7, e8, e9, -⟩ := Sup.updateFeet_frame hfe
  have : f' = f := by rw [e9, h1] at hf; exact Option.some.inj hf
  subst this
  have hR : s'.ttnp = fb := by rw [e7] at hend; exact sub_eq_zero.1 hend
  rw [e1, e4]
  rcases Sup.updateFeet_cases h1 hfe with ⟨h6, -⟩ | ⟨h6, -, -, ⟨h7, -, h8⟩ | ⟨h7, -, h8⟩⟩
  · exfalso
    refine h6 ⟨hss, ?_⟩
    rw [hR, h3]
    linarith
  · rw [hR, h3] at h8
    simp only [h7, if_true]
    exact Foot.fly_lands (by rw [h5]; exact hri) hfb hfly h8
  · rw [hR, h3] at h8
    have : ¬ f'.type = .leftSS := by rw [h7]; simp
    simp only [if_neg this]
    exact Foot.fly_lands (by rw [h4]; exact hl) hfb hfly h8

/-- **C32 on a grid (partial).** When the durations are multiples of the feedback period, every single
support ends exactly with a cycle, so that the flying foot always lands on its footstep. -/
theorem C32_lands_grid_partial (a b : Sup K × Vec K) (fb : K) (hr : Reach (· = fb) CanStop a)
    (hg : Grid fb a.1) (hc : Cycle fb a b) (f : Phase K) (hf : b.1.timeline[0]? = some f)
    (hss : f.type ≠ .DS) (hend : b.1.ttnp < EPS) (hT : a.1.T ≤ f.duration)
    (hfly : fb < (f.duration - a.1.T) / 2 + EPS) :
    b.1.ttnp = 0 ∧
    let foot := if f.type = .leftSS then b.1.right else b.1.left
    foot.x.state = ⟨b.2.get (2 * b.1.N), 0, 0⟩ ∧
      foot.y.state = ⟨b.2.get (2 * b.1.N + b.1.M), 0, 0⟩ ∧ foot.z.state = ⟨0, 0, 0⟩ := by
  have hE : (0 : K) < EPS := EPS_pos
  obtain ⟨f₀, mv, R, hI⟩ := hr.ginv (hE.trans hg.pos).le hg
  obtain ⟨f', R', hI'⟩ := hI.cycle hg hc
  obtain ⟨j, hj⟩ := hI'.tick
  have h0 : b.1.ttnp = 0 := by
    rw [hj, grid_lt hg.pos] at hend
    rw [hj, hend]; simp
  exact ⟨h0, C32_lands_partial a b (hr.mono (by rintro x rfl; exact (hE.trans hg.pos).le)
    (fun _ _ h => h)) fb (hE.trans hg.pos) hc f hf hss h0 hT hfly⟩

/-! ### C33 -/

/-- **C33, one cycle.** The remaining time decreases by the period; a phase is left exactly when less
than `EPS` of it remains, and the next phase of the timeline then starts with its whole duration. -/
theorem C33_cycle (a b : Sup K × Vec K) (fb : K) (hc : Cycle fb a b) :
    (EPS ≤ a.1.ttnp → b.1.timeline[0]? = a.1.timeline[0]? ∧ b.1.ttnp = a.1.ttnp - fb) ∧
    (a.1.ttnp < EPS → ∃ g, a.1.timeline[1]? = some g ∧ b.1.timeline[0]? = some g ∧
      b.1.ttnp = g.duration - fb) := by
  obtain ⟨f, R, hr, h1, h2, -⟩ := hc.running
  rcases hr with ⟨k1, k2, k3⟩ | ⟨k1, k2, k3⟩
  · exact ⟨fun _ => ⟨by rw [h1, k2], by rw [h2, k3]⟩, fun h => absurd k1 (not_le.2 h)⟩
  · exact ⟨fun h => absurd h (not_le.2 k1), fun _ => ⟨f, k2, h1, by rw [h2, k3]⟩⟩

theorem Sup.period_eq (s : Sup K) (t : PhaseType) :
    s.period t = if t = .DS then s.dsPeriod else s.stepPeriod := by
  cases t <;> rfl

/-- **C33, a whole phase.** In every run with positive periods from a reached state: if a phase starts
at cycle `0` and the next one at cycle `n + 1`, the phase has the duration `D` configured for its type,
and the total length of its `n + 1` cycles is at least `D - EPS` and at most the last period above
`D - EPS`. -/
theorem C33_phase (fb : ℕ → K) (a : ℕ → Sup K × Vec K) (n : ℕ) (hr : Reach (0 ≤ ·) CanStop (a 0))
    (hrun : Run fb a (n + 1)) (h0 : (a 0).1.ttnp < EPS)
    (hin : ∀ i, 1 ≤ i → i ≤ n → EPS ≤ (a i).1.ttnp) (hend : (a (n + 1)).1.ttnp < EPS) :
    ∃ f, (∀ i, 1 ≤ i → i ≤ n + 1 → (a i).1.timeline[0]? = some f) ∧
      f.duration = (if f.type = .DS then (a 0).1.dsPeriod else (a 0).1.stepPeriod) ∧
      f.duration - EPS < ∑ i ∈ Finset.range (n + 1), fb i ∧
      ∑ i ∈ Finset.range (n + 1), fb i ≤ f.duration - EPS + fb n := by
  obtain ⟨m0, hc0⟩ := hrun 0 (Nat.succ_pos n)
  obtain ⟨g, hg1, hg2, hg3⟩ := (C33_cycle _ _ _ hc0).2 h0
  have key : ∀ i, i ≤ n → (a (i + 1)).1.timeline[0]? = some g ∧
      (a (i + 1)).1.ttnp = g.duration - ∑ k ∈ Finset.range (i + 1), fb k := by
    intro i
    induction i with
    | zero => intro _; exact ⟨hg2, by rw [hg3]; simp⟩
    | succ i ih =>
      intro hi
      obtain ⟨k1, k2⟩ := ih (by omega)
      obtain ⟨m, hc⟩ := hrun (i + 1) (by omega)
      obtain ⟨k3, k4⟩ := (C33_cycle _ _ _ hc).1 (hin (i + 1) (by omega) hi)
      refine ⟨by rw [k3]; exact k1, ?_⟩
      rw [k4, Finset.sum_range_succ]
      show (a (i + 1)).1.ttnp - _ = _
      rw [k2]; ring
  obtain ⟨f₀, mv, R, hI⟩ := hr.hinv (fun _ h => h) (fun _ _ h => h)
  have hgd := hI.next g hg1
  have hdur : g.duration = if g.type = .DS then (a 0).1.dsPeriod else (a 0).1.stepPeriod := by
    rw [hgd]
    exact Sup.period_eq _ _
  refine ⟨g, fun i h1 h2 => ?_, hdur, ?_, ?_⟩
  · obtain ⟨j, rfl⟩ : ∃ j, i = j + 1 := ⟨i - 1, by omega⟩
    exact (key j (by omega)).1
  · rw [(key n le_rfl).2] at hend
    linarith
  · cases n with
    | zero =>
      have : EPS ≤ g.duration := by
        rw [hdur]; split
        · exact hI.ds
        · exact hI.step
      simp; linarith
    | succ n =>
      have h1 := hin (n + 1) (by omega) le_rfl
      rw [(key n (by omega)).2] at h1
      rw [Finset.sum_range_succ]
      linarith

/-! ### C34 -/

/-- **C34 (partial).** When the sampling period is `n` feedback periods and the durations are multiples
of the feedback period, the number of control calls before the next sample is between `1` and `n` after
every update.

The full statement is for every feedback period not above the sampling period: see `C34_violated`. -/
theorem C34_calls_partial [Archimedean K] [FloorRing K] (a : Sup K × Vec K) (fb : K)
    (hr : Reach (· = fb) CanStop a) (hg : Grid fb a.1) (n : ℕ) (hn : a.1.T = n * fb) (s' : Sup K)
    (v' : Vec K) (hu : a.1.updateTimeline a.2 fb = .ok (s', v')) :
    ∃ (i c : ℕ), s'.nbCalls = .ok (c : ℤ) ∧ 1 ≤ c ∧ c ≤ n ∧ s'.ttnp = i * s'.T + c * fb := by
  have hE : (0 : K) < EPS := EPS_pos
  have hfb : 0 < fb := hE.trans hg.pos
  obtain ⟨f, mv, R, hI⟩ := hr.ginv hfb.le hg
  obtain ⟨f₁, hrun, -, -, hT, -, -, -, -, -, hfb', -⟩ := Sup.updateTimeline_running hu
  obtain ⟨⟨j, hj, hR⟩, -⟩ := hI.running hg hrun
  have hT0 : 0 < a.1.T := lt_of_lt_of_le hE hI.hist.T
  obtain ⟨i, h1, h2, h3⟩ := timeToSample_ok (T := s'.T) (by rw [hT]; exact hT0) s'.ttnp
  rw [hT, hR, hn, ← mul_assoc, ← Nat.cast_mul] at h2 h3
  -- the remaining time before the sample is a positive number of periods
  have hij : i * n < j := by
    rcases h3 with rfl | h3
    · simpa using hj
    · by_contra hc
      have : (j : K) ≤ ((i * n : ℕ) : K) := by exact_mod_cast not_lt.1 hc
      nlinarith
  obtain ⟨c, hc⟩ : ∃ c, j = i * n + c := ⟨j - i * n, by omega⟩
  have e : s'.ttnp - i * s'.T = c * fb := by
    rw [hR, hT, hn, hc]; push_cast; ring
  have hcn : c ≤ n := by
    by_contra hcn
    have h4 : (n : K) + 1 ≤ c := by exact_mod_cast not_le.1 hcn
    have h5 : (j : K) = ((i * n : ℕ) : K) + c := by rw [hc]; push_cast; ring
    rw [h5] at h2
    nlinarith [hg.pos]
  refine ⟨i, c, ?_, by omega, hcn, by linarith⟩
  unfold Sup.nbCalls
  rw [h1, ok_bind, hfb', if_neg hfb.ne', e]
  have h6 : ⌊((c : K) * fb + EPS) / fb⌋ = (c : ℤ) := by
    rw [Int.floor_eq_iff]
    constructor
    · rw [le_div_iff₀ hfb]; push_cast; linarith
    · rw [div_lt_iff₀ hfb]; push_cast; nlinarith [hg.pos]
  have h7 : 0 ≤ ((c : K) * fb + EPS) / fb := by positivity
  unfold truncInt
  rw [if_pos h7, h6]
  rfl

/-! ### C36 -/

theorem StoppedRun.move {fb : ℕ → K} {a : ℕ → Sup K × Vec K} {n : ℕ} (h : StoppedRun fb a n) :
    ∀ i ≤ n, (a i).1.move = false := by
  intro i
  induction i with
  | zero => intro _; exact h.1
  | succ i ih =>
    intro hi
    obtain ⟨-, -, -, -, -, -, -, -, -, h1, -⟩ := (h.2 i (by omega)).running
    rw [h1]; exact ih (by omega)

/-- While stopped, all phases but the current one are double supports. -/
theorem StoppedRun.next {fb : ℕ → K} {a : ℕ → Sup K × Vec K} {n : ℕ} (h : StoppedRun fb a n) {i : ℕ}
    (h1 : 1 ≤ i) (hi : i ≤ n) {g : Phase K} (hg : (a i).1.timeline[1]? = some g) : g.type = .DS := by
  obtain ⟨i, rfl⟩ : ∃ j, i = j + 1 := ⟨i - 1, by omega⟩
  obtain ⟨f, -, -, h2, -, -, -, -, -, -, hc⟩ := (h.2 i (by omega)).running
  have := hc 0 f g h2 hg
  rw [this, Sup.nextPhase]
  simp only
  unfold Sup.nextType
  rw [h.move i (by omega)]
  cases f.type <;> rfl

/-- **C36, safety.** Walking is not requested any more. From any state, in every run: the phase that
runs at the first cycle is either completed or kept, and no other single support ever starts. It is the
current phase, or, if the current phase is over when the stop is requested, the phase that was planned
to follow. -/
theorem C36_no_new_step (fb : ℕ → K) (a : ℕ → Sup K × Vec K) (n : ℕ) (h : StoppedRun fb a n) :
    ∃ f : Phase K, (0 < n → ∃ R, Running (a 0).1 f R) ∧
      ∀ i, 1 ≤ i → i ≤ n → (a i).1.timeline[0]? = some f ∨
        ∀ j, i ≤ j → j ≤ n → ∃ g, (a j).1.timeline[0]? = some g ∧ g.type = .DS := by
  rcases Nat.eq_zero_or_pos n with rfl | hn
  · exact ⟨⟨.DS, 0⟩, fun h => absurd h (lt_irrefl _), fun i h1 h2 => absurd h1 (by omega)⟩
  obtain ⟨f, R, hr, h1, -⟩ := (h.2 0 hn).running
  have stay : ∀ i, 1 ≤ i → i + 1 ≤ n → (∃ g, (a i).1.timeline[0]? = some g ∧
      (a (i + 1)).1.timeline[0]? = some g) ∨
      ∃ g, (a (i + 1)).1.timeline[0]? = some g ∧ g.type = .DS := by
    intro i h2 h3
    obtain ⟨g, R', hr', h4, -⟩ := (h.2 i (by omega)).running
    rcases hr' with ⟨-, k2, -⟩ | ⟨-, k2, -⟩
    · exact Or.inl ⟨g, k2, h4⟩
    · exact Or.inr ⟨g, h4, h.next h2 (by omega) k2⟩
  have ds : ∀ i j, 1 ≤ i → i ≤ j → j ≤ n → (∃ g, (a i).1.timeline[0]? = some g ∧ g.type = .DS) →
      ∃ g, (a j).1.timeline[0]? = some g ∧ g.type = .DS := by
    intro i j h2 h3
    induction j, h3 using Nat.le_induction with
    | base => intro _ h; exact h
    | succ j hj ih =>
      intro h4 h5
      obtain ⟨g, h6, h7⟩ := ih (by omega) h5
      rcases stay j (by omega) h4 with ⟨g', h8, h9⟩ | h8
      · rw [h6] at h8; cases h8; exact ⟨g, h9, h7⟩
      · exact h8
  refine ⟨f, fun _ => ⟨R, hr⟩, fun i h2 => ?_⟩
  induction i, h2 using Nat.le_induction with
  | base => intro _; exact Or.inl h1
  | succ i hi ih =>
    intro h3
    rcases ih (by omega) with h4 | h4
    · rcases stay i hi h3 with ⟨g, h5, h6⟩ | h5
      · rw [h4] at h5; cases h5; exact Or.inl h6
      · exact Or.inr fun j h6 h7 => ds (i + 1) j (by omega) h6 h7 h5
    · exact Or.inr fun j h6 h7 => h4 j (by omega) h7

/-- **C36, bound.** The supervisor is in double support as soon as the periods of the cycles after the
first one exceed the time left after the first one. -/
theorem C36_ends (fb : ℕ → K) (a : ℕ → Sup K × Vec K) (n : ℕ) (h : StoppedRun fb a (n + 2))
    (hsum : (a 1).1.ttnp - ∑ i ∈ Finset.range n, fb (i + 1) < EPS) :
    ∃ g, (a (n + 2)).1.timeline[0]? = some g ∧ g.type = .DS := by
  by_cases hall : ∀ i, 1 ≤ i → i ≤ n → EPS ≤ (a i).1.ttnp
  · have key : ∀ i, i ≤ n → (a (i + 1)).1.ttnp = (a 1).1.ttnp - ∑ k ∈ Finset.range i, fb (k + 1) := by
      intro i
      induction i with
      | zero => intro _; simp
      | succ i ih =>
        intro hi
        rw [((C33_cycle _ _ _ (h.2 (i + 1) (by omega))).1 (hall (i + 1) (by omega) hi)).2, ih (by omega),
          Finset.sum_range_succ]
        ring
    rw [← key n le_rfl] at hsum
    obtain ⟨g, h1, h2, -⟩ := (C33_cycle _ _ _ (h.2 (n + 1) (by omega))).2 hsum
    exact ⟨g, h2, h.next (by omega) (by omega) h1⟩
  · push Not at hall
    obtain ⟨i, h1, h2, h3⟩ := hall
    obtain ⟨g, h4, h5, -⟩ := (C33_cycle _ _ _ (h.2 i (by omega))).2 h3
    have hg := h.next h1 (by omega) h4
    obtain ⟨f, -, hf⟩ := C36_no_new_step fb a (n + 2) h
    rcases hf (i + 1) (by omega) (by omega) with k | k
    · rw [h5] at k; cases k
      rcases hf (n + 2) (by omega) le_rfl with k | k
      · exact ⟨g, k, hg⟩
      · exact k _ le_rfl le_rfl
    · exact k _ (by omega) le_rfl

/-- **C36, liveness.** With periods bounded below by `δ > 0`, every endless stopped run ends up in
double support for ever. -/
theorem C36_eventually [Archimedean K] (fb : ℕ → K) (a : ℕ → Sup K × Vec K) (δ : K) (hδ : 0 < δ)
    (hfb : ∀ i, δ ≤ fb i) (h : ∀ n, StoppedRun fb a n) :
    ∃ n, ∀ j, n ≤ j → ∃ g, (a j).1.timeline[0]? = some g ∧ g.type = .DS := by
  have hE : (0 : K) < EPS := EPS_pos
  obtain ⟨n, hn⟩ := Archimedean.arch (a 1).1.ttnp hδ
  rw [nsmul_eq_mul] at hn
  refine ⟨n + 2, fun j hj => ?_⟩
  obtain ⟨k, rfl⟩ : ∃ k, j = k + 2 := ⟨j - 2, by omega⟩
  refine C36_ends fb a k (h _) ?_
  have h1 : (k : K) * δ ≤ ∑ i ∈ Finset.range k, fb (i + 1) := by
    have := Finset.card_nsmul_le_sum (Finset.range k) (fun i => fb (i + 1)) δ (fun i _ => hfb _)
    rwa [Finset.card_range, nsmul_eq_mul] at this
  have h2 : (n : K) ≤ k := by exact_mod_cast (by omega : n ≤ k)
  nlinarith

/-! ### C37 -/

/-- **C37, elapsed time.** An accepted change of the step period keeps the time elapsed in the current
phase, which lasts the new duration if it is a single support. -/
theorem C37_step_elapsed (s s' : Sup K) (p : K) (h : s.setStepPeriod p = .ok s') (f : Phase K)
    (hf : s.timeline[0]? = some f) :
    s'.stepPeriod = p ∧ ∃ f', s'.timeline[0]? = some f' ∧ f'.type = f.type ∧
      f'.duration - s'.ttnp = f.duration - s.ttnp ∧
      (f.type ≠ .DS → f.duration = s.stepPeriod → f'.duration = p) ∧
      (f.type = .DS → f' = f ∧ s'.ttnp = s.ttnp) := by
  unfold Sup.setStepPeriod at h
  obtain ⟨_, -, h⟩ := bind_eq_ok.1 h
  rw [Sup.isInDS_ok hf, ok_bind] at h
  split at h
  · rename_i hd
    have hd' : f.type = .DS := by simpa using hd
    cases h
    exact ⟨rfl, f, hf, rfl, rfl, fun h => absurd hd' h, fun _ => ⟨rfl, rfl⟩⟩
  · rename_i hd
    have hd' : f.type ≠ .DS := by simpa using hd
    obtain ⟨_, -, h⟩ := bind_eq_ok.1 h
    cases htl : s.timeline with
    | nil => rw [htl] at hf; simp at hf
    | cons x r =>
      rw [htl] at hf h
      simp only [List.getElem?_cons_zero, Option.some.injEq] at hf
      subst hf
      simp only [addFront, ok_bind] at h
      cases h
      refine ⟨rfl, _, rfl, rfl, by simp only; ring, fun _ h => by simp only; rw [h]; ring,
        fun h => absurd h hd'⟩

/-- **C37, elapsed time**, for the initial double support. -/
theorem C37_ds_elapsed (s s' : Sup K) (p : K) (h : s.setInitialDoubleSupportLength p = .ok s')
    (f : Phase K) (hf : s.timeline[0]? = some f) :
    s'.dsPeriod = p ∧ ∃ f', s'.timeline[0]? = some f' ∧ f'.type = f.type ∧
      f'.duration - s'.ttnp = f.duration - s.ttnp ∧
      (f.type = .DS → f.duration = s.dsPeriod → f'.duration = p) ∧
      (f.type ≠ .DS → f' = f ∧ s'.ttnp = s.ttnp) := by
  unfold Sup.setInitialDoubleSupportLength at h
  rw [Sup.isInDS_ok hf, ok_bind] at h
  split at h
  · rename_i hd
    have hd' : f.type = .DS := by simpa using hd
    cases htl : s.timeline with
    | nil => rw [htl] at hf; simp at hf
    | cons x r =>
      rw [htl] at hf h
      simp only [List.getElem?_cons_zero, Option.some.injEq] at hf
      subst hf
      have h' : s' = { s with
          dsPeriod := p, ttnp := s.ttnp + (p - s.dsPeriod),
          timeline := ⟨x.type, x.duration + (p - s.dsPeriod)⟩ :: r } := by
        simp only [addFront, ok_bind] at h
        split at h
        · obtain ⟨_, -, h⟩ := bind_eq_ok.1 h
          cases h; rfl
        · cases h; rfl
      rw [h']
      exact ⟨rfl, _, rfl, rfl, by simp only; ring, fun _ h => by simp only; rw [h]; ring,
        fun h => absurd hd' h⟩
  · rename_i hd
    have hd' : f.type ≠ .DS := by simpa using hd
    cases h
    exact ⟨rfl, f, hf, rfl, rfl, fun h => absurd h hd', fun _ => ⟨rfl, rfl⟩⟩

/-- **C37 (partial).** In every history, if an accepted change of a duration leaves at least `EPS` of
the current phase and no tie, the next update is well defined.

Excluded, see `C37_violated` (nothing is left of the current phase) and `C28_violated` (ties). -/
theorem C37_safe_partial [Archimedean K] (a : Sup K × Vec K) (hr : Reach (0 ≤ ·) CanStop a) (s' : Sup K)
    (p fb : K) (h : a.1.setStepPeriod p = .ok s' ∨ a.1.setInitialDoubleSupportLength p = .ok s')
    (hleft : EPS ≤ s'.ttnp) (hg : Untied s' s'.ttnp) :
    ∃ s'' v'', s'.updateTimeline a.2 fb = .ok (s'', v'') := by
  obtain ⟨f, mv, R, hI⟩ := hr.hinv (fun _ h => h) (fun _ _ h => h)
  have frame : s'.N = a.1.N ∧ s'.T = a.1.T ∧ s'.left = a.1.left ∧ s'.right = a.1.right := by
    rcases h with h | h
    · unfold Sup.setStepPeriod at h
      obtain ⟨_, -, h⟩ := bind_eq_ok.1 h
      obtain ⟨ds, -, h⟩ := bind_eq_ok.1 h
      split at h
      · cases h; exact ⟨rfl, rfl, rfl, rfl⟩
      · obtain ⟨_, -, h⟩ := bind_eq_ok.1 h
        obtain ⟨_, -, h⟩ := bind_eq_ok.1 h
        cases h; exact ⟨rfl, rfl, rfl, rfl⟩
    · unfold Sup.setInitialDoubleSupportLength at h
      obtain ⟨ds, -, h⟩ := bind_eq_ok.1 h
      split at h
      · dsimp only at h
        split at h
        · obtain ⟨_, -, h⟩ := bind_eq_ok.1 h
          obtain ⟨_, -, h⟩ := bind_eq_ok.1 h
          cases h; exact ⟨rfl, rfl, rfl, rfl⟩
        · obtain ⟨_, -, h⟩ := bind_eq_ok.1 h
          cases h; exact ⟨rfl, rfl, rfl, rfl⟩
      · cases h; exact ⟨rfl, rfl, rfl, rfl⟩
  obtain ⟨f', hf'⟩ : ∃ f', s'.timeline[0]? = some f' := by
    rcases h with h | h
    · obtain ⟨-, f', h1, -⟩ := C37_step_elapsed _ _ _ h f hI.front
      exact ⟨f', h1⟩
    · obtain ⟨-, f', h1, -⟩ := C37_ds_elapsed _ _ _ h f hI.front
      exact ⟨f', h1⟩
  obtain ⟨e1, e2, e3, e4⟩ := frame
  obtain ⟨s'', v'', b, hu, -⟩ := C28_selection_partial s' a.2 fb s'.ttnp f' a.1.M
    (by rw [e1]; exact hI.N) (by rw [e2]; exact hI.T)
    (by unfold HasKin; rw [e3, e4]; exact hI.kin) (Or.inl ⟨hleft, hf', rfl⟩) hleft
    (by rw [e1]; exact hI.var) (fun h => absurd hleft (not_le.2 h.1)) hg
  exact ⟨s'', v'', hu⟩

/-- **C37 is violated**: from every ready state, the length `0` is accepted for the initial double
support, and the next update reads the second phase of a timeline that has only one. -/
theorem C37_violated (a : Sup K × Vec K) (ha : Ready a) : ∃ s',
    a.1.setInitialDoubleSupportLength 0 = .ok s' ∧
      ∀ fb, s'.updateTimeline a.2 fb = .error .outOfRange := by
  have hE : (0 : K) < EPS := EPS_pos
  have hf : a.1.timeline[0]? = some ⟨.DS, a.1.dsPeriod⟩ := by rw [ha.timeline]; rfl
  refine ⟨{ a.1 with
    dsPeriod := 0, ttnp := a.1.ttnp + (0 - a.1.dsPeriod),
    timeline := [⟨.DS, a.1.dsPeriod + (0 - a.1.dsPeriod)⟩] }, ?_, fun fb => ?_⟩
  · unfold Sup.setInitialDoubleSupportLength
    rw [Sup.isInDS_ok hf, ok_bind, if_pos (by simp), ha.timeline]
    dsimp only
    split
    · rw [require_pos (by rw [ha.ttnp]; linarith), ok_bind]
      rfl
    · rfl
  · unfold Sup.updateTimeline
    rw [require_pos (by simp), ok_bind, require_pos (by simp only; rw [ha.var]), ok_bind]
    dsimp only
    unfold Sup.popPhase
    rw [if_pos (by simp only; rw [ha.ttnp]; linarith), Sup.isInDS_ok (f := ⟨.DS, a.1.dsPeriod +
      (0 - a.1.dsPeriod)⟩) rfl]
    rfl

end

/-! ### Witnesses of the violations, and examples -/

/-- A walk on a grid of one second: two samples of one second, steps of two seconds. At the third
cycle the right foot is in flight. -/
theorem demo_flight (h : ℚ) : ∃ a b : Sup ℚ × Vec ℚ, Reach (· = 1) CanStop a ∧ Grid 1 a.1 ∧
    Cycle 1 a b ∧ a.1.T = 1 ∧ b.1.timeline[0]? = some ⟨.leftSS, 2⟩ ∧ b.1.ttnp = 0 ∧
    Running a.1 ⟨.leftSS, 2⟩ 1 ∧ a.1.right = (demo 2 1 2 1 h).1.right := by
  have hd : Ready (demo 2 1 2 1 h) := demo_ready h two_pos (by norm_num [EPS]) (by norm_num [EPS])
    (by norm_num [EPS])
  have hre0 : Reach (· = 1) CanStop ((demo 2 1 2 1 h).1.setMove true, (demo 2 1 2 1 h).2) :=
    .setMove (.start hd) (Or.inl rfl)
  have hg0 : Grid 1 ((demo 2 1 2 1 h).1.setMove true) :=
    ⟨by norm_num [EPS], ⟨1, by norm_num, by norm_num [demo, Sup.setMove]⟩,
      ⟨2, by norm_num, by norm_num [demo, Sup.setMove]⟩,
      ⟨1, by norm_num, by norm_num [demo, Sup.setMove]⟩, by norm_num [demo, Sup.setMove]⟩
  have step : ∀ a : Sup ℚ × Vec ℚ, Reach (· = 1) CanStop a → Grid 1 a.1 → ∃ b, Cycle 1 a b ∧
      Reach (· = 1) CanStop b ∧ Grid 1 b.1 := by
    intro a h1 h2
    obtain ⟨s', v', -, hx⟩ := C55_no_fault 1 a h1 h2
    obtain ⟨s'', -, hc⟩ := hx v' rfl
    obtain ⟨-, -, -, -, -, e1, e2, e3, e4, -⟩ := hc.running
    exact ⟨_, hc, .cycle h1 rfl hc, h2.congr e1 e2 e3 e4⟩
  obtain ⟨b, hb, hre1, hg1⟩ := step _ hre0 hg0
  obtain ⟨c, hc, hre2, hg2⟩ := step _ hre1 hg1
  obtain ⟨d, hd', hre3, hg3⟩ := step _ hre2 hg2
  have hr0 : Running ((demo 2 1 2 1 h).1.setMove true) ⟨.DS, 1⟩ 1 :=
    Or.inl ⟨by norm_num [demo, Sup.setMove, EPS], rfl, rfl⟩
  -- after the first cycle
  obtain ⟨f, R, k, b0, b1, b2, b3, b4, b5, b6, b7⟩ := hb.running
  obtain ⟨rfl, rfl⟩ := k.unique hr0
  have bt : b.1.ttnp = 0 := by rw [b1]; norm_num
  have bT : b.1.T = 1 := b3
  obtain ⟨f₀, mv, R₀, hI1⟩ := hre1.ginv (by norm_num) hg1
  have bl := hI1.more (by rw [bt]; norm_num [EPS])
  obtain ⟨g, hgg⟩ : ∃ g, b.1.timeline[1]? = some g := ⟨_, List.getElem?_eq_getElem bl⟩
  have hg' : g = ⟨.leftSS, 2⟩ := b7 0 _ _ b0 hgg
  subst hg'
  have hr1 : Running b.1 ⟨.leftSS, 2⟩ 2 := Or.inr ⟨by rw [bt]; norm_num [EPS], hgg, rfl⟩
  -- after the second cycle
  obtain ⟨f, R, k, c0, c1, c2, c3, -⟩ := hc.running
  obtain ⟨rfl, rfl⟩ := k.unique hr1
  have ct : c.1.ttnp = 1 := by rw [c1]; norm_num
  have cT : c.1.T = 1 := by rw [c3, bT]
  have hr2 : Running c.1 ⟨.leftSS, 2⟩ 1 := Or.inl ⟨by rw [ct]; norm_num [EPS], c0, ct.symm⟩
  obtain ⟨f, R, k, d0, d1, -⟩ := hd'.running
  obtain ⟨rfl, rfl⟩ := k.unique hr2
  refine ⟨c, d, hre2, hg2, hd', cT, d0, by rw [d1]; norm_num, hr2, ?_⟩
  rw [((C31_contact _ _ _ hc _ _ hr1).1 (Or.inr (by rw [bT]; norm_num [EPS]))).2,
    ((C31_contact _ _ _ hb _ _ hr0).1 (Or.inl rfl)).2]
  rfl

/-- **C32 is violated**: with steps of two sampling periods and one control cycle per sampling period,
the only cycle of the flight aims at the highest point, and the foot ends its single support 5.5 times
above its maximum height. -/
theorem C32_violated : ∃ a b : Sup ℚ × Vec ℚ, Reach (· = 1) CanStop a ∧ Grid 1 a.1 ∧ Cycle 1 a b ∧
    b.1.timeline[0]? = some ⟨.leftSS, 2⟩ ∧ b.1.ttnp = 0 ∧ b.1.right.maxHeight = 1 ∧
    b.1.right.z.state.p = 11 / 2 := by
  obtain ⟨a, b, h1, h2, h3, hT, h4, h5, hr, h6⟩ := demo_flight 1
  refine ⟨a, b, h1, h2, h3, h4, h5, ?_⟩
  obtain ⟨s', v', hu, hb, hf⟩ := h3
  obtain ⟨f', hr', k1, k2, k3, -, -, -, k4, k5, -⟩ := Sup.updateTimeline_running hu
  obtain ⟨rfl, e⟩ := hr'.unique hr
  rcases Sup.updateFeet_cases k1 hf with ⟨k6, -⟩ | ⟨k6, -, -, ⟨k7, -, k8⟩ | ⟨k7, -⟩⟩
  · exfalso
    refine k6 ⟨by simp, ?_⟩
    rw [e, k3, hT]; norm_num [EPS]
  · rw [e, k3, hT, k5, h6] at k8
    unfold Foot.fly at k8
    obtain ⟨x, -, k8⟩ := bind_eq_ok.1 k8
    obtain ⟨y, -, k8⟩ := bind_eq_ok.1 k8
    dsimp only at k8
    rw [if_neg (by norm_num [EPS])] at k8
    obtain ⟨z, hz, -, sz⟩ := interpolateTrajectory_ok (demo 2 1 2 1 1).1.right.z rfl
      ⟨(demo 2 1 2 1 1).1.right.maxHeight, 0, 0⟩ (1 - (2 - 1) / 2 : ℚ) (by norm_num) 1
    rw [hz, ok_bind] at k8
    have k9 := Except.ok.inj k8
    rw [← k9]
    refine ⟨rfl, ?_⟩
    simp only
    rw [sz]
    norm_num [pieceState, pieceOf, piecePos, factorOf, demo, Foot.init, FootAxis.init, abcRow,
      Finset.sum_range_succ, aInvNorm, interpRhs, interpTable]
  · simp at k7

/-- **C34 is violated**: with a sampling period of 1 s, an initial double support of 0.5 s and a
feedback period of 0.3 s, the second update counts no call before the next sample. -/
theorem C34_violated : ∃ a : Sup ℚ × Vec ℚ, Reach (· = 3 / 10) CanStop a ∧ a.1.T = 1 ∧
    ∃ s' v', a.1.updateTimeline a.2 (3 / 10) = .ok (s', v') ∧ s'.nbCalls = .ok 0 := by
  have hd : Ready (demo 2 1 1 (1 / 2) 0) := demo_ready 0 two_pos (by norm_num [EPS])
    (by norm_num [EPS]) (by norm_num [EPS])
  have hunt : ∀ (s : Sup ℚ) (R : ℚ), s.N = 2 → s.T = 1 → s.stepPeriod = 1 → s.dsPeriod = 1 / 2 →
      R = 1 / 2 ∨ R = 2 / 10 → Untied s R := by
    intro s R h1 h2 h3 h4 h5
    refine ⟨by rw [h3]; norm_num [EPS], by rw [h4]; norm_num [EPS], fun i k1 k2 => ?_,
      fun i k1 k2 => ?_, fun i k1 k2 => ?_⟩
    all_goals
      rw [h1] at k2
      rw [h2]
      have : i = 1 ∨ i = 2 := by omega
    · rcases h5 with rfl | rfl <;> rcases this with rfl | rfl <;> norm_num [EPS]
    · rw [h3]; rcases this with rfl | rfl <;> norm_num [EPS]
    · rw [h4]; rcases this with rfl | rfl <;> norm_num [EPS]
  have hr0 : Running (demo 2 1 1 (1 / 2) 0).1 ⟨.DS, 1 / 2⟩ (1 / 2) := Or.inl ⟨hd.hinv.hR, rfl, rfl⟩
  obtain ⟨s₁, v₁, m, s', v', hU, -, -, hx⟩ := cycle_still (3 / 10) hd.hinv hr0
    (hunt _ _ rfl rfl rfl rfl (Or.inl rfl)) (fun h => absurd h.1 (by norm_num [demo, EPS]))
    (Or.inl rfl)
  obtain ⟨s'', hc, h1, h2, h3, h4, h5, h6, h7, h8, h9, -⟩ := hx v' rfl
  have hre : Reach (· = 3 / 10) CanStop (s'', v') := .cycle (.start hd) rfl hc
  obtain ⟨f, mv, R, hI⟩ := hre.hinv (by rintro x rfl; norm_num) (fun _ _ h => h)
  have ht : s''.ttnp = 2 / 10 := by rw [h5]; norm_num
  have hr1 : Running s'' f (2 / 10) := Or.inl ⟨by rw [ht]; norm_num [EPS], hI.front, ht.symm⟩
  obtain ⟨s₃, v₃, b, hu, -⟩ := C28_selection_partial s'' v' (3 / 10) (2 / 10) f s''.M hI.N hI.T hI.kin
    hr1 (by norm_num [EPS]) hI.var (fun h => absurd h.1 (by rw [ht]; norm_num [EPS]))
    (hunt _ _ h6 h7 h8 h9 (Or.inr rfl))
  refine ⟨(s'', v'), hre, h7, s₃, v₃, hu, ?_⟩
  obtain ⟨f', hr', -, -, kT, -, -, -, -, -, kfb, -⟩ := Sup.updateTimeline_running hu
  have kt := (hr'.unique hr1).2
  have kT' : s₃.T = 1 := by rw [kT, h7]; rfl
  unfold Sup.nbCalls timeToSample
  rw [whileLoop_done (by rw [kT', kt]; norm_num [EPS]), ok_bind, kfb, if_neg (by norm_num), kt]
  have h0 : (0 : ℚ) ≤ (2 / 10 + EPS) / (3 / 10) := by norm_num [EPS]
  unfold truncInt
  rw [if_pos h0]
  have : ⌊((2 : ℚ) / 10 + EPS) / (3 / 10)⌋ = 0 := by
    rw [Int.floor_eq_iff]; norm_num [EPS]
  rw [this]; rfl

/-- **C37 is violated by a longer step too**: the step period may be raised while a footstep is
previewed; the footstep stays in the decision vector although it is not previewed any more (cf. C29). -/
theorem C37_violated_longer_step : ∃ a : Sup ℚ × Vec ℚ, Reach (· = 1 / 2) CanStop a ∧
    ∃ s₁ s' v', a.1.setStepPeriod 3 = .ok s₁ ∧ s₁.updateTimeline a.2 (1 / 2) = .ok (s', v') ∧
      v'.size ≠ 2 * s'.N + 2 * s'.M := by
  obtain ⟨⟨s, v⟩, hr, hg, hM, ht, hf, hm, hN, hT, hds⟩ := demo_walk
  simp only at hg hM ht hf hm hN hT hds
  obtain ⟨f₀, mv, R₀, hI⟩ := hr.hinv (by rintro x rfl; norm_num) (fun _ _ h => h)
  have hset : s.setStepPeriod 3 = .ok { s with stepPeriod := 3 } := by
    unfold Sup.setStepPeriod
    rw [require_pos (by norm_num), ok_bind, Sup.isInDS_ok hf, ok_bind]
    rfl
  have hrun : Running { s with stepPeriod := 3 } ⟨.DS, 1⟩ (1 / 2) :=
    Or.inl ⟨by simp only; rw [ht]; norm_num [EPS], hf, ht.symm⟩
  have hne : ¬ EndsStep { s with stepPeriod := 3 } := fun h =>
    absurd h.1 (by simp only; rw [ht]; norm_num [EPS])
  have hunt : Untied { s with stepPeriod := 3 } (1 / 2) := by
    refine ⟨by norm_num [EPS], by simp only; rw [hds]; norm_num [EPS], fun i k1 k2 => ?_,
      fun i k1 k2 => ?_, fun i k1 k2 => ?_⟩
    all_goals
      simp only at k2 ⊢
      rw [hN] at k2
      rw [hT]
      have : i = 1 ∨ i = 2 := by omega
    · rcases this with rfl | rfl <;> norm_num [EPS]
    · rcases this with rfl | rfl <;> norm_num [EPS]
    · rw [hds]; rcases this with rfl | rfl <;> norm_num [EPS]
  have hvs : v.size = 2 * s.N + 2 * 1 := by have := hI.var; simp only at this; rw [this, hM]
  obtain ⟨s', v', -, hu, -⟩ := C28_selection_partial { s with stepPeriod := 3 } v (1 / 2) (1 / 2)
    ⟨.DS, 1⟩ 1 hI.N hI.T hI.kin hrun (by norm_num [EPS]) hvs (fun h => absurd h hne) hunt
  refine ⟨(s, v), hr, _, s', v', hset, hu, ?_⟩
  obtain ⟨s₁, v₁, m₁, hp, -, e1, e2, e3, e4, e5, e6, e7, e8, -⟩ :=
    Sup.update_preview hu hI.N hI.T hI.kin hrun hvs
  have hM' : s'.M = 0 := by
    have hP : (s₁.sched .DS s₁.N).1 = 1 := by
      simp only at e1 e2 e3 e4 e5
      norm_num [e1, hN, Sup.sched, sched, schedNorm, Sup.durAt, e8, e2, hT, EPS, Sup.typeAt,
        Sup.nextType, Sup.period, e3, e5, hm]
    rw [hp.M]
    show s₁.ssCount .DS (s₁.sched .DS s₁.N).1 = 0
    rw [hP, Sup.ssCount_succ_DS rfl]
    simp
  rw [C29_size_general _ _ _ _ (1 / 2) _ _ 1 (by exact hI.N) (by exact hI.T) (by exact hI.kin) hrun hvs
    hne hu, hM']
  simp [hm]

/-- C33 and C36 speak about runs that exist: on a grid every state starts a run of any length. -/
theorem run_exists {K : Type} [Field K] [LinearOrder K] [IsStrictOrderedRing K] [Archimedean K] (fb : K)
    (a₀ : Sup K × Vec K) (hr : Reach (· = fb) CanStop a₀) (hg : Grid fb a₀.1) :
    ∃ a : ℕ → Sup K × Vec K, a 0 = a₀ ∧ ∀ i, Cycle fb (a i) (a (i + 1)) := by
  have step : ∀ a : { a : Sup K × Vec K // Reach (· = fb) CanStop a ∧ Grid fb a.1 },
      ∃ b : { a : Sup K × Vec K // Reach (· = fb) CanStop a ∧ Grid fb a.1 }, Cycle fb a.1 b.1 := by
    rintro ⟨a, h1, h2⟩
    obtain ⟨s', v', -, hx⟩ := C55_no_fault fb a h1 h2
    obtain ⟨s'', -, hc⟩ := hx v' rfl
    obtain ⟨-, -, -, -, -, e1, e2, e3, e4, -⟩ := hc.running
    exact ⟨⟨_, .cycle h1 rfl hc, h2.congr e1 e2 e3 e4⟩, hc⟩
  choose nxt hn using step
  refine ⟨fun i => (nxt^[i] ⟨a₀, hr, hg⟩).1, rfl, fun i => ?_⟩
  show Cycle fb (nxt^[i] _).1 (nxt^[i + 1] _).1
  rw [Function.iterate_succ_apply']
  exact hn _

/-- The hypotheses of C32 are met: two cycles per sampling period and steps of two periods. The sixth
cycle ends the first single support. -/
example : ∃ a b : Sup ℚ × Vec ℚ, Reach (· = 1 / 2) CanStop a ∧ Grid (1 / 2) a.1 ∧ Cycle (1 / 2) a b ∧
    b.1.timeline[0]? = some ⟨.leftSS, 2⟩ ∧ b.1.ttnp = 0 ∧ a.1.T ≤ 2 ∧
    1 / 2 < (2 - a.1.T) / 2 + EPS := by
  have hd : Ready (demo 2 1 2 1 1) := demo_ready 1 two_pos (by norm_num [EPS]) (by norm_num [EPS])
    (by norm_num [EPS])
  have hre0 : Reach (· = 1 / 2) CanStop ((demo 2 1 2 1 1).1.setMove true, (demo 2 1 2 1 1).2) :=
    .setMove (.start hd) (Or.inl rfl)
  have hg0 : Grid (1 / 2) ((demo 2 1 2 1 1).1.setMove true) :=
    ⟨by norm_num [EPS], ⟨2, by norm_num, by norm_num [demo, Sup.setMove]⟩,
      ⟨4, by norm_num, by norm_num [demo, Sup.setMove]⟩,
      ⟨2, by norm_num, by norm_num [demo, Sup.setMove]⟩, by norm_num [demo, Sup.setMove]⟩
  obtain ⟨a, h0, h⟩ := run_exists (1 / 2 : ℚ) _ hre0 hg0
  have hp : ∀ i, (a i).1.N = 2 ∧ (a i).1.T = 1 ∧ (a i).1.stepPeriod = 2 ∧ (a i).1.dsPeriod = 1 ∧
      (a i).1.move = true ∧ Reach (· = 1 / 2) CanStop (a i) := by
    intro i
    induction i with
    | zero => rw [h0]; exact ⟨rfl, rfl, rfl, rfl, rfl, hre0⟩
    | succ i ih =>
      obtain ⟨-, -, -, -, -, e1, e2, e3, e4, e5, -⟩ := (h i).running
      rw [e1, e2, e3, e4, e5]
      exact ⟨ih.1, ih.2.1, ih.2.2.1, ih.2.2.2.1, ih.2.2.2.2.1, .cycle ih.2.2.2.2.2 rfl (h i)⟩
  have hg : ∀ i, Grid (1 / 2) (a i).1 := fun i => hg0.congr (hp i).1 (hp i).2.1 (hp i).2.2.1
    (hp i).2.2.2.1
  have t0 : (a 0).1.ttnp = 1 := by rw [h0]; rfl
  have f0 : (a 0).1.timeline[0]? = some ⟨.DS, 1⟩ := by rw [h0]; rfl
  obtain ⟨f1, t1⟩ := (C33_cycle _ _ _ (h 0)).1 (by rw [t0]; norm_num [EPS])
  obtain ⟨f2, t2⟩ := (C33_cycle _ _ _ (h 1)).1 (by rw [t1, t0]; norm_num [EPS])
  obtain ⟨g, g1, f3, t3⟩ := (C33_cycle _ _ _ (h 2)).2 (by rw [t2, t1, t0]; norm_num [EPS])
  obtain ⟨f, R, -, k1, -, -, -, -, -, -, k2⟩ := (h 1).running
  have hf : f = ⟨.DS, 1⟩ := by
    rw [f2, f1, f0] at k1
    exact (Option.some.inj k1).symm
  have hgg : g = ⟨.leftSS, 2⟩ := by
    rw [k2 0 f g k1 g1, hf]
    simp [Sup.nextPhase, Sup.nextType, (hp 1).2.2.2.2.1, Sup.period, (hp 1).2.2.1]
  subst hgg
  obtain ⟨f4, t4⟩ := (C33_cycle _ _ _ (h 3)).1 (by rw [t3]; norm_num [EPS])
  obtain ⟨f5, t5⟩ := (C33_cycle _ _ _ (h 4)).1 (by rw [t4, t3]; norm_num [EPS])
  obtain ⟨f6, t6⟩ := (C33_cycle _ _ _ (h 5)).1 (by rw [t5, t4, t3]; norm_num [EPS])
  exact ⟨a 5, a 6, (hp 5).2.2.2.2.2, hg 5, h 5, by rw [f6, f5, f4, f3], by rw [t6, t5, t4, t3]; norm_num,
    by rw [(hp 5).2.1]; norm_num, by rw [(hp 5).2.1]; norm_num [EPS]⟩

/-- A walk that is stopped in the initial double support before any step is previewed. -/
example : ∃ a : ℕ → Sup ℚ × Vec ℚ, ∀ n, StoppedRun (fun _ => 1 / 2) a n := by
  have hd : Ready (demo 2 1 1 1 0) := demo_ready 0 two_pos (by norm_num [EPS]) (by norm_num [EPS])
    (by norm_num [EPS])
  obtain ⟨a, h0, h⟩ := run_exists (1 / 2 : ℚ) _ (.start hd) demo_grid
  exact ⟨a, fun n => ⟨by rw [h0]; rfl, fun i _ => h i⟩⟩

/-- **C36, with C55.** A walk stopped in any reached state of a grid in which the stop is allowed goes
on without fault and ends in double support. -/
theorem C36_stops_on_grid {K : Type} [Field K] [LinearOrder K] [IsStrictOrderedRing K] [Archimedean K]
    (fb : K) (s : Sup K) (v : Vec K) (hr : Reach (· = fb) CanStop (s, v)) (hg : Grid fb s)
    (hs : CanStop s false) :
    ∃ a : ℕ → Sup K × Vec K, a 0 = (s.setMove false, v) ∧ (∀ i, Cycle fb (a i) (a (i + 1))) ∧
      ∃ n, ∀ j, n ≤ j → ∃ g, (a j).1.timeline[0]? = some g ∧ g.type = .DS := by
  have hE : (0 : K) < EPS := EPS_pos
  obtain ⟨a, h0, h⟩ := run_exists fb (s.setMove false, v) (.setMove hr hs) (hg.congr rfl rfl rfl rfl)
  exact ⟨a, h0, h, C36_eventually (fun _ => fb) a fb (hE.trans hg.pos) (fun _ => le_rfl)
    (fun n => ⟨by rw [h0]; rfl, fun i _ => h i⟩)⟩

example : ∃ (s : Sup ℚ) (v : Vec ℚ), Reach (· = 1) CanStop (s, v) ∧ Grid 1 s ∧ CanStop s false ∧
    ∃ f, s.timeline[0]? = some f ∧ f.type ≠ .DS := by
  obtain ⟨a, b, h1, h2, h3, -, h4, h5, -⟩ := demo_flight 1
  obtain ⟨-, -, -, -, -, e1, e2, e3, e4, -⟩ := h3.running
  exact ⟨b.1, b.2, .cycle h1 rfl h3, h2.congr e1 e2 e3 e4, Or.inr (Or.inl ⟨_, h4, by simp⟩), _, h4,
    by simp⟩

end MPC
