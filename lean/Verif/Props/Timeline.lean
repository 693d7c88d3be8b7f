import Verif.Lemmas.SupCovers
import Verif.Lemmas.SupHalts
import Verif.Spec.Polygon
import Mathlib.Tactic.NormNum
import Mathlib.Tactic.FieldSimp
import Mathlib.Tactic.IntervalCases

/-!
# C26–C30, C35, C44, C55: the timeline of `HumanoidFeetSupervisor`
-/
set_option linter.unusedSectionVars false

namespace MPC

variable {K : Type} [Field K] [LinearOrder K]

/-! ### A concrete supervisor, used by the examples and the witnesses -/

/-- A square of side 2. -/
def demoSquare : Polygon ℚ := Polygon.start ⟨4, fun i =>
  match i with
  | 0 => ⟨1, 1⟩
  | 1 => ⟨-1, 1⟩
  | 2 => ⟨-1, -1⟩
  | _ => ⟨1, -1⟩⟩

/-- Supervisor after its configuration: `N` samples of length `T`, steps of length `p`, initial
double support of length `d`, square kinematic polygons, feet that rise to height `h`. -/
def demo (N : ℕ) (T p d h : ℚ) : Sup ℚ × Vec ℚ :=
  ({ N := N, T := T, fb := T,
     left := { Foot.init with kin := demoSquare, maxHeight := h },
     right := { Foot.init with kin := demoSquare, maxHeight := h }, M := 0,
     stepPeriod := p, dsPeriod := d, ttnp := d, move := false,
     stepVec := ⟨0, fun _ => 0⟩, V := ⟨0, 0, fun _ _ => 0⟩, VT := ⟨0, 0, fun _ _ => 0⟩,
     V0 := ⟨0, 0, fun _ _ => 0⟩, phaseIdx := ⟨0, fun _ => 0⟩, weight := ⟨0, 0, fun _ _ => 0⟩,
     timeline := [⟨.DS, d⟩] }, Vec.const (2 * N) 0)

/-- It is what the constructor and the setters give, up to the polygons and heights. -/
example : (Sup.init 2 (1 : ℚ) >>= fun s => s.setStepPeriod 3 >>= fun s =>
      s.setInitialDoubleSupportLength 4) =
    .ok { (demo 2 1 3 4 0).1 with left := Foot.init, right := Foot.init } := by
  norm_num [Sup.init, Sup.setStepPeriod, Sup.setInitialDoubleSupportLength, require, Sup.isInDS,
    listAt, addFront, demo, EPS]

theorem demo_ready {N : ℕ} {T p d : ℚ} (h : ℚ) (hN : 0 < N) (hT : EPS ≤ T) (hp : EPS ≤ p)
    (hd : EPS ≤ d) : Ready (demo N T p d h) :=
  ⟨hN, hT, hp, hd, ⟨by show 0 < 4; norm_num, by show 0 < 4; norm_num⟩, rfl, rfl, rfl, rfl, rfl,
    ⟨rfl, rfl, rfl⟩, ⟨rfl, rfl, rfl⟩⟩

/-! ### C26 -/

/-- **C26.** In every timeline given by `updateTimeline`, from any state, consecutive phases follow
the rules of the walk, and each has the duration configured for its type. -/
theorem C26_alternate (s s' : Sup K) (v v' : Vec K) (fb : K)
    (h : s.updateTimeline v fb = .ok (s', v')) (k : ℕ) (p q : Phase K)
    (hp : s'.timeline[k]? = some p) (hq : s'.timeline[k + 1]? = some q) :
    MayFollow s.move p.type q.type ∧
      q.duration = if q.type = .DS then s.dsPeriod else s.stepPeriod := by
  obtain ⟨f, -, -, -, -, -, -, -, -, -, -, hc, -⟩ := Sup.updateTimeline_running h
  have e := hc k p q hp hq
  rw [e]
  unfold Sup.nextPhase MayFollow
  simp only
  cases hm : s.move <;> cases p.type <;> simp [Sup.nextType, Sup.period, hm]

/-- **C26, executed phases.** When the phase at the front changes from `f` to `g` during a control
cycle of any history, `g` was the phase that follows `f` in the timeline, hence follows the rules for
some walking request. -/
theorem C26_executed {okfb : K → Prop} {ok : Sup K → Bool → Prop} {a b : Sup K × Vec K}
    (hr : Reach okfb ok a) (fb : K) (hc : Cycle fb a b) (f g : Phase K)
    (hf : a.1.timeline[0]? = some f) (hg : b.1.timeline[0]? = some g) :
    (EPS ≤ a.1.ttnp ∧ g = f) ∨ (a.1.ttnp < EPS ∧ ∃ mv, MayFollow mv f.type g.type) := by
  -- the second phase of any reached timeline follows the first one
  have key : ∀ {a : Sup K × Vec K}, Reach okfb ok a → ∀ p q, a.1.timeline[0]? = some p →
      a.1.timeline[1]? = some q → ∃ mv, MayFollow mv p.type q.type := by
    intro a ha
    induction ha with
    | start h =>
      intro p q _ h2
      rw [h.timeline] at h2
      simp at h2
    | cycle _ _ h _ =>
      intro p q h1 h2
      obtain ⟨s₁, v₁, h3, -, h4⟩ := h
      obtain ⟨-, -, -, -, -, -, -, -, e, -⟩ := Sup.updateFeet_frame h4
      rw [e] at h1 h2
      exact ⟨_, (C26_alternate _ _ _ _ _ h3 0 p q h1 h2).1⟩
    | setMove _ _ ih => exact ih
  obtain ⟨g', R, h1, h2, -⟩ := hc.running
  rw [hg] at h2
  cases h2
  rcases h1 with ⟨h1, h2, -⟩ | ⟨h1, h2, -⟩
  · rw [hf] at h2
    cases h2
    exact Or.inl ⟨h1, rfl⟩
  · exact Or.inr ⟨h1, key hr f g hf h2⟩

/-! ### C27 -/

section
variable [IsStrictOrderedRing K]

/-- **C27, termination.** `updateTimeline` terminates from every state. -/
theorem C27_terminates [Archimedean K] (s : Sup K) (v : Vec K) (fb : K) (hT : 0 < s.T) :
    s.updateTimeline v fb ≠ .error .nonTermination :=
  Halts.updateTimeline hT

/-- **C27, coverage.** The timeline starts with the running phase `f` (remaining time `R`), its phases
follow each other on the sampling instants `0 .. N`, the last one running at `N`. The number of
previewed steps is the number of single supports that end inside of the horizon, at most `N`. -/
theorem C27_covers (s s' : Sup K) (v v' : Vec K) (fb R : K) (f : Phase K) (m : ℕ)
    (hN : 0 < s.N) (hT : EPS ≤ s.T) (hk : HasKin s) (hr : Running s f R) (hR : EPS ≤ R)
    (hv : v.size = 2 * s.N + 2 * m) (h : s.updateTimeline v fb = .ok (s', v')) :
    s'.timeline[0]? = some f ∧ (∃ b, Covers s.T R s'.timeline s.N b) ∧
      s'.M = stepsBefore s'.timeline (s'.timeline.length - 1) ∧ s'.M ≤ s.N := by
  obtain ⟨s₁, v₁, m₁, hp, -, e1, e2, e3, e4, e5, e6, e7, e8, e9, -⟩ :=
    Sup.update_preview h hN hT hk hr hv
  have hc := hp.covers (by rw [e8]; exact hR)
  rw [e1, e2, e8] at hc
  have hs := hp.steps (by rw [e8]; exact hR)
  rw [e1] at hs
  refine ⟨?_, ⟨_, hc⟩, hs.1, hs.2⟩
  rw [hp.tl, List.getElem?_map, List.getElem?_range (by omega)]; rfl

/-! ### C28 -/

/-- **C28 (partial).** When no phase ends exactly `EPS` after a sampling instant, the update succeeds
and each sample `r` (at the instant `r + 1`) is attached to the phase `k` that runs at that instant
and to exactly one footstep: the one on which the robot stands in that phase, i.e. the current support
if no step is made before, otherwise the last step made before.

The full statement has no hypothesis `Untied`: see `C28_violated`. -/
theorem C28_selection_partial [Archimedean K] (s : Sup K) (v : Vec K) (fb R : K) (f : Phase K) (m : ℕ)
    (hN : 0 < s.N) (hT : EPS ≤ s.T) (hk : HasKin s) (hr : Running s f R) (hR : EPS ≤ R)
    (hv : v.size = 2 * s.N + 2 * m) (hm : EndsStep s → 1 ≤ m) (hg : Untied s R) :
    ∃ s' v' b, s.updateTimeline v fb = .ok (s', v') ∧ Covers s.T R s'.timeline s.N b ∧
      s'.V0.rows = s.N ∧ s'.V0.cols = 1 ∧ s'.V.rows = s.N ∧ s'.V.cols = s'.M ∧
      s'.VT = s'.V.transpose ∧ s'.phaseIdx.size = s.N ∧
      ∀ r < s.N, ∃ k, RunsAt s'.timeline b k (r + 1) ∧ s'.phaseIdx.get r = k ∧
        RowIsUnit s' r (stepsBefore s'.timeline k) :=
  Sup.update_total hN hT hk hr hR hv hm hg

theorem Grid.untied {fb R : K} {s : Sup K} (h : Grid fb s) (hR : ∃ j : ℕ, R = j * fb) :
    Untied s R := by
  have hE : (0 : K) < EPS := EPS_pos
  have hfb := hE.trans h.pos
  obtain ⟨n, hn, hT⟩ := h.T
  obtain ⟨p, hp, hs⟩ := h.step
  obtain ⟨d, hd, hds⟩ := h.ds
  obtain ⟨j, hj⟩ := hR
  have h1 : ∀ k : ℕ, 0 < k → EPS < (k : K) * fb := fun k hk => by
    have h2 : (1 : K) ≤ k := by exact_mod_cast hk
    nlinarith [h.pos]
  have h2 : ∀ k i : ℕ, (k : K) * fb ≠ i * s.T + EPS := fun k i e => by
    rw [hT, ← mul_assoc, ← Nat.cast_mul] at e
    exact grid_ne h.pos _ _ e
  exact ⟨by rw [hs]; exact h1 p hp, by rw [hds]; exact h1 d hd, fun i _ _ => by rw [hj]; exact h2 j i,
    fun i _ _ => by rw [hs]; exact h2 p i, fun i _ _ => by rw [hds]; exact h2 d i⟩

/-- **C28 on a grid.** When the sampling period and the durations are multiples of the feedback
period, the selection matrices are right in every history. -/
theorem C28_selection_grid [Archimedean K] (fb : K) (a : Sup K × Vec K)
    (hr : Reach (· = fb) CanStop a) (hg : Grid fb a.1) :
    ∃ s' v' b f R, a.1.updateTimeline a.2 fb = .ok (s', v') ∧ Running a.1 f R ∧
      Covers a.1.T R s'.timeline a.1.N b ∧
      s'.V0.rows = a.1.N ∧ s'.V0.cols = 1 ∧ s'.V.rows = a.1.N ∧ s'.V.cols = s'.M ∧
      s'.VT = s'.V.transpose ∧ s'.phaseIdx.size = a.1.N ∧
      ∀ r < a.1.N, ∃ k, RunsAt s'.timeline b k (r + 1) ∧ s'.phaseIdx.get r = k ∧
        RowIsUnit s' r (stepsBefore s'.timeline k) := by
  have hE : (0 : K) < EPS := EPS_pos
  obtain ⟨f, mv, R, hI⟩ := hr.ginv (hE.trans hg.pos).le hg
  obtain ⟨s', v', hu⟩ := hI.update_ok (fb' := fb) hg
  obtain ⟨f₁, hrun, -⟩ := Sup.updateTimeline_running hu
  obtain ⟨⟨j, hj, hR⟩, -⟩ := hI.running hg hrun
  obtain ⟨s₂, v₂, b, h1, h2⟩ := C28_selection_partial a.1 a.2 fb s'.ttnp f₁ a.1.M hI.hist.N hI.hist.T
    hI.hist.kin hrun (by
      by_contra hc
      rw [hR, not_le, grid_lt hg.pos] at hc
      omega) hI.hist.var (by
      rintro ⟨-, g, h3, h4⟩
      rw [hI.hist.front] at h3
      cases h3
      exact hI.has h4) (hg.untied ⟨j, hR⟩)
  rw [h1] at hu
  cases hu
  exact ⟨s', v', b, f₁, _, h1, hrun, h2⟩

/-! ### C29 -/

/-- **C29 (partial).** In every history of control cycles and walking requests, in which the stop is
not requested during the initial double support once footsteps are previewed, the decision vector has
`2 N + 2 M` entries after each update.

The full statement has no restriction on `setMove`: see `C29_violated`. -/
theorem C29_size_partial (a : Sup K × Vec K) (hr : Reach (0 ≤ ·) CanStop a) (fb : K) (s' : Sup K)
    (v' : Vec K) (hu : a.1.updateTimeline a.2 fb = .ok (s', v')) :
    v'.size = 2 * s'.N + 2 * s'.M := by
  obtain ⟨f, mv, R, hI⟩ := hr.hinv (fun _ h => h) (fun _ _ h => h)
  obtain ⟨s₁, v₁, f₁, m, hU⟩ := hI.update hu
  exact hU.size

/-- The size of the decision vector in general: footsteps are only dropped when stopping. -/
theorem C29_size_general (s s' : Sup K) (v v' : Vec K) (fb R : K) (f : Phase K) (m : ℕ)
    (hN : 0 < s.N) (hT : EPS ≤ s.T) (hk : HasKin s) (hr : Running s f R)
    (hv : v.size = 2 * s.N + 2 * m) (hn : ¬ EndsStep s) (h : s.updateTimeline v fb = .ok (s', v')) :
    v'.size = 2 * s'.N + 2 * (if s.move then max m s'.M else max (min m 1) s'.M) := by
  obtain ⟨s₁, v₁, m₁, hp, -, e1, e2, e3, e4, e5, e6, e7, e8, e9, e10, -, e12⟩ :=
    Sup.update_preview h hN hT hk hr hv
  rw [hp.var.size, hp.same.N, hp.M, Sup.nbSteps, e5, e12 hn]

/-- The stop requested in the initial double support, when a footstep is previewed, leaves it in the
decision vector although no step is previewed any more. -/
theorem C29_stop_in_double_support (s s' : Sup K) (v v' : Vec K) (fb d : K) (m : ℕ)
    (hN : 0 < s.N) (hT : EPS ≤ s.T) (hk : HasKin s) (hf : s.timeline[0]? = some ⟨.DS, d⟩)
    (ht : EPS ≤ s.ttnp) (hv : v.size = 2 * s.N + 2 * (m + 1))
    (h : (s.setMove false).updateTimeline v fb = .ok (s', v')) :
    s'.M = 0 ∧ v'.size = 2 * s'.N + 2 := by
  have hr : Running (s.setMove false) ⟨.DS, d⟩ s.ttnp := Or.inl ⟨ht, hf, rfl⟩
  obtain ⟨s₁, v₁, m₁, hp, -, e1, e2, e3, e4, e5, e6, e7, e8, e9, e10, -, e12⟩ :=
    Sup.update_preview h hN hT hk hr hv
  have hM : s'.M = 0 := by
    rw [hp.M]
    cases (s₁.sched PhaseType.DS s₁.N).1 with
    | zero => rfl
    | succ k => rw [Sup.ssCount_succ_DS rfl, e5]; rfl
  refine ⟨hM, ?_⟩
  rw [C29_size_general _ _ _ _ fb _ _ (m + 1) (by exact hN) (by exact hT) (by exact hk) hr hv
    (fun h => absurd ht (not_le.2 h.1)) h, hM]
  have : (s.setMove false).move = false := rfl
  rw [this]
  simp

/-! ### C30 -/

/-- The centre of the bounding box of a convex polygon is inside. -/
theorem box_center_inside {p : Vec (Pt K)} (hp : Spec.Convex p) {c : Pt K} (hc : IsBoxCenter p c) :
    Spec.InPolygon p c := by
  obtain ⟨i₁, h1, i₂, h2, i₃, h3, i₄, h4, hb, rfl⟩ := hc
  intro i hi
  have k1 := hp i₁ h1 i hi
  have k2 := hp i₂ h2 i hi
  have k3 := hp i₃ h3 i hi
  have k4 := hp i₄ h4 i hi
  unfold Spec.InnerSide at *
  simp only
  set A := (p.get ((i + 1) % p.size)).y - (p.get i).y
  set B := (p.get ((i + 1) % p.size)).x - (p.get i).x
  obtain ⟨b11, b12, b13, b14⟩ := hb i₁ h1
  obtain ⟨b21, b22, b23, b24⟩ := hb i₂ h2
  obtain ⟨b31, b32, b33, b34⟩ := hb i₃ h3
  obtain ⟨b41, b42, b43, b44⟩ := hb i₄ h4
  rcases le_total 0 A with hA | hA <;> rcases le_total 0 B with hB | hB
  · nlinarith [mul_le_mul_of_nonneg_left b31 hA, mul_le_mul_of_nonneg_left b24 hB]
  · nlinarith [mul_le_mul_of_nonneg_left b41 hA, mul_le_mul_of_nonpos_left b23 hB]
  · nlinarith [mul_le_mul_of_nonpos_left b32 hA, mul_le_mul_of_nonneg_left b14 hB]
  · nlinarith [mul_le_mul_of_nonpos_left b42 hA, mul_le_mul_of_nonpos_left b13 hB]

theorem Sup.ssCount_step {s : Sup K} {t : PhaseType} {i k : ℕ} (h : i < s.ssCount t k) :
    s.ssCount t (i + s.stepOff t) = i := by
  cases k with
  | zero => simp [Sup.ssCount] at h
  | succ k =>
    by_cases ht : t = .DS
    · rw [Sup.ssCount_succ_DS ht] at h
      cases hm : s.move
      · simp [hm] at h
      · have : s.stepOff t = 1 := by simp [Sup.stepOff, ht, hm]
        rw [this, Sup.ssCount_succ_DS ht, hm]; rfl
    · have : s.stepOff t = 0 := by simp [Sup.stepOff, ht]
      rw [this, Nat.add_zero]
      cases i with
      | zero => rfl
      | succ i =>
        rw [Sup.ssCount_succ_SS ht] at h ⊢
        cases hm : s.move
        · simp [hm] at h
        · simp

/-- **C30 (partial).** In every history, the footstep number `i` added by an update is made during
some single support `ph` of the timeline, and it lies in the (convex) kinematic polygon of the support
foot of `ph`, relative to the previous footstep, or to the left foot if it is the first one.

Excluded, see `C30_violated`: the first footstep when it is added during a single support. -/
theorem C30_new_steps_partial (a : Sup K × Vec K) (hr : Reach (0 ≤ ·) CanStop a) (fb : K) (s' : Sup K)
    (v' : Vec K) (hu : a.1.updateTimeline a.2 fb = .ok (s', v')) (i : ℕ) (hi : i < s'.M)
    (hnew : a.1.M ≤ i ∨ (EndsStep a.1 ∧ a.1.M ≤ i + 1))
    (hfirst : i = 0 → ∃ f, s'.timeline[0]? = some f ∧ f.type = .DS) :
    ∃ k ph, s'.timeline[k]? = some ph ∧ ph.type ≠ .DS ∧ stepsBefore s'.timeline k = i ∧
      let P := (if ph.type = .leftSS then a.1.left.kin else a.1.right.kin).vertices
      let prev : Pt K := if i = 0 then ⟨a.1.left.x.state.p, a.1.left.y.state.p⟩
        else ⟨v'.get (2 * s'.N + (i - 1)), v'.get (2 * s'.N + s'.M + (i - 1))⟩
      Spec.Convex P → Spec.InPolygon P
        ⟨v'.get (2 * s'.N + i) - prev.x, v'.get (2 * s'.N + s'.M + i) - prev.y⟩ := by
  obtain ⟨f, mv, R, hI⟩ := hr.hinv (fun _ h => h) (fun _ _ h => h)
  obtain ⟨f₁, hrun, hf₁, -⟩ := Sup.updateTimeline_running hu
  obtain ⟨s₁, v₁, f₂, m, hU⟩ := hI.update hu
  have : f₂ = f₁ := (hU.running.unique (by
    have := hU.preview.same.ttnp
    rw [this] at hrun; exact hrun)).1
  subst this
  have hc := hU.content
  have hs := hU.preview.same
  have hm : m ≤ i := by
    obtain ⟨m₁, e1, -, -, -, -, -, -, -, -, e10, e11, e12⟩ :=
      Sup.pop_facts hU.pop hU.running hI.var
    have : m = m₁ := by have := hU.var; omega
    by_cases hE : EndsStep a.1
    · have := e11 hE
      rcases hnew with h | ⟨-, h⟩ <;> omega
    · have := e12 hE
      rcases hnew with h | ⟨h, -⟩
      · omega
      · exact absurd h hE
  have hi' : i < s₁.ssCount f₂.type (s₁.sched f₂.type s₁.N).1 := by rw [← hU.preview.M]; exact hi
  obtain ⟨h1, h2⟩ := Sup.step_phase hi'
  obtain ⟨c, hbc, hx, hy⟩ := hc.new i hi hm
  refine ⟨i + s₁.stepOff f₂.type, s₁.phaseAt f₂ (i + s₁.stepOff f₂.type), ?_, ?_, ?_, ?_⟩
  · rw [hU.preview.tl, List.getElem?_map, List.getElem?_range (lt_trans h1 (Nat.lt_succ_self _))]; rfl
  · rw [Sup.phaseAt_type]; exact h2
  · rw [hU.preview.tl, stepsBefore_phases s₁ f₂ (le_trans (le_of_lt h1) (Nat.le_succ _))]
    exact Sup.ssCount_step hi'
  · have hP : (if (s₁.phaseAt f₂ (i + s₁.stepOff f₂.type)).type = .leftSS then a.1.left.kin
        else a.1.right.kin) = s₁.kinOf (s₁.typeAt f₂.type (i + s₁.stepOff f₂.type)) := by
      rw [Sup.phaseAt_type, ← hU.left, ← hU.right]
      cases ht : s₁.typeAt f₂.type (i + s₁.stepOff f₂.type)
      · exact absurd ht h2
      · rfl
      · rfl
    simp only
    rw [hP]
    intro hconv
    have hin := box_center_inside hconv hbc
    rw [hs.N, hx, hy]
    by_cases h0 : i = 0
    · obtain ⟨f', hf', hd⟩ := hfirst h0
      rw [hf₁] at hf'
      cases hf'
      rw [if_pos h0, if_pos hd, if_pos h0, if_pos hd, if_pos h0, hU.left]
      simpa using hin
    · rw [if_neg h0, if_neg h0, if_neg h0]
      simpa using hin

/-! ### C35 -/

/-- **C35, end of a step.** The first footstep is removed, everything else keeps its value and
order. -/
theorem C35_shorten (s : Sup K) (v : Vec K) (m : ℕ) (hv : v.size = 2 * s.N + 2 * (m + 1)) :
    ∃ w, s.shorten v = .ok w ∧ w.size = 2 * s.N + 2 * m ∧
      (∀ i < 2 * s.N, w.get i = v.get i) ∧
      (∀ i < m, w.get (2 * s.N + i) = v.get (2 * s.N + (i + 1)) ∧
        w.get (2 * s.N + m + i) = v.get (2 * s.N + (m + 1) + (i + 1))) := by
  obtain ⟨w, h1, h2, h3, h4, h5⟩ := Sup.shorten_ok hv
  exact ⟨w, h1, h2, h3, fun i hi => ⟨h4 i hi, h5 i hi⟩⟩

/-- **C35, new step.** When it succeeds, `enlargeStepVec` keeps all CoP values and footsteps. -/
theorem C35_enlarge (s : Sup K) (v w : Vec K) (m : ℕ) (hN : 0 < s.N) (hv : v.size = 2 * s.N + 2 * m)
    (h : s.enlarge v = .ok w) : w.size = 2 * s.N + 2 * (m + 1) ∧
      (∀ i < 2 * s.N, w.get i = v.get i) ∧
      (∀ i < m, w.get (2 * s.N + i) = v.get (2 * s.N + i) ∧
        w.get (2 * s.N + (m + 1) + i) = v.get (2 * s.N + m + i)) := by
  have h' := h
  simp only [Sup.enlarge, bind_eq_ok, require_eq_ok, requireIndex_eq_ok] at h'
  obtain ⟨_, _, _, _, a, -, b, -, cp, hcp, _, hpos, ⟨l, r, bo, t⟩, -, ds, hds, -⟩ := h'
  have e : v.size / 2 - s.N + 1 - 1 = m := by omega
  rw [e] at hcp
  obtain ⟨x, c, h1, -, h2, h3, h4, h5, -⟩ := Sup.enlarge_ok hN hv hcp hpos hds
  rw [h1] at h
  cases h
  exact ⟨h2, h3, fun i hi => ⟨h4 i hi, h5 i hi⟩⟩

/-- **C35, whole update.** In every history, an update keeps the CoP values and the footsteps that
remain: those of the old plan, without the first one when a single support ends. -/
theorem C35_update (a : Sup K × Vec K) (hr : Reach (0 ≤ ·) CanStop a) (fb : K) (s' : Sup K)
    (v' : Vec K) (hu : a.1.updateTimeline a.2 fb = .ok (s', v')) :
    (∀ i < 2 * a.1.N, v'.get i = a.2.get i) ∧
    (EndsStep a.1 → ∀ i, i < s'.M → i + 1 < a.1.M →
      v'.get (2 * a.1.N + i) = a.2.get (2 * a.1.N + (i + 1)) ∧
      v'.get (2 * a.1.N + s'.M + i) = a.2.get (2 * a.1.N + a.1.M + (i + 1))) ∧
    (¬ EndsStep a.1 → ∀ i, i < s'.M → i < a.1.M →
      v'.get (2 * a.1.N + i) = a.2.get (2 * a.1.N + i) ∧
      v'.get (2 * a.1.N + s'.M + i) = a.2.get (2 * a.1.N + a.1.M + i)) := by
  obtain ⟨f, mv, R, hI⟩ := hr.hinv (fun _ h => h) (fun _ _ h => h)
  obtain ⟨s₁, v₁, f₁, m, hU⟩ := hI.update hu
  have hc := hU.content
  have hN := hU.N
  have hvar := hU.var
  rw [hN] at hvar
  have h1 := hc.cop
  have h2 := hc.oldX
  have h3 := hc.oldY
  rw [hN] at h1 h2 h3
  by_cases hE : EndsStep a.1
  · have hs : Sup.shorten { a.1 with fb := fb } a.2 = .ok v₁ ∧ 1 ≤ a.1.M := by
      rcases Sup.popPhase_of_ok hU.pop with ⟨k1, -, -⟩ | ⟨k1, f', g, r, k2, -, -, k4⟩
      · exact absurd k1 (not_le.2 hE.1)
      · obtain ⟨-, f'', k5, k6⟩ := hE
        have k2' : a.1.timeline = f' :: g :: r := k2
        rw [k2'] at k5
        cases k5
        have := Sup.shorten_ok' (s := { a.1 with fb := fb }) (m := a.1.M) hI.var (k4 k6)
        exact ⟨k4 k6, this.1⟩
    obtain ⟨w, k1, k2, k3, k4⟩ := C35_shorten { a.1 with fb := fb } a.2 (a.1.M - 1)
      (by rw [hI.var, Nat.sub_add_cancel hs.2])
    rw [hs.1] at k1
    cases k1
    have hm : a.1.M - 1 = m := by
      change v₁.size = 2 * a.1.N + 2 * (a.1.M - 1) at k2
      omega
    rw [hm] at k4
    have hM1 : m + 1 = a.1.M := by have := hs.2; omega
    rw [hM1] at k4
    refine ⟨fun i hi => by rw [h1 i hi]; exact k3 i hi, fun _ i hi hi' => ?_, fun h => absurd hE h⟩
    have := k4 i (by omega)
    rw [h2 i hi (by omega), h3 i hi (by omega)]
    exact this
  · have hv : v₁ = a.2 := by
      rcases Sup.popPhase_of_ok hU.pop with ⟨-, -, k⟩ | ⟨k1, f', g, r, k2, -, k3, -⟩
      · exact k
      · apply k3
        by_contra hd
        have k2' : a.1.timeline = f' :: g :: r := k2
        exact hE ⟨k1, f', by rw [k2']; rfl, hd⟩
    rw [hv] at h1 h2 h3 hvar
    have hm : m = a.1.M := by have := hI.var; omega
    rw [hm] at h2 h3
    exact ⟨h1, fun h => absurd h hE, fun _ i hi hi' => ⟨h2 i hi hi', h3 i hi hi'⟩⟩

/-! ### C44 -/

/-- **C44 (partial).** After every update with at least two samples, a sampling period above 20 `EPS`
and a positive remaining time, the weight matrix is diagonal and positive: the first weight is the
fraction `t / T` of the sampling period left before the next sample (`t` is the remaining time up to a
whole number of sampling periods), the last one is `1.05 - t / T`, the others are 1.

The full statement is for every `N > 0` and `T > 0`: see `C44_violated_one_sample` and
`C44_violated_short_period`. -/
theorem C44_weights_partial [Archimedean K] (s s' : Sup K) (v v' : Vec K) (fb : K)
    (h : s.updateTimeline v fb = .ok (s', v')) (hN : 2 ≤ s.N) (hT : 20 * EPS < s.T)
    (hR : EPS ≤ s'.ttnp) :
    ∃ (i : ℕ) (t : K), t = s'.ttnp - i * s.T ∧ 0 < t ∧ t ≤ s.T + EPS ∧
      s'.weight.rows = s.N ∧ s'.weight.cols = s.N ∧
      (∀ a b, a ≠ b → s'.weight.get a b = 0) ∧ (∀ a < s.N, 0 < s'.weight.get a a) ∧
      s'.weight.get 0 0 = t / s.T ∧
      s'.weight.get (s.N - 1) (s.N - 1) = 105 / 100 - s'.weight.get 0 0 ∧
      ∀ a, 0 < a → a < s.N - 1 → s'.weight.get a a = 1 := by
  have hE : (0 : K) < EPS := EPS_pos
  obtain ⟨f, -, -, e1, e2, -, -, -, -, -, -, -, hw⟩ := Sup.updateTimeline_running h
  have hT0 : 0 < s.T := by linarith
  obtain ⟨i, w, k1, k2, k3, k4, k5, k6⟩ := Sup.sampleWeight_ok (s := s') (by omega)
    (by rw [e2]; exact hT0)
  rw [hw] at k1
  cases k1
  rw [e1] at k4 k5
  rw [e2] at k2 k3
  simp only [e1, e2] at k6
  have ht : 0 < s'.ttnp - i * s.T := by
    rcases k3 with h | h
    · subst h
      simp only [Nat.cast_zero, zero_mul, sub_zero]
      linarith
    · linarith
  have h00 : s'.weight.get 0 0 = (s'.ttnp - i * s.T) / s.T := by
    rw [k6, if_neg (by omega), if_pos ⟨rfl, rfl⟩]
  refine ⟨i, _, rfl, ht, k2, k4, k5, ?_, ?_, h00, ?_, ?_⟩
  · intro a b hab
    rw [k6, if_neg (by omega), if_neg (by omega), if_neg hab]
  · intro a _
    rw [k6]
    split_ifs with h1 h2 h3
    · rw [sub_pos, div_lt_iff₀ hT0]
      linarith
    · exact div_pos ht hT0
    · exact one_pos
    · exact absurd rfl h3
  · rw [h00, k6, if_pos ⟨rfl, rfl⟩]
  · intro a h1 h2
    rw [k6, if_neg (by omega), if_neg (by omega), if_pos rfl]

/-- **C44 is violated with one sample**: the only weight is `1.05 - t / T`. -/
theorem C44_violated_one_sample [Archimedean K] (s s' : Sup K) (v v' : Vec K) (fb : K)
    (h : s.updateTimeline v fb = .ok (s', v')) (hN : s.N = 1) (hT : 0 < s.T)
    (hle : s'.ttnp ≤ s.T) : s'.weight.get 0 0 = 105 / 100 - s'.ttnp / s.T := by
  have hE : (0 : K) < EPS := EPS_pos
  obtain ⟨f, -, -, e1, e2, -, -, -, -, -, -, -, hw⟩ := Sup.updateTimeline_running h
  obtain ⟨i, w, k1, k2, k3, k4, k5, k6⟩ := Sup.sampleWeight_ok (s := s') (by omega)
    (by rw [e2]; exact hT)
  rw [hw] at k1
  cases k1
  have hi : i = 0 := by
    rcases k3 with h | h
    · exact h
    · by_contra hc
      have : (1 : K) ≤ i := by exact_mod_cast Nat.one_le_iff_ne_zero.2 hc
      rw [e2] at h
      nlinarith
  rw [k6, if_pos (by omega), hi, e2]
  simp

/-- **C44 is violated with a short sampling period**: the last weight is negative when the period is
below 20 `EPS` and a whole period plus `EPS` remains. -/
theorem C44_violated_short_period [Archimedean K] (s s' : Sup K) (v v' : Vec K) (fb : K)
    (h : s.updateTimeline v fb = .ok (s', v')) (hN : 2 ≤ s.N) (hT0 : 0 < s.T) (hT : s.T < 20 * EPS)
    (hR : s'.ttnp = s.T + EPS) : s'.weight.get (s.N - 1) (s.N - 1) < 0 := by
  have hE : (0 : K) < EPS := EPS_pos
  obtain ⟨f, -, -, e1, e2, -, -, -, -, -, -, -, hw⟩ := Sup.updateTimeline_running h
  obtain ⟨i, w, k1, k2, k3, k4, k5, k6⟩ := Sup.sampleWeight_ok (s := s') (by omega)
    (by rw [e2]; exact hT0)
  rw [hw] at k1
  cases k1
  have hi : i = 0 := by
    rcases k3 with h | h
    · exact h
    · by_contra hc
      have : (1 : K) ≤ i := by exact_mod_cast Nat.one_le_iff_ne_zero.2 hc
      rw [e2, hR] at h
      nlinarith
  rw [k6, e1, if_pos ⟨rfl, rfl⟩, hi, e2, hR, sub_neg, lt_div_iff₀ hT0]
  simp only [Nat.cast_zero, zero_mul, sub_zero]
  linarith

/-! ### C55 -/

/-- **C55.** When the sampling period and the phase durations are multiples of the feedback period and
a step is not longer than the horizon, no control cycle of any history faults, whatever the solver
answers: the supervisor never blocks. -/
theorem C55_no_fault [Archimedean K] (fb : K) (a : Sup K × Vec K) (hr : Reach (· = fb) CanStop a)
    (hg : Grid fb a.1) : ∃ s' v', a.1.updateTimeline a.2 fb = .ok (s', v') ∧
      ∀ x : Vec K, x.size = v'.size → ∃ s'', s'.updateFeetStates
        ⟨2 * s'.M, fun i => x.get (2 * s'.N + i)⟩ fb = .ok s'' ∧ Cycle fb a (s'', x) := by
  have hE : (0 : K) < EPS := EPS_pos
  obtain ⟨f, mv, R, hI⟩ := hr.ginv (hE.trans hg.pos).le hg
  obtain ⟨s', v', hu⟩ := hI.update_ok (fb' := fb) hg
  refine ⟨s', v', hu, fun x hx => ?_⟩
  obtain ⟨s'', h1, -⟩ := hI.cycle_ok hg hu ⟨2 * s'.M, fun i => x.get (2 * s'.N + i)⟩ rfl
  exact ⟨s'', h1, s', v', hu, hx, h1⟩

/-! ### Witnesses of the violations, and examples -/

/-- A cycle in which no foot flies. -/
theorem cycle_still [Archimedean K] {a : Sup K × Vec K} {f₀ f : Phase K} {mv : Bool} {R₀ R : K}
    (fb : K) (hI : HInv a f₀ mv R₀) (hr : Running a.1 f R) (hg : Untied a.1 R)
    (hm : EndsStep a.1 → 1 ≤ a.1.M)
    (hs : f.type = .DS ∨ f.duration - a.1.T + EPS ≤ R) :
    ∃ s₁ v₁ m s' v', Updated a fb s₁ v₁ f m s' v' ∧ s₁.ttnp = R ∧
      a.1.updateTimeline a.2 fb = .ok (s', v') ∧
      ∀ x : Vec K, x.size = v'.size → ∃ s'', Cycle fb a (s'', x) ∧ s''.M = s'.M ∧
        s''.timeline = s'.timeline ∧ s''.left = a.1.left ∧ s''.right = a.1.right ∧
        s''.ttnp = R - fb ∧ s''.N = a.1.N ∧ s''.T = a.1.T ∧ s''.stepPeriod = a.1.stepPeriod ∧
        s''.dsPeriod = a.1.dsPeriod ∧ s''.move = a.1.move := by
  obtain ⟨s₀, v₀, hpop⟩ := Sup.pop_total (fb := fb) hr hI.var hm
  have hR : EPS ≤ R := by
    obtain ⟨f₁, m, mv₁, R₁, -, -, -, -, -, -, -, -, h1, -, -, h2, -⟩ := hI.pop hpop
    rw [(hr.unique h1).2]
    exact h2
  obtain ⟨s', v', b, hu, -⟩ := C28_selection_partial a.1 a.2 fb R f a.1.M hI.N hI.T hI.kin hr hR
    hI.var hm hg
  obtain ⟨s₁, v₁, f₁, m, hU⟩ := hI.update hu
  obtain ⟨rfl, e⟩ := hr.unique hU.running
  refine ⟨s₁, v₁, m, s', v', hU, e.symm, hu, fun x hx => ?_⟩
  have hsame := hU.preview.same
  have hfeet : s'.updateFeetStates ⟨2 * s'.M, fun i => x.get (2 * s'.N + i)⟩ fb = .ok
      { s' with stepVec := ⟨2 * s'.M, fun i => x.get (2 * s'.N + i)⟩, ttnp := s'.ttnp - fb } := by
    unfold Sup.updateFeetStates
    simp only
    rw [listAt_of_get? hU.front', ok_bind, Sup.isInDS_ok (f := f) (by exact hU.front'), ok_bind,
      if_neg ?_]
    · rfl
    · rintro ⟨h1, h2⟩
      rw [hsame.ttnp, ← e, hsame.T, hU.T] at h2
      rcases hs with h | h
      · simp [h] at h1
      · exact absurd h2 (not_lt.2 h)
  refine ⟨_, ⟨s', v', hu, hx, hfeet⟩, rfl, rfl, ?_, ?_, ?_, ?_, ?_, ?_, ?_, ?_⟩
  · exact hsame.left.trans hU.left
  · exact hsame.right.trans hU.right
  · show s'.ttnp - fb = _
    rw [hsame.ttnp, ← e]
  · exact hsame.N.trans hU.N
  · exact hsame.T.trans hU.T
  · exact hsame.stepPeriod.trans hU.step
  · exact hsame.dsPeriod.trans hU.ds
  · exact hsame.move.trans hU.move

/-- When exactly `T + EPS` remains and the horizon has one sample, this sample is attached to
nothing. -/
theorem C28_tie [Archimedean K] (s : Sup K) (v : Vec K) (fb R : K) (f : Phase K) (m : ℕ)
    (hN : s.N = 1) (hT : EPS ≤ s.T) (hk : HasKin s) (hr : Running s f R) (hR : R = s.T + EPS)
    (hv : v.size = 2 * s.N + 2 * m) (hm : EndsStep s → 1 ≤ m) :
    ∃ s' v', s.updateTimeline v fb = .ok (s', v') ∧ ∀ q, ¬ RowIsUnit s' 0 q := by
  have hE : (0 : K) < EPS := EPS_pos
  obtain ⟨s₁, v₁, hpop⟩ := Sup.pop_total (fb := fb) hr hv hm
  obtain ⟨m₁, e1, e2, e3, e4, e5, e6, e7, e8, e9, e10, e11⟩ := Sup.pop_facts hpop hr hv
  have hk' : HasKin s₁ := by unfold HasKin; rw [e6, e7]; exact hk
  obtain ⟨s₂, v', hp, he⟩ := Sup.updateTimeline_eq (by rw [e1, hN]; exact one_pos)
    (by rw [e2]; exact hT) hr.length (by rw [hv]; omega) hpop e9 e10 (fun i _ hi => hk'.pos hi)
  have hsN : s₂.N = 1 := by rw [hp.same.N, e1, hN]
  have hsT : s₂.T = s.T := by rw [hp.same.T, e2]
  have hst : s₂.ttnp = s.T + EPS := by rw [hp.same.ttnp, e8, hR]
  obtain ⟨i, w, hw, -⟩ := Sup.sampleWeight_ok (s := s₂) (by omega) (by rw [hsT]; linarith)
  rw [hw, ok_bind] at he
  have hsel : Sup.selection { s₂ with weight := w } = .ok { s₂ with
      weight := w, V0 := Mat.zero s₂.N 1, V := Mat.zero s₂.N s₂.M,
      VT := (Mat.zero s₂.N s₂.M).transpose, phaseIdx := Vec.const s₂.N 0 } := by
    unfold Sup.selection
    rw [require_pos (by simp only; omega), ok_bind]
    simp only
    rw [whileLoop_done (by simp only; rw [hsT, hst]; intro h; exact absurd h.1 (lt_irrefl _)), ok_bind,
      whileLoop_done (by
        simp only
        rw [hsN, hsT, hst]
        intro h
        push_cast at h
        linarith), ok_bind]
    rfl
  rw [hsel, ok_bind, res_pure] at he
  refine ⟨_, _, he, ?_⟩
  rintro q ⟨h1, h2, h3⟩
  simp only [Mat.zero] at h1 h2 h3
  rcases q with _ | c
  · simp at h2
  · have := h3 c (by omega)
    simp at this

end

/-- **C28 is violated**: after one cycle of 0.9999 s from the initial state with one sample of one
second and an initial double support of two seconds, `1 + EPS` remains and the sample is attached to
no footstep. -/
theorem C28_violated : ∃ a : Sup ℚ × Vec ℚ, Reach (0 < ·) CanStop a ∧
    ∃ s' v', a.1.updateTimeline a.2 1 = .ok (s', v') ∧ ∀ q, ¬ RowIsUnit s' 0 q := by
  have hd : Ready (demo 1 1 2 2 0) := demo_ready 0 one_pos (by norm_num [EPS]) (by norm_num [EPS])
    (by norm_num [EPS])
  have hr0 : Running (demo 1 1 2 2 0).1 ⟨.DS, 2⟩ 2 := Or.inl ⟨hd.hinv.hR, rfl, rfl⟩
  obtain ⟨s₁, v₁, m, s', v', hU, -, -, hx⟩ := cycle_still (9999 / 10000) hd.hinv hr0
    ⟨by norm_num [demo, EPS], by norm_num [demo, EPS],
      fun i h1 h2 => by
        have : i = 1 := by change i ≤ 1 at h2; omega
        subst this; norm_num [demo, EPS],
      fun i h1 h2 => by
        have : i = 1 := by change i ≤ 1 at h2; omega
        subst this; norm_num [demo, EPS],
      fun i h1 h2 => by
        have : i = 1 := by change i ≤ 1 at h2; omega
        subst this; norm_num [demo, EPS]⟩
    (fun h => absurd h.1 (by norm_num [demo, EPS])) (Or.inl rfl)
  obtain ⟨s'', hc, h1, h2, h3, h4, h5, h6, h7, -⟩ := hx v' rfl
  have hre : Reach (0 < ·) CanStop (s'', v') := .cycle (.start hd) (by norm_num) hc
  refine ⟨(s'', v'), hre, ?_⟩
  obtain ⟨f, mv, R, hI⟩ := hre.hinv (fun _ h => le_of_lt h) (fun _ _ h => h)
  refine C28_tie s'' v' 1 s''.ttnp f s''.M h6 hI.T hI.kin (Or.inl ⟨?_, hI.front, rfl⟩) ?_ hI.var ?_
  · rw [h5]; norm_num [EPS]
  · rw [h5, h7]; norm_num [demo, EPS]
  · intro h
    have := h.1
    rw [h5] at this
    norm_num [EPS] at this

/-- The grid of the examples. -/
theorem demo_grid : Grid (1 / 2) (demo 2 1 1 1 0).1 :=
  ⟨by norm_num [EPS], ⟨2, by norm_num, by norm_num [demo]⟩, ⟨2, by norm_num, by norm_num [demo]⟩,
    ⟨2, by norm_num, by norm_num [demo]⟩, by norm_num [demo]⟩

/-- The hypotheses of C27, C28, C29, C30, C35, C55 are met by a walking history: after the first cycle
one footstep is previewed. -/
theorem demo_walk : ∃ a : Sup ℚ × Vec ℚ, Reach (· = 1 / 2) CanStop a ∧ Grid (1 / 2) a.1 ∧
    a.1.M = 1 ∧ a.1.ttnp = 1 / 2 ∧ a.1.timeline[0]? = some ⟨.DS, 1⟩ ∧ a.1.move = true ∧
    a.1.N = 2 ∧ a.1.T = 1 ∧ a.1.dsPeriod = 1 := by
  have hd : Ready (demo 2 1 1 1 0) := demo_ready 0 two_pos (by norm_num [EPS]) (by norm_num [EPS])
    (by norm_num [EPS])
  have hre0 : Reach (· = 1 / 2) CanStop ((demo 2 1 1 1 0).1.setMove true, (demo 2 1 1 1 0).2) :=
    .setMove (.start hd) (Or.inl rfl)
  have hg : Grid (1 / 2) ((demo 2 1 1 1 0).1.setMove true) := demo_grid.congr rfl rfl rfl rfl
  obtain ⟨s', v', hu, hx⟩ := C55_no_fault _ _ hre0 hg
  obtain ⟨s'', hf, hc⟩ := hx v' rfl
  obtain ⟨f, mv, R, hI⟩ := hre0.hinv (by rintro x rfl; norm_num) (fun _ _ h => h)
  obtain ⟨f₁, R₁, hr, h1, h2, h3, h4, h5, h6, h7, -⟩ := hc.running
  have hr0 : Running ((demo 2 1 1 1 0).1.setMove true) ⟨.DS, 1⟩ 1 :=
    Or.inl ⟨by norm_num [demo, Sup.setMove, EPS], rfl, rfl⟩
  obtain ⟨rfl, rfl⟩ := hr.unique hr0
  obtain ⟨s₁, v₁, f₂, m, hU⟩ := hI.update hu
  obtain ⟨rfl, e⟩ := hU.running.unique hr0
  refine ⟨(s'', v'), .cycle hre0 rfl hc, hg.congr h3 h4 h5 h6, ?_, ?_, h1, h7, h3, h4, h6⟩
  · have e1 : s₁.N = 2 := hU.N
    have e2 : s₁.T = 1 := hU.T
    have e3 : s₁.stepPeriod = 1 := hU.step
    have e4 : s₁.move = true := hU.move
    have : s''.M = s'.M := (Sup.updateFeet_frame hf).2.2.2.1
    show s''.M = 1
    rw [this, hU.preview.M]
    have hP : (s₁.sched .DS s₁.N).1 = 2 := by
      norm_num [e1, Sup.sched, sched, schedNorm, Sup.durAt, e, e2, EPS, Sup.typeAt, Sup.nextType,
        Sup.period, e3, e4]
    show s₁.ssCount .DS (s₁.sched .DS s₁.N).1 = 1
    rw [hP, Sup.ssCount_succ_DS rfl, e4]
    rfl
  · rw [h2]; norm_num

/-- **C29 is violated**: walking is requested, a step is previewed, and the stop is requested before
the end of the initial double support. The decision vector keeps a footstep that no longer exists. -/
theorem C29_violated : ∃ a : Sup ℚ × Vec ℚ, Reach (0 < ·) (fun _ _ => True) a ∧
    ∃ s' v', a.1.updateTimeline a.2 (1 / 2) = .ok (s', v') ∧ v'.size ≠ 2 * s'.N + 2 * s'.M := by
  obtain ⟨⟨s, v⟩, hr, hg, hM, ht, hf, hm, -⟩ := demo_walk
  simp only at hg hM ht hf hm
  have hr' : Reach (0 < ·) (fun _ _ => True) (s, v) := by
    clear hg hM ht hf hm
    generalize (s, v) = a at hr
    induction hr with
    | start h => exact .start h
    | cycle _ h1 h2 ih => exact .cycle ih (by rw [h1]; norm_num) h2
    | setMove _ _ ih => exact .setMove ih trivial
  obtain ⟨f, mv, R, hI⟩ := hr.hinv (by rintro x rfl; norm_num) (fun _ _ h => h)
  have hrun : Running (s.setMove false) ⟨.DS, 1⟩ (1 / 2) :=
    Or.inl ⟨by show EPS ≤ s.ttnp; rw [ht]; norm_num [EPS], hf, ht.symm⟩
  obtain ⟨s', v', b, hu, -⟩ := C28_selection_partial (s.setMove false) v (1 / 2) (1 / 2) ⟨.DS, 1⟩ s.M
    hI.N hI.T hI.kin hrun (by norm_num [EPS]) hI.var
    (fun h => absurd h.1 (by show ¬ s.ttnp < EPS; rw [ht]; norm_num [EPS]))
    (Grid.untied (hg.congr rfl rfl rfl rfl : Grid (1 / 2) (s.setMove false)) ⟨1, by norm_num⟩)
  refine ⟨(s.setMove false, v), .setMove hr' trivial, s', v', hu, ?_⟩
  obtain ⟨h1, h2⟩ := C29_stop_in_double_support s s' v v' (1 / 2) 1 0 hI.N hI.T hI.kin hf
    (by rw [ht]; norm_num [EPS]) (by have := hI.var; simp only at this; rw [this, hM]) hu
  rw [h1, h2]
  omega

theorem demoSquare_convex : Spec.Convex demoSquare.vertices := by
  intro j hj i hi
  change j < 4 at hj
  change i < 4 at hi
  unfold Spec.InnerSide
  interval_cases j <;> interval_cases i <;>
    simp [demoSquare, Polygon.start] <;> norm_num

/-- **C30 is violated**: with one sample of one second and steps of two seconds, the first footstep is
added in the middle of the first single support. It is computed from the last entry of the CoP part of
the decision vector (100 here) instead of the position of the support foot. -/
theorem C30_violated : ∃ a : Sup ℚ × Vec ℚ, Reach (· = 1) CanStop a ∧ a.1.M = 0 ∧
    ∃ s' v' d, a.1.updateTimeline a.2 1 = .ok (s', v') ∧ s'.M = 1 ∧
      s'.timeline[0]? = some ⟨.leftSS, d⟩ ∧ Spec.Convex a.1.left.kin.vertices ∧
      ¬ Spec.InPolygon a.1.left.kin.vertices ⟨v'.get (2 * s'.N) - a.1.left.x.state.p,
        v'.get (2 * s'.N + 1) - a.1.left.y.state.p⟩ := by
  have hd : Ready (demo 1 1 2 1 0) := demo_ready 0 one_pos (by norm_num [EPS]) (by norm_num [EPS])
    (by norm_num [EPS])
  have hre0 : Reach (· = 1) CanStop ((demo 1 1 2 1 0).1.setMove true, (demo 1 1 2 1 0).2) :=
    .setMove (.start hd) (Or.inl rfl)
  obtain ⟨f0, mv0, R0, hI0⟩ := hre0.hinv (by rintro x rfl; norm_num) (fun _ _ h => h)
  -- the durations are not tied
  have hunt : ∀ (s : Sup ℚ) (R : ℚ), s.N = 1 → s.T = 1 → s.stepPeriod = 2 → s.dsPeriod = 1 →
      R = 1 ∨ R = 2 → Untied s R := by
    intro s R h1 h2 h3 h4 h5
    refine ⟨by rw [h3]; norm_num [EPS], by rw [h4]; norm_num [EPS], fun i k1 k2 => ?_,
      fun i k1 k2 => ?_, fun i k1 k2 => ?_⟩
    all_goals
      have : i = 1 := by rw [h1] at k2; omega
      subst this
      rw [h2]
    · rcases h5 with rfl | rfl <;> norm_num [EPS]
    · rw [h3]; norm_num [EPS]
    · rw [h4]; norm_num [EPS]
  -- first cycle, in double support
  have hr0 : Running ((demo 1 1 2 1 0).1.setMove true) ⟨.DS, 1⟩ 1 :=
    Or.inl ⟨by norm_num [demo, Sup.setMove, EPS], rfl, rfl⟩
  obtain ⟨s₁, v₁, m₁, s₁', v₁', hU₁, -, -, hx₁⟩ := cycle_still 1 hI0 hr0
    (hunt _ _ rfl rfl rfl rfl (Or.inl rfl)) (fun h => absurd h.1 (by norm_num [demo, Sup.setMove, EPS]))
    (Or.inl rfl)
  obtain ⟨b, hb, b1, b2, b3, b4, b5, b6, b7, b8, b9, b10⟩ := hx₁ v₁' rfl
  have hre1 : Reach (· = 1) CanStop (b, v₁') := .cycle hre0 rfl hb
  obtain ⟨f1, mv1, R1, hI1⟩ := hre1.hinv (by rintro x rfl; norm_num) (fun _ _ h => h)
  have hP1 := (hU₁.one_le hI0.T (by
    have : s₁.ttnp = 1 := (hU₁.running.unique hr0).2
    rw [this]; norm_num [demo, Sup.setMove])).1
  have hb0 : b.timeline[0]? = some ⟨.DS, 1⟩ := by rw [b2]; exact hU₁.front'
  have hb1 : b.timeline[1]? = some ⟨.leftSS, 2⟩ := by
    rw [b2, hU₁.preview.tl, List.getElem?_map,
      List.getElem?_range (Nat.lt_succ_of_le hP1)]
    simp only [Option.map_some, Sup.phaseAt, Sup.typeAt, Sup.nextType, Sup.period]
    rw [hU₁.move, hU₁.step]
    rfl
  -- second cycle, beginning of the single support
  have hr1 : Running b ⟨.leftSS, 2⟩ 2 := Or.inr ⟨by rw [b5]; norm_num [EPS], hb1, rfl⟩
  obtain ⟨s₂, v₂, m₂, s₂', v₂', hU₂, hR₂, -, hx₂⟩ := cycle_still 1 hI1 hr1
    (hunt b _ b6 b7 b8 b9 (Or.inr rfl))
    (fun h => by
      obtain ⟨-, f, h1, h2⟩ := h
      simp only at h1
      rw [hb0] at h1
      cases h1
      exact absurd rfl h2)
    (Or.inr (by simp only; rw [b7]; norm_num [demo, Sup.setMove, EPS]))
  have hM2 : s₂'.M = 0 := by
    rw [hU₂.preview.M]
    have : (s₂.sched .leftSS s₂.N).1 = 0 := by
      by_contra hc
      have h1 := (sched_pos_iff (T := s₂.T) (dur := s₂.durAt .leftSS) (by
        rw [hU₂.T]; simp only; rw [b7]; norm_num [demo, Sup.setMove]) hU₂.pos s₂.N).1
        (Nat.one_le_iff_ne_zero.2 hc)
      simp only [Sup.durAt] at h1
      rw [hR₂, hU₂.N, hU₂.T] at h1
      simp only at h1
      rw [b6, b7] at h1
      norm_num [demo, Sup.setMove, EPS] at h1
    show s₂.ssCount .leftSS (s₂.sched .leftSS s₂.N).1 = 0
    rw [this]; rfl
  have hN2 : s₂'.N = 1 := by rw [hU₂.preview.same.N, hU₂.N]; exact b6
  have hsz2 : v₂'.size = 2 := by rw [hU₂.size, hM2, hN2]
  obtain ⟨c, hc, c1, c2, c3, c4, c5, c6, c7, c8, c9, c10⟩ := hx₂ ⟨2, fun _ => 100⟩ hsz2.symm
  have hre2 : Reach (· = 1) CanStop (c, (⟨2, fun _ => 100⟩ : Vec ℚ)) := .cycle hre1 rfl hc
  obtain ⟨f2, mv2, R2, hI2⟩ := hre2.hinv (by rintro x rfl; norm_num) (fun _ _ h => h)
  have hct : c.ttnp = 1 := by rw [c5]; norm_num
  have hcN : c.N = 1 := by rw [c6]; exact b6
  have hcT : c.T = 1 := by rw [c7]; exact b7
  have hc0 : c.timeline[0]? = some ⟨.leftSS, 2⟩ := by rw [c2]; exact hU₂.front'
  -- third update
  have hr2 : Running c ⟨.leftSS, 2⟩ 1 := Or.inl ⟨by rw [hct]; norm_num [EPS], hc0, hct.symm⟩
  obtain ⟨s', v', -, hu, -⟩ := C28_selection_partial c ⟨2, fun _ => 100⟩ 1 1 ⟨.leftSS, 2⟩ c.M hI2.N
    hI2.T hI2.kin hr2 (by norm_num [EPS]) hI2.var
    (fun h => absurd h.1 (by rw [hct]; norm_num [EPS]))
    (hunt c _ hcN hcT (by rw [c8]; exact b8) (by rw [c9]; exact b9) (Or.inl rfl))
  obtain ⟨s₃, v₃, f₃, m₃, hU₃⟩ := hI2.update hu
  obtain ⟨rfl, e⟩ := hr2.unique hU₃.running
  have hM3 : 1 ≤ s'.M := (hU₃.one_le hI2.T (by
    rw [← e]; simp only; rw [hcN, hcT]; norm_num)).2 (by simp)
  have hM3' : s'.M ≤ 1 := by
    have := (hU₃.preview.steps hU₃.pos).2
    rw [hU₃.N] at this
    simp only at this
    omega
  have hMe : s'.M = 1 := le_antisymm hM3' hM3
  have hcl : c.left = (demo 1 1 2 1 0).1.left := by rw [c3]; simp only; rw [b3]; rfl
  refine ⟨(c, ⟨2, fun _ => 100⟩), hre2, by simp only; rw [c1, hM2], s', v', 2, hu, hMe, hU₃.front',
    ?_, ?_⟩
  · simp only; rw [hcl]; exact demoSquare_convex
  · have hcon := hU₃.content
    have hpopv : v₃ = ⟨2, fun _ => 100⟩ ∧ m₃ = 0 := by
      rcases Sup.popPhase_of_ok hU₃.pop with ⟨-, -, k⟩ | ⟨k, -⟩
      · refine ⟨k, ?_⟩
        have := hU₃.var
        rw [k, hU₃.N] at this
        simp only at this
        omega
      · simp only at k
        rw [hct] at k
        norm_num [EPS] at k
    obtain ⟨bc, hbox, hbx, -⟩ := hcon.new 0 (by omega) (by omega)
    obtain ⟨i₁, h1, i₂, h2, i₃, h3, i₄, h4, hbb, hbc⟩ : IsBoxCenter demoSquare.vertices bc := by
      have : s₃.left.kin = demoSquare := by
        rw [hU₃.left]; simp only; rw [hcl]; rfl
      rw [← this]
      exact hbox
    rw [if_pos rfl, if_neg (by simp), hpopv.1, hU₃.N] at hbx
    simp only at hbx
    have hN' : s'.N = c.N := by rw [hU₃.preview.same.N, hU₃.N]
    rw [hN']
    intro hin
    simp only at hin
    rw [hcl] at hin
    have h3' := hin 3 (by show 3 < 4; norm_num)
    have hxmin : -1 ≤ bc.x := by
      rw [hbc]
      simp only
      have hl : ∀ i < 4, (-1 : ℚ) ≤ (demoSquare.vertices.get i).x := by
        intro i hi; interval_cases i <;> simp [demoSquare, Polygon.start]
      have := hl i₁ h1
      have := hl i₂ h2
      linarith
    unfold Spec.InnerSide at h3'
    simp only [Nat.add_zero] at hbx
    rw [hbx] at h3'
    simp [demo, demoSquare, Polygon.start, Foot.init, FootAxis.init] at h3'
    linarith

/-- **C44 is violated** with one sample: from the initial state with one sample of one second, the
whole sampling period is left and the weight is not `1` but `0.05`. -/
theorem C44_violated : ∃ a : Sup ℚ × Vec ℚ, Reach (0 < ·) CanStop a ∧ a.1.N = 1 ∧
    a.1.ttnp = a.1.T ∧ ∃ s' v', a.1.updateTimeline a.2 1 = .ok (s', v') ∧
      s'.weight.get 0 0 = 5 / 100 := by
  have hd : Ready (demo 1 1 2 1 0) := demo_ready 0 one_pos (by norm_num [EPS]) (by norm_num [EPS])
    (by norm_num [EPS])
  have hr0 : Running (demo 1 1 2 1 0).1 ⟨.DS, 1⟩ 1 := Or.inl ⟨hd.hinv.hR, rfl, rfl⟩
  obtain ⟨s₁, v₁, m, s', v', hU, hR, hu, -⟩ := cycle_still 1 hd.hinv hr0
    ⟨by norm_num [demo, EPS], by norm_num [demo, EPS],
      fun i h1 h2 => by
        have : i = 1 := by change i ≤ 1 at h2; omega
        subst this; norm_num [demo, EPS],
      fun i h1 h2 => by
        have : i = 1 := by change i ≤ 1 at h2; omega
        subst this; norm_num [demo, EPS],
      fun i h1 h2 => by
        have : i = 1 := by change i ≤ 1 at h2; omega
        subst this; norm_num [demo, EPS]⟩
    (fun h => absurd h.1 (by norm_num [demo, EPS])) (Or.inl rfl)
  have ht : s'.ttnp = 1 := by rw [hU.preview.same.ttnp, hR]
  refine ⟨_, .start hd, rfl, rfl, s', v', hu, ?_⟩
  rw [C44_violated_one_sample _ s' _ v' 1 hu rfl (by norm_num [demo]) (by rw [ht]; norm_num [demo]),
    ht]
  norm_num [demo]

/-- C26 and C44 apply to updates that exist: those of the walking history above. -/
example : ∃ (s s' : Sup ℚ) (v v' : Vec ℚ), s.updateTimeline v (1 / 2) = .ok (s', v') ∧ 2 ≤ s.N ∧
    20 * EPS < s.T ∧ EPS ≤ s'.ttnp ∧ s.move = true ∧
    ∃ p q, s'.timeline[0]? = some p ∧ s'.timeline[1]? = some q ∧ q.type ≠ .DS := by
  have hd : Ready (demo 2 1 1 1 0) := demo_ready 0 two_pos (by norm_num [EPS]) (by norm_num [EPS])
    (by norm_num [EPS])
  have hre0 : Reach (· = 1 / 2) CanStop ((demo 2 1 1 1 0).1.setMove true, (demo 2 1 1 1 0).2) :=
    .setMove (.start hd) (Or.inl rfl)
  have hg : Grid (1 / 2) ((demo 2 1 1 1 0).1.setMove true) := demo_grid.congr rfl rfl rfl rfl
  obtain ⟨s', v', hu, -⟩ := C55_no_fault _ _ hre0 hg
  obtain ⟨f, mv, R, hI⟩ := hre0.hinv (by rintro x rfl; norm_num) (fun _ _ h => h)
  obtain ⟨s₁, v₁, f₂, m, hU⟩ := hI.update hu
  have hr0 : Running ((demo 2 1 1 1 0).1.setMove true) ⟨.DS, 1⟩ 1 :=
    Or.inl ⟨by norm_num [demo, Sup.setMove, EPS], rfl, rfl⟩
  obtain ⟨rfl, e⟩ := hU.running.unique hr0
  have hP := (hU.one_le hI.T (by rw [e]; norm_num [demo, Sup.setMove])).1
  refine ⟨_, s', _, v', hu, le_refl _, by norm_num [demo, Sup.setMove, EPS], ?_, rfl, _,
    s₁.phaseAt ⟨.DS, 1⟩ 1, hU.front', ?_, ?_⟩
  · rw [hU.preview.same.ttnp, e]; norm_num [EPS]
  · rw [hU.preview.tl, List.getElem?_map, List.getElem?_range (Nat.lt_succ_of_le hP)]; rfl
  · have e4 : s₁.move = true := hU.move
    simp [Sup.phaseAt, Sup.typeAt, Sup.nextType, e4]

end MPC
