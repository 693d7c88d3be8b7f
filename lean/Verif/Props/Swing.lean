import Verif.Lemmas.Swing
import Verif.Lemmas.Eval

/-! # C74: the flying foot stays near its way

The interpolation of the flying foot is computed anew in every cycle. The full claim is that the foot stays
between its start and its targets, and between the ground and its maximal height. -/

set_option linter.unusedSectionVars false

namespace MPC

variable {K : Type} [Field K] [LinearOrder K] [IsStrictOrderedRing K]

/-- **C74.** An axis that starts at rest and is updated towards targets at rest, whatever the targets and the
way the time is cut into periods: its position is its start plus a part of each displacement of the target.
Each part is at least zero, and at most `53/50`. -/
theorem C74_weights (D : K) (foot f' : FootAxis K) (hf : foot.factor.size = 12) (p₀ : K)
    (h0 : foot.state = ⟨p₀, 0, 0⟩) (hist : List (State3 K × K))
    (hh : ∀ u ∈ hist, u.1.v = 0 ∧ u.1.a = 0 ∧ 0 < u.2) (hD : (hist.map Prod.snd).sum ≤ D)
    (h : flight D foot hist = .ok f') :
    ∃ ω : List K, ω.length = hist.length ∧ (∀ w ∈ ω, 0 ≤ w ∧ w ≤ 53 / 50) ∧
      f'.state.p = p₀ + Spec.combine ω (Spec.targetMoves p₀ hist) := by
  have hsum : 0 ≤ (hist.map Prod.snd).sum := by
    apply List.sum_nonneg
    intro x hx
    obtain ⟨u, hu, rfl⟩ := List.mem_map.1 hx
    exact (hh u hu).2.2.le
  obtain ⟨es, e1, e2, e3⟩ := flight_mix hist foot f' p₀ D [] [] hf (hsum.trans hD) hh hD rfl (by simp)
    (by rw [h0]; simp [fromTarget, mix]) h
  have hl : ∀ (q : K) (l : List (State3 K × K)), (Spec.targetMoves q l).length = l.length := by
    intro q l
    induction l generalizing q with
    | nil => rfl
    | cons u l ih => obtain ⟨u, d⟩ := u; simp [Spec.targetMoves, ih]
  refine ⟨es.map (1 - ·), by simpa using e1, ?_, ?_⟩
  · intro w hw
    obtain ⟨e, he, rfl⟩ := List.mem_map.1 hw
    obtain ⟨b1, b2⟩ := e2 e he
    constructor <;> linarith
  · rw [e3, combine_one_sub (by rw [hl]; simpa using e1)]
    simp only [lastTarget, List.nil_append]
    ring

/-- Towards one target, the axis stays between its start and the target, up to `3/50` of the way beyond it. -/
theorem C74_toward_partial (D : K) (foot f' : FootAxis K) (hf : foot.factor.size = 12) (p₀ g : K)
    (h0 : foot.state = ⟨p₀, 0, 0⟩) (ds : List K) (hpos : ∀ d ∈ ds, 0 < d) (hD : ds.sum ≤ D)
    (h : flight D foot (ds.map fun d => (⟨g, 0, 0⟩, d)) = .ok f') :
    ∃ w : K, 0 ≤ w ∧ w ≤ 53 / 50 ∧ f'.state.p = p₀ + w * (g - p₀) := by
  obtain ⟨ω, e1, e2, e3⟩ := C74_weights D foot f' hf p₀ h0 _
    (by
      intro u hu
      obtain ⟨d, hd, rfl⟩ := List.mem_map.1 hu
      exact ⟨rfl, rfl, hpos d hd⟩) (by simpa [Function.comp_def] using hD) h
  have hz : ∀ (l : List K) (ω : List K), Spec.combine ω (Spec.targetMoves g (l.map fun d => ((⟨g, 0, 0⟩ : State3 K), d))) = 0 := by
    intro l
    induction l with
    | nil => intro ω; simp [Spec.targetMoves, Spec.combine]
    | cons d l ih =>
      intro ω
      cases ω with
      | nil => simp [Spec.combine]
      | cons w ω =>
        simp only [List.map_cons, Spec.targetMoves]
        rw [combine_cons, ih]; simp
  cases ds with
  | nil =>
    refine ⟨0, le_rfl, by norm_num, ?_⟩
    rw [e3]; simp [Spec.targetMoves, Spec.combine]
  | cons d l =>
    cases ω with
    | nil => simp at e1
    | cons w ω =>
      refine ⟨w, (e2 w List.mem_cons_self).1, (e2 w List.mem_cons_self).2, ?_⟩
      rw [e3]
      simp only [List.map_cons, Spec.targetMoves]
      rw [combine_cons, hz]; ring

/-- The foot that flies in a phase. -/
def Spec.flying (f : Phase K) (s : Sup K) : Foot K := if f.type = .leftSS then s.right else s.left

theorem flight_snoc (hist : List (State3 K × K)) : ∀ (D : K) (foot f₁ f₂ : FootAxis K) (g : State3 K) (dt : K),
    flight D foot hist = .ok f₁ → interpolateTrajectory f₁ g (D - (hist.map Prod.snd).sum) dt = .ok f₂ →
    flight D foot (hist ++ [(g, dt)]) = .ok f₂ := by
  induction hist with
  | nil =>
    intro D foot f₁ f₂ g dt h1 h2
    cases h1
    simp only [List.map_nil, List.sum_nil, sub_zero] at h2
    simp [flight, h2]
  | cons u l ih =>
    intro D foot f₁ f₂ g dt h1 h2
    obtain ⟨o, d⟩ := u
    simp only [flight] at h1
    obtain ⟨x, h3, h4⟩ := bind_eq_ok.1 h1
    simp only [List.cons_append, flight, h3, ok_bind]
    refine ih _ _ _ _ _ _ h4 ?_
    rw [show D - d - (l.map Prod.snd).sum = D - (((o, d) :: l).map Prod.snd).sum from by simp; ring]
    exact h2

/-- The cycles of a flight update each horizontal axis of the flying foot as `flight` does. -/
theorem flight_of_run (fb : ℕ → K) (a : ℕ → Sup K × Vec K) (f : Phase K) (hss : f.type ≠ .DS) (D : K)
    (hfl : D < f.duration - (a 0).1.T + EPS) : ∀ n : ℕ, (∀ i < n, 0 < fb i) →
    (∀ i < n, Cycle (fb i) (a i) (a (i + 1))) →
    (∀ i < n, Running (a i).1 f (D - ((List.range i).map fb).sum)) →
    (a n).1.T = (a 0).1.T ∧ (a n).1.N = (a 0).1.N ∧
    flight D (Spec.flying f (a 0).1).x ((List.range n).map fun i =>
      (⟨(a (i + 1)).2.get (2 * (a (i + 1)).1.N), 0, 0⟩, fb i)) = .ok (Spec.flying f (a n).1).x ∧
    flight D (Spec.flying f (a 0).1).y ((List.range n).map fun i =>
      (⟨(a (i + 1)).2.get (2 * (a (i + 1)).1.N + (a (i + 1)).1.M), 0, 0⟩, fb i)) = .ok (Spec.flying f (a n).1).y := by
  intro n
  induction n with
  | zero => intro _ _ _; exact ⟨rfl, rfl, rfl, rfl⟩
  | succ n ih =>
    intro hpos hc hrun
    obtain ⟨iT, iN, ix, iy⟩ := ih (fun i hi => hpos i (by omega)) (fun i hi => hc i (by omega))
      (fun i hi => hrun i (by omega))
    obtain ⟨s', v', hu, hb, hf⟩ := hc n (by omega)
    obtain ⟨f', hrun', h1, h2, h3, -, -, -, h6, h7, -⟩ := Sup.updateTimeline_running hu
    obtain ⟨e1, e2, e3, e4, -⟩ := Sup.updateFeet_frame hf
    obtain ⟨rfl, hR⟩ := hrun'.unique (hrun n (by omega))
    have hsum : 0 ≤ ((List.range n).map fb).sum := by
      apply List.sum_nonneg
      intro x hx
      obtain ⟨i, hi, rfl⟩ := List.mem_map.1 hx
      exact (hpos i (by have := List.mem_range.1 hi; omega)).le
    have hin : InFlight s' f' := ⟨hss, by rw [hR, h3, iT]; linarith⟩
    have hs1 : ((((List.range n).map fun i => ((⟨(a (i + 1)).2.get (2 * (a (i + 1)).1.N), 0, 0⟩ : State3 K), fb i))).map
        Prod.snd) = (List.range n).map fb := by simp [Function.comp_def]
    have hs2 : ((((List.range n).map fun i => ((⟨(a (i + 1)).2.get (2 * (a (i + 1)).1.N + (a (i + 1)).1.M), 0, 0⟩ :
        State3 K), fb i))).map Prod.snd) = (List.range n).map fb := by simp [Function.comp_def]
    have hfly : (Spec.flying f' s').fly ((a (n + 1)).2.get (2 * (a (n + 1)).1.N))
        ((a (n + 1)).2.get (2 * (a (n + 1)).1.N + (a (n + 1)).1.M)) (f'.duration - s'.T) s'.ttnp (fb n) =
        .ok (Spec.flying f' (a (n + 1)).1) := by
      rw [e1, e4]
      rcases Sup.updateFeet_cases h1 hf with ⟨n1, -⟩ | ⟨-, -, -, ⟨n2, q1, q2⟩ | ⟨n2, q1, q2⟩⟩
      · exact absurd hin n1
      · simpa [Spec.flying, n2] using q2
      · simpa [Spec.flying, n2] using q2
    have hsame : Spec.flying f' s' = Spec.flying f' (a n).1 := by simp [Spec.flying, h6, h7]
    rw [hsame] at hfly
    unfold Foot.fly at hfly
    obtain ⟨x, ex, e⟩ := bind_eq_ok.1 hfly
    obtain ⟨y, ey, e⟩ := bind_eq_ok.1 e
    have hxy : (Spec.flying f' (a (n + 1)).1).x = x ∧ (Spec.flying f' (a (n + 1)).1).y = y := by
      dsimp only at e
      split at e <;> obtain ⟨z, -, e⟩ := bind_eq_ok.1 e <;> rw [← Except.ok.inj e] <;> exact ⟨rfl, rfl⟩
    refine ⟨by rw [e2, h3, iT], by rw [e1, h2, iN], ?_, ?_⟩
    · rw [List.range_succ, List.map_append, hxy.1]
      exact flight_snoc _ _ _ _ _ _ _ ix (by rw [hs1, ← hR]; exact ex)
    · rw [List.range_succ, List.map_append, hxy.2]
      exact flight_snoc _ _ _ _ _ _ _ iy (by rw [hs2, ← hR]; exact ey)

/-- **C74, for the supervisor.** In every history, while a foot that was at rest flies: the position of the foot is
its start plus a part, between zero and `53/50`, of each displacement of the footstep given by the solver. -/
theorem C74_path (fb : ℕ → K) (a : ℕ → Sup K × Vec K) (n : ℕ) (hr : Reach (0 ≤ ·) CanStop (a 0))
    (hpos : ∀ i < n, 0 < fb i) (hc : ∀ i < n, Cycle (fb i) (a i) (a (i + 1)))
    (f : Phase K) (hss : f.type ≠ .DS) (D : K) (hfl : D < f.duration - (a 0).1.T + EPS)
    (hrun : ∀ i < n, Running (a i).1 f (D - ((List.range i).map fb).sum))
    (hD : ((List.range n).map fb).sum ≤ D) (p q : K)
    (hx : (Spec.flying f (a 0).1).x.state = ⟨p, 0, 0⟩) (hy : (Spec.flying f (a 0).1).y.state = ⟨q, 0, 0⟩) :
    ∃ ω η : List K, ω.length = n ∧ η.length = n ∧ (∀ w ∈ ω, 0 ≤ w ∧ w ≤ 53 / 50) ∧ (∀ w ∈ η, 0 ≤ w ∧ w ≤ 53 / 50) ∧
      (Spec.flying f (a n).1).x.state.p = p + Spec.combine ω (Spec.targetMoves p ((List.range n).map fun i =>
        (⟨(a (i + 1)).2.get (2 * (a (i + 1)).1.N), 0, 0⟩, fb i))) ∧
      (Spec.flying f (a n).1).y.state.p = q + Spec.combine η (Spec.targetMoves q ((List.range n).map fun i =>
        (⟨(a (i + 1)).2.get (2 * (a (i + 1)).1.N + (a (i + 1)).1.M), 0, 0⟩, fb i))) := by
  obtain ⟨-, -, kx, ky⟩ := flight_of_run fb a f hss D hfl n hpos hc hrun
  obtain ⟨hl, hri⟩ := hr.factors (fun _ h => h) (fun _ _ h => h)
  have hfac : (Spec.flying f (a 0).1).HasFactors := by
    unfold Spec.flying; split <;> assumption
  have key : ∀ g : ℕ → K, (∀ u ∈ (List.range n).map fun i => ((⟨g i, 0, 0⟩ : State3 K), fb i),
      u.1.v = 0 ∧ u.1.a = 0 ∧ 0 < u.2) ∧
      (((List.range n).map fun i => ((⟨g i, 0, 0⟩ : State3 K), fb i)).map Prod.snd).sum ≤ D := by
    intro g
    refine ⟨?_, by simpa [Function.comp_def] using hD⟩
    intro u hu
    obtain ⟨i, hi, rfl⟩ := List.mem_map.1 hu
    exact ⟨rfl, rfl, hpos i (List.mem_range.1 hi)⟩
  obtain ⟨ω, w1, w2, w3⟩ := C74_weights D _ _ hfac.1 p hx _ (key _).1 (key _).2 kx
  obtain ⟨η, u1, u2, u3⟩ := C74_weights D _ _ hfac.2.1 q hy _ (key _).1 (key _).2 ky
  exact ⟨ω, η, by simpa using w1, by simpa using u1, w2, u2, w3, u3⟩

/-- **C74, heights (partial).** In every walk with one control period that starts with both feet on the ground, when
the flight of a step lasts an even number of control periods: the feet stay between the ground and their
maximal height, up to `3/50` of this height. A foot that does not fly is on the ground, and so are both feet in
double support and at the end of every step. A flying foot is exactly at its maximal height, at rest, in the middle
of its flight.

Excluded, see `C74_violated_height`: flights of an odd number of control periods. -/
theorem C74_height_partial (fb : K) (a₀ a : Sup K × Vec K) (h0 : Ready a₀) (hl : Spec.OnGround a₀.1.left)
    (hr : Spec.OnGround a₀.1.right) (hg : Grid fb a₀.1) (m : ℕ) (hm : 0 < m)
    (hF : a₀.1.stepPeriod - a₀.1.T = 2 * m * fb) (h : WalksFrom fb a₀ a)
    (hh : 0 ≤ a.1.left.maxHeight ∧ 0 ≤ a.1.right.maxHeight) :
    (∀ foot, foot = a.1.left ∨ foot = a.1.right →
      -(3 / 50) * foot.maxHeight ≤ foot.z.state.p ∧ foot.z.state.p ≤ 53 / 50 * foot.maxHeight) ∧
    ∀ f, a.1.timeline[0]? = some f →
      (f.type ≠ .rightSS ∨ a.1.ttnp = 0 → Spec.OnGround a.1.left) ∧
      (f.type ≠ .leftSS ∨ a.1.ttnp = 0 → Spec.OnGround a.1.right) ∧
      (f.type ≠ .DS → a.1.ttnp = (a.1.stepPeriod - a.1.T) / 2 →
        (Spec.flying f a.1).z.state = ⟨(Spec.flying f a.1).maxHeight, 0, 0⟩) := by
  have hL := h.lifted h0 hl hr hg hm hF
  have hfb : 0 < fb := EPS_pos.trans hg.pos
  obtain ⟨iR, iT, iS, iG⟩ := h.reach h0
  obtain ⟨f, mv, R, hI⟩ := iR.ginv hfb.le (iG hg)
  obtain ⟨j, hj⟩ := hI.tick
  have hfr := hI.hist.front
  obtain ⟨k1, k2, k3, k4⟩ := hL f j hfr hj
  have ground : ∀ {foot : Foot K}, 0 ≤ foot.maxHeight → Spec.OnGround foot →
      -(3 / 50) * foot.maxHeight ≤ foot.z.state.p ∧ foot.z.state.p ≤ 53 / 50 * foot.maxHeight := by
    intro foot h1 h2
    rw [show foot.z.state = ⟨0, 0, 0⟩ from h2]
    constructor <;> dsimp only <;> linarith
  refine ⟨?_, ?_⟩
  · rintro foot (rfl | rfl)
    · rcases k1 with k | k
      · have := (k4 k).heights hh.1
        exact ⟨this.1, this.2.1⟩
      · exact ground hh.1 k
    · rcases k2 with k | k
      · have := (k3 k).heights hh.2
        exact ⟨this.1, this.2.1⟩
      · exact ground hh.2 k
  · intro f' hf'
    obtain rfl : f = f' := by rw [hfr] at hf'; exact Option.some.inj hf'
    have hzero : a.1.ttnp = 0 → j = 0 := by
      intro hz
      rw [hj] at hz
      rcases mul_eq_zero.1 hz with h1 | h1
      · exact_mod_cast h1
      · exact absurd h1 hfb.ne'
    refine ⟨?_, ?_, ?_⟩
    · intro hc
      rcases k1 with k | k
      · rcases hc with hc | hc
        · exact absurd k hc
        · exact (k4 k).landed (hzero hc)
      · exact k
    · intro hc
      rcases k2 with k | k
      · rcases hc with hc | hc
        · exact absurd k hc
        · exact (k3 k).landed (hzero hc)
      · exact k
    · intro hss hmid
      have hjm : j = m := by
        rw [hj, iT, iS, hF] at hmid
        have : (j : K) * fb = m * fb := by rw [hmid]; ring
        exact_mod_cast mul_right_cancel₀ hfb.ne' this
      unfold Spec.flying
      cases ht : f.type with
      | DS => exact absurd ht hss
      | leftSS => exact (k3 ht).top hjm
      | rightSS => exact (k4 ht).top hjm

/-! ### Witnesses -/

/-- A control cycle in which the solver writes the value `g` in the whole decision vector. -/
noncomputable def swingCycleOf (fb g : K) (a : Sup K × Vec K) : Res (Sup K × Vec K) := do
  let r ← a.1.updateTimeline a.2 fb
  let s ← r.1.updateFeetStates ⟨2 * r.1.M, fun _ => g⟩ fb
  pure (s, Vec.const r.2.size g)

noncomputable def cyclesOf (fb : K) : ℕ → Sup K × Vec K → Res (Sup K × Vec K)
  | 0, a => .ok a
  | n + 1, a => swingCycleOf fb 0 a >>= cyclesOf fb n

theorem cycleOf_ok {fb g : K} {a b : Sup K × Vec K} (h : swingCycleOf fb g a = .ok b) : Cycle fb a b := by
  unfold swingCycleOf at h
  obtain ⟨r, h1, h⟩ := bind_eq_ok.1 h
  obtain ⟨s, h2, h⟩ := bind_eq_ok.1 h
  obtain rfl := Except.ok.inj h
  exact ⟨r.1, r.2, h1, rfl, h2⟩

theorem cyclesOf_ok {fb : K} {a₀ : Sup K × Vec K} : ∀ {n : ℕ} {a b : Sup K × Vec K}, WalksFrom fb a₀ a →
    cyclesOf fb n a = .ok b → WalksFrom fb a₀ b
  | 0, a, b, hw, h => by cases h; exact hw
  | n + 1, a, b, hw, h => by
    obtain ⟨c, h1, h2⟩ := bind_eq_ok.1 h
    exact cyclesOf_ok (hw.cycle (cycleOf_ok h1)) h2

/-- The start of a walk on a grid of one second, with steps of `p` seconds and a maximal height of one. -/
def swingStart (p : ℕ) : Sup ℚ × Vec ℚ := demo p 1 p 1 1

theorem swingStart_ready {p : ℕ} (hp : 0 < p) : Ready (swingStart p) ∧ Grid 1 (swingStart p).1 := by
  have h1 : (1 : ℚ) ≤ p := by exact_mod_cast hp
  have hE : (EPS : ℚ) ≤ 1 := by norm_num [EPS]
  exact ⟨demo_ready 1 hp hE (hE.trans h1) hE, ⟨by norm_num [EPS], ⟨1, one_pos, by simp [swingStart, demo]⟩,
    ⟨p, hp, by simp [swingStart, demo]⟩, ⟨1, one_pos, by simp [swingStart, demo]⟩, by simp [swingStart, demo]⟩⟩

noncomputable def swingWalk (p n : ℕ) : Res (Sup ℚ × Vec ℚ) :=
  cyclesOf 1 n ((swingStart p).1.setMove true, (swingStart p).2)

theorem swingWalk_ok {p n : ℕ} {b : Sup ℚ × Vec ℚ} (h : swingWalk p n = .ok b) : WalksFrom 1 (swingStart p) b :=
  cyclesOf_ok (.setMove .refl (Or.inl rfl)) h

set_option maxRecDepth 100000 in
theorem swing_checks : okAnd (fun b => decide (b.1.right.z.state.p = 7 / 6 ∧ b.1.right.maxHeight = 1)) (swingWalk 4 4) = true := by
  decide +kernel

/-- **C74 is violated**: in a walk with flights of three control periods, the right foot rises to `7/6` of its
maximal height: the last update towards the maximal height goes beyond its end. -/
theorem C74_violated_height : ∃ b : Sup ℚ × Vec ℚ, Ready (swingStart 4) ∧ Grid 1 (swingStart 4).1 ∧
    Spec.OnGround (swingStart 4).1.left ∧ Spec.OnGround (swingStart 4).1.right ∧
    (swingStart 4).1.stepPeriod - (swingStart 4).1.T = 3 * 1 ∧ WalksFrom 1 (swingStart 4) b ∧
    b.1.right.z.state.p = 7 / 6 * b.1.right.maxHeight ∧ b.1.right.maxHeight = 1 := by
  obtain ⟨b, h1, h2⟩ := okAnd_true swing_checks
  have h2 := of_decide_eq_true h2
  refine ⟨b, (swingStart_ready (by norm_num)).1, (swingStart_ready (by norm_num)).2, rfl, rfl, ?_, swingWalk_ok h1, ?_, h2.2⟩
  · norm_num [swingStart, demo]
  · rw [h2.1, h2.2]; norm_num

set_option maxRecDepth 100000 in
theorem swing_even_checks : okAnd (fun b => decide (b.1.right.z.state.p ≠ 0 ∧ b.1.right.z.state.p < b.1.right.maxHeight ∧
    0 ≤ b.1.left.maxHeight ∧ 0 ≤ b.1.right.maxHeight)) (swingWalk 5 3) = true := by
  decide +kernel

/-- The hypotheses of the heights are met by a walk with flights of four control periods, with a foot on its way up. -/
example : ∃ b : Sup ℚ × Vec ℚ, Ready (swingStart 5) ∧ Grid 1 (swingStart 5).1 ∧
    Spec.OnGround (swingStart 5).1.left ∧ Spec.OnGround (swingStart 5).1.right ∧
    (swingStart 5).1.stepPeriod - (swingStart 5).1.T = 2 * (2 : ℕ) * 1 ∧ WalksFrom 1 (swingStart 5) b ∧
    (0 ≤ b.1.left.maxHeight ∧ 0 ≤ b.1.right.maxHeight) ∧
    b.1.right.z.state.p ≠ 0 ∧ b.1.right.z.state.p < b.1.right.maxHeight := by
  obtain ⟨b, h1, h2⟩ := okAnd_true swing_even_checks
  have h2 := of_decide_eq_true h2
  exact ⟨b, (swingStart_ready (by norm_num)).1, (swingStart_ready (by norm_num)).2, rfl, rfl,
    by norm_num [swingStart, demo], swingWalk_ok h1, ⟨h2.2.2.1, h2.2.2.2⟩, h2.1, h2.2.1⟩

/-- The start of a flight of four control periods, and two cycles of it. -/
noncomputable def pathRun : Res ((Sup ℚ × Vec ℚ) × (Sup ℚ × Vec ℚ) × (Sup ℚ × Vec ℚ)) := do
  let a ← swingWalk 5 2
  let b ← swingCycleOf 1 3 a
  let c ← swingCycleOf 1 2 b
  pure (a, b, c)

set_option maxRecDepth 100000 in
theorem path_checks : okAnd (fun r => decide (
    (EPS ≤ r.1.1.ttnp ∧ r.1.1.timeline[0]? = some ⟨.leftSS, 5⟩ ∧ 4 = r.1.1.ttnp) ∧
    (EPS ≤ r.2.1.1.ttnp ∧ r.2.1.1.timeline[0]? = some ⟨.leftSS, 5⟩ ∧ 3 = r.2.1.1.ttnp) ∧ r.1.1.T = 1 ∧
    (r.1.1.right.x.state.p = 0 ∧ r.1.1.right.x.state.v = 0 ∧ r.1.1.right.x.state.a = 0) ∧
    (r.1.1.right.y.state.p = 0 ∧ r.1.1.right.y.state.v = 0 ∧ r.1.1.right.y.state.a = 0) ∧
    0 < r.2.2.1.right.x.state.p ∧ 0 < r.2.2.1.right.y.state.p)) pathRun = true := by
  decide +kernel

/-- The hypotheses of `C74_path` are met by two cycles of a flight, with a footstep that moves. -/
example : ∃ a : ℕ → Sup ℚ × Vec ℚ, Reach (0 ≤ ·) CanStop (a 0) ∧ (∀ i < 2, Cycle 1 (a i) (a (i + 1))) ∧
    (4 : ℚ) < (⟨.leftSS, 5⟩ : Phase ℚ).duration - (a 0).1.T + EPS ∧
    (∀ i < 2, Running (a i).1 ⟨.leftSS, 5⟩ (4 - ((List.range i).map fun _ => 1).sum)) ∧
    ((List.range 2).map fun _ => (1 : ℚ)).sum ≤ 4 ∧
    (Spec.flying ⟨.leftSS, 5⟩ (a 0).1).x.state = ⟨0, 0, 0⟩ ∧ (Spec.flying ⟨.leftSS, 5⟩ (a 0).1).y.state = ⟨0, 0, 0⟩ ∧
    0 < (Spec.flying ⟨.leftSS, 5⟩ (a 2).1).x.state.p := by
  obtain ⟨r, h1, h2⟩ := okAnd_true path_checks
  obtain ⟨k1, k2, k3, k4, k5, k6, -⟩ := of_decide_eq_true h2
  unfold pathRun at h1
  obtain ⟨a, e1, h1⟩ := bind_eq_ok.1 h1
  obtain ⟨b, e2, h1⟩ := bind_eq_ok.1 h1
  obtain ⟨c, e3, h1⟩ := bind_eq_ok.1 h1
  obtain rfl := Except.ok.inj h1
  dsimp only at k1 k2 k3 k4 k5 k6
  have hre := ((swingWalk_ok e1).reach (swingStart_ready (by norm_num)).1).1
  refine ⟨fun i => if i = 0 then a else if i = 1 then b else c, ?_, ?_, ?_, ?_, ?_, ?_, ?_, ?_⟩
  · exact hre.mono (fun (x : ℚ) (hx : x = 1) => by rw [hx]; norm_num) (fun _ _ h => h)
  · intro i hi
    obtain rfl | rfl : i = 0 ∨ i = 1 := by omega
    · exact cycleOf_ok e2
    · exact cycleOf_ok e3
  · simp only [if_true, k3]; norm_num [EPS]
  · intro i hi
    obtain rfl | rfl : i = 0 ∨ i = 1 := by omega
    · exact Or.inl ⟨k1.1, k1.2.1, by simpa using k1.2.2⟩
    · exact Or.inl ⟨k2.1, k2.2.1, by
        simp only [List.range_one, List.map_cons, List.map_nil, List.sum_cons, List.sum_nil]
        rw [if_neg one_ne_zero, if_pos trivial, ← k2.2.2]; norm_num⟩
  · norm_num [List.range_succ]
  · simp only [Spec.flying, if_true]
    obtain ⟨q1, q2, q3⟩ := k4
    cases hq : a.1.right.x.state; simp_all
  · simp only [Spec.flying, if_true]
    obtain ⟨q1, q2, q3⟩ := k5
    cases hq : a.1.right.y.state; simp_all
  · simpa [Spec.flying] using k6

/-- Seven control periods of a flight of one second. -/
def unevenPeriods : List ℚ := [3 / 5, 2 / 25, 4 / 125, 27 / 625, 459 / 6250, 1071 / 31250, 3213 / 31250]

set_option maxRecDepth 100000 in
theorem uneven_checks : okAnd (fun f => decide (1 < f.state.p))
    (flight 1 FootAxis.init (unevenPeriods.map fun d => (⟨1, 0, 0⟩, d))) = true := by
  decide +kernel

/-- **C74 is violated**: a foot that is replanned seven times towards the same target passes beyond it. -/
theorem C74_violated : ∃ f' : FootAxis ℚ, (∀ d ∈ unevenPeriods, 0 < d) ∧ unevenPeriods.sum ≤ 1 ∧
    FootAxis.init.state = (⟨0, 0, 0⟩ : State3 ℚ) ∧ (FootAxis.init : FootAxis ℚ).factor.size = 12 ∧
    flight 1 FootAxis.init (unevenPeriods.map fun d => (⟨1, 0, 0⟩, d)) = .ok f' ∧ 1 < f'.state.p := by
  obtain ⟨f', h1, h2⟩ := okAnd_true uneven_checks
  exact ⟨f', by simp [unevenPeriods], by norm_num [unevenPeriods], rfl, rfl, h1, of_decide_eq_true h2⟩

set_option maxRecDepth 100000 in
theorem moving_checks : okAnd (fun f => decide (f.state.p ≠ 0))
    (flight 1 FootAxis.init [((⟨1, 0, 0⟩ : State3 ℚ), 1 / 4), (⟨2, 0, 0⟩, 1 / 4), (⟨-1, 0, 0⟩, 1 / 3)]) = true := by
  decide +kernel

/-- The hypotheses of the weights are met by a flight whose target moves. -/
example : ∃ f' : FootAxis ℚ, flight 1 FootAxis.init [((⟨1, 0, 0⟩ : State3 ℚ), 1 / 4), (⟨2, 0, 0⟩, 1 / 4), (⟨-1, 0, 0⟩, 1 / 3)] =
    .ok f' ∧ f'.state.p ≠ 0 := by
  obtain ⟨f', h1, h2⟩ := okAnd_true moving_checks
  exact ⟨f', h1, of_decide_eq_true h2⟩

end MPC
