import Verif.Spec.ZebOutside
import Verif.Props.ZebEvery

/-!
# C98: whether a CoM constraint that leaves room changes where the CoM of a wheeled robot settles

The code keeps the reflection of the CoM in the polygon (C46). Hence the CoM does not settle at points of the polygon whose reflection is
outside of it. For polygons with central symmetry the constraint changes nothing.
-/

set_option linter.unusedSectionVars false
namespace MPC
open Finset Filter Topology

variable {fb : ℝ} {s : Spec.ZebSettings ℝ}

/-- A solver that finds solutions, and answers `f` when there is none. -/
theorem free_oracle (f : ℕ → ℝ) : ∃ o : Oracle ℝ, Spec.FindsSolution o ∧ ∀ n qp it, (¬ ∃ d, Spec.IsSolution qp d) → (o n qp it).2 = f := by
  classical
  refine ⟨fun _ qp _ => if h : ∃ d, Spec.IsSolution qp d then (true, h.choose) else (false, f), ?_, ?_⟩
  · intro n qp it h
    simp only [h, dite_true]
    exact h.choose_spec
  · intro n qp it h
    simp only [h, dite_false]

/-- A point near one outside of a polygon is outside of it. -/
theorem outside_open {p : Vec (Pt ℝ)} {q : Pt ℝ} (h : ¬ Spec.InPolygon p q) :
    ∃ r > 0, ∀ q' : Pt ℝ, |q'.x - q.x| ≤ r → |q'.y - q.y| ≤ r → ¬ Spec.InPolygon p q' := by
  unfold Spec.InPolygon at h
  push Not at h
  obtain ⟨i, hi, h⟩ := h
  unfold Spec.InnerSide at h
  set a := p.get i
  set b := p.get ((i + 1) % p.size)
  rw [not_le] at h
  set g := (b.y - a.y) * (q.x - a.x) - (b.x - a.x) * (q.y - a.y) with hg
  set c := 1 + |b.y - a.y| + |b.x - a.x| with hc
  have c0 : 0 < c := by positivity
  refine ⟨g / (2 * c), by positivity, fun q' hx hy hin => ?_⟩
  have h1 : (b.y - a.y) * (q'.x - a.x) - (b.x - a.x) * (q'.y - a.y) ≤ 0 := hin i hi
  have h2 : |(b.y - a.y) * (q'.x - q.x)| ≤ |b.y - a.y| * (g / (2 * c)) := by
    rw [abs_mul]; exact mul_le_mul_of_nonneg_left hx (abs_nonneg _)
  have h3 : |(b.x - a.x) * (q'.y - q.y)| ≤ |b.x - a.x| * (g / (2 * c)) := by
    rw [abs_mul]; exact mul_le_mul_of_nonneg_left hy (abs_nonneg _)
  have h4 : c * (g / (2 * c)) = g / 2 := by field_simp
  have h5 : 0 < g / (2 * c) := by positivity
  have h6 : g / (2 * c) + |b.y - a.y| * (g / (2 * c)) + |b.x - a.x| * (g / (2 * c)) = g / 2 := by rw [← h4, hc]; ring
  have h7 := (abs_le.1 h2).1
  have h8 := (abs_le.1 h3).2
  have h9 : (b.y - a.y) * (q'.x - a.x) - (b.x - a.x) * (q'.y - a.y) = g + (b.y - a.y) * (q'.x - q.x) - (b.x - a.x) * (q'.y - q.y) := by
    rw [hg]; ring
  linarith

/-- One sample with a small jerk leads to a position near the start. -/
theorem near_sample {T e fb px j : ℝ} {x : State3 ℝ} (hT : 0 < T) (hfb : 0 < fb) (hn : Spec.NearRest px e x) (hj : |j| * fb ≤ 2 * e) :
    |x.p + x.v * T + x.a * T ^ 2 / 2 + j * T ^ 3 / 6 - px| ≤ e * (1 + T + T ^ 2 / 2 + T ^ 3 / (3 * fb)) := by
  obtain ⟨h1, h2, h3⟩ := hn
  have h6 : |j| ≤ 2 * e / fb := by rw [le_div_iff₀ hfb]; exact hj
  have q1 : |x.v * T| ≤ e * T := by rw [abs_mul, abs_of_pos hT]; exact mul_le_mul_of_nonneg_right h2 hT.le
  have q2 : |x.a * T ^ 2 / 2| ≤ e * (T ^ 2 / 2) := by
    rw [mul_div_assoc, abs_mul, abs_of_pos (show 0 < T ^ 2 / 2 by positivity)]
    exact mul_le_mul_of_nonneg_right h3 (by positivity)
  have q3 : |j * T ^ 3 / 6| ≤ e * (T ^ 3 / (3 * fb)) := by
    rw [mul_div_assoc, abs_mul, abs_of_pos (show 0 < T ^ 3 / 6 by positivity)]
    have := mul_le_mul_of_nonneg_right h6 (show 0 ≤ T ^ 3 / 6 by positivity)
    have q : 2 * e / fb * (T ^ 3 / 6) = e * (T ^ 3 / (3 * fb)) := by field_simp; ring
    linarith
  rw [abs_le] at h1 q1 q2 q3 ⊢
  constructor <;> nlinarith

/-- **C98 (outside).** Whatever the weights, the horizon, the period of the calls and the other constraints, a CoM with the CoM constraint does
not settle at a point above the base whose reflection is outside of the polygon. -/
theorem C98_outside {shifts : Set (ℝ × ℝ)} {k : ℝ × ℝ} {px py : ℝ} (hT : EPS < s.period) (hr : s.RefsCurrent) (hc : s.config.com = true)
    (hout : ¬ Spec.InPolygon s.comPolygon (Spec.Pt.reflect ⟨px, py⟩)) (hk : k ∈ shifts) (hcalls : Spec.Configured s k) (hfb : 0 < fb) :
    ¬ Spec.ZebSettlesEvery fb s shifts Spec.ZebState.between px py := by
  intro hset
  have hT0 : 0 < s.period := lt_trans (by norm_num [EPS]) hT
  obtain ⟨r, hr0, hopen⟩ := outside_open hout
  set c := 1 + s.period + s.period ^ 2 / 2 + s.period ^ 3 / (3 * fb) with hcd
  have c0 : 0 < c := by positivity
  set e := r / c with he
  have e0 : 0 < e := by positivity
  have ec : e * c = r := by rw [he]; field_simp
  obtain ⟨d, hd, h⟩ := hset e e0
  obtain ⟨o, ho, hone⟩ := free_oracle fun i => if i = 0 then 1 else 0
  obtain ⟨cx, cy, cs0, hl, hns, hs0, hk0⟩ := hcalls
  set tr : Trig ℝ := ⟨fun _ => 0, fun _ => 1⟩
  obtain ⟨w0, hw0⟩ := C54_no_fault_partial o tr cx cy cs0 hl (by
    clear hl hs0 hk0
    generalize Spec.ZebSettings.init cx cy = s0
    induction cs0 generalizing s0 with
    | nil => trivial
    | cons c cs ih =>
      exact ⟨fun fb e => absurd (e ▸ List.mem_cons_self) (hns fb), ih (fun fb hm => hns fb (List.mem_cons_of_mem _ hm)) _⟩)
  obtain ⟨w, hrun, hst⟩ := zPlace_run o tr w0 ⟨0, 0, 0⟩ ⟨0, 0, 0⟩ ⟨px, 0, 0⟩ ⟨py, 0, 0⟩
  set cs := cs0 ++ zPlaceCalls ⟨0, 0, 0⟩ ⟨0, 0, 0⟩ ⟨px, 0, 0⟩ ⟨py, 0, 0⟩ with hcs
  have hw : ZebReaches o tr cx cy cs w := (zReaches_append hw0).2 hrun
  have hset0 : zebSettingsOf cx cy cs = s := by rw [← hs0, hcs]; unfold zebSettingsOf; rw [after_append]; rfl
  have hk1 : (Spec.ZebSettings.init cx cy).usedShift (0, 0) cs ∈ shifts := by rw [hcs, usedShift_append, hk0]; exact hk
  have hX : ∀ i, w.X.get i = 0 := zReaches_X hw (by
    intro fb hm
    rcases List.mem_append.1 hm with hm | hm
    · exact hns fb hm
    · simp [zPlaceCalls] at hm)
  obtain ⟨W, hW, hn, -⟩ := h o tr cx cy cs w ho hw hset0 hk1 (fun i _ => by rw [hX, abs_zero]; exact hd.le)
    (by rw [hst]; simp [Spec.ZebState.between, Spec.NearRest, hd.le]) (by rw [hst]; simp [Spec.ZebState.between, Spec.NearRest, hd.le])
  have unique : ∀ {cs' : List (ZebCall ℝ)} {w1 w2 : Zeb ℝ}, ZebReaches o tr cx cy cs' w1 → ZebReaches o tr cx cy cs' w2 → w1 = w2 := by
    intro cs' w1 w2 e1 e2
    unfold ZebReaches at e1 e2
    rw [e1] at e2
    exact Except.ok.inj e2
  have set : ∀ n, zebSettingsOf cx cy (cs ++ List.replicate n (.solve fb)) = s := by
    intro n
    induction n with
    | zero => simpa using hset0
    | succ n ih => rw [← replicate_snoc, zebSettingsOf_solve]; exact ih
  have small : ∀ {a j j' b : ℝ}, |a - b| ≤ e → |(a + j * fb) - (b + j' * fb)| ≤ e → |j - j'| * fb ≤ 2 * e := by
    intro a j j' b h1 h2
    have h3 := abs_sub ((a + j * fb) - (b + j' * fb)) (a - b)
    rw [show (a + j * fb) - (b + j' * fb) - (a - b) = (j - j') * fb by ring, abs_mul, abs_of_pos hfb] at h3
    linarith
  have one : ∀ n, (W (n + 1)).X.get 0 - (W (n + 1)).X.get (2 * s.nbSamples) = (W n).X.get 0 - (W n).X.get (2 * s.nbSamples) + 1 ∧
      |(W (n + 1)).X.get 0 - (W (n + 1)).X.get (2 * s.nbSamples)| * fb ≤ 2 * e := by
    intro n
    have hin := zReachable_inv (hW n)
    have hr' : (zebSettingsOf cx cy (cs ++ List.replicate n (.solve fb))).RefsCurrent := by rw [set n]; exact hr
    obtain ⟨qp, hgv, hadv⟩ := C66_advance (hW n) hr' hfb
    obtain ⟨qp1, hg1, hfeas⟩ := C57_constraints (hW n) hr' hfb
    obtain rfl := hgv.unique hin hg1
    have hN : 0 < s.nbSamples := by rw [← set n]; exact hin.part.user.model.N_pos
    obtain ⟨b, w', e1, -, -⟩ := hgv o
    obtain ⟨-, hX', hst', -⟩ := hadv o b w' e1
    obtain rfl : W (n + 1) = w' := by
      refine unique (hW (n + 1)) ?_
      rw [← replicate_snoc, zReaches_append (hW n)]
      simp [Zeb.run, Zeb.step, e1, ok_bind]
    rw [set n] at hX' hst'
    simp only [Spec.jerkCX, Spec.jerkCY, Spec.jerkBX, Spec.jerkBY, add_zero] at hst'
    have jx := small (hn n).1.2.2 (by have := (hn (n + 1)).1.2.2; rw [hst'] at this; exact this)
    have jy := small (hn n).2.2.2 (by have := (hn (n + 1)).2.2.2; rw [hst'] at this; exact this)
    refine ⟨?_, jx⟩
    by_cases hsol : ∃ d, Spec.IsSolution qp d
    · exfalso
      have hall := (hfeas _).1 (ho (W n).solver.calls qp 10000 hsol).1
      rw [set n] at hall
      have hin' : Spec.InPolygon s.comPolygon (Spec.Pt.reflect (s.comRel (W n).state
          (fun i => (W n).X.get i + (o (W n).solver.calls qp 10000).2 i) 0)) := fun i hi => (hall.2.2.1 hc i hi 0 hN).1
      have nx := near_sample hT0 hfb (hn n).1 jx
      have ny := near_sample hT0 hfb (hn n).2 jy
      rw [← hcd, ec] at nx ny
      refine hopen _ ?_ ?_ hin'
      · rw [← abs_neg]
        refine le_of_eq_of_le (congrArg _ ?_) nx
        simp only [Spec.Pt.reflect, Spec.ZebSettings.comRel, Spec.ZebSettings.comRelX, Spec.ZebSettings.comX, Spec.ZebSettings.baseX,
          Spec.jerkTrajectory, Spec.jerkCX, Spec.jerkBX, comFirst_period hT, add_zero, Spec.ZebState.between, Spec.cubic]
        rw [hX' _ (by omega), hX' _ (by omega)]
        ring
      · rw [← abs_neg]
        refine le_of_eq_of_le (congrArg _ ?_) ny
        simp only [Spec.Pt.reflect, Spec.ZebSettings.comRel, Spec.ZebSettings.comRelY, Spec.ZebSettings.comY, Spec.ZebSettings.baseY,
          Spec.jerkTrajectory, Spec.jerkCY, Spec.jerkBY, comFirst_period hT, add_zero, Spec.ZebState.between, Spec.cubic]
        rw [hX' _ (by omega), hX' _ (by omega)]
        ring
    · rw [hX' _ (by omega), hX' _ (by omega), hone _ _ _ hsol]
      have : 2 * s.nbSamples ≠ 0 := by omega
      simp only [if_true, this, if_false]
      ring
  have count : ∀ n : ℕ, (W n).X.get 0 - (W n).X.get (2 * s.nbSamples) = n := by
    intro n
    induction n with
    | zero => rw [unique (hW 0) (by simpa using hw), hX, hX]; simp
    | succ n ih => rw [(one n).1, ih]; push_cast; ring
  obtain ⟨n, hn'⟩ := exists_nat_gt (2 * e / fb)
  have h1 := (one n).2
  rw [count, Nat.abs_cast, ← le_div_iff₀ hfb] at h1
  push_cast at h1
  linarith

/-- **C98 (partial).** With one sample, only CoM centering and jerks weighted, and room around the reference in a polygon with central
symmetry: the CoM settles at its reference with the CoM constraint if and only if it does without. Missing: polygons without central symmetry
(false, `C98_violated`), other weights and longer horizons. -/
theorem C98_symmetric_partial {T wc wj : ℝ} {k : ℝ × ℝ} (hs : (s.comLimited false).Centres T wc wj k) (hc : Spec.Configured s k) (hT : EPS < T)
    (hfb : 0 < fb) (hp : 0 < wc) (hj : 0 < wj) (hsym : Spec.CentrallySymmetric s.comPolygon)
    (hroom : Spec.RoomAround s.comPolygon ⟨s.comRef.get 0 + k.1, s.comRef.get 1 + k.2⟩) :
    Spec.ZebSettlesEvery fb (s.comLimited true) {k} Spec.ZebState.between (s.comRef.get 0 + k.1) (s.comRef.get 1 + k.2) ↔
      Spec.ZebSettlesEvery fb (s.comLimited false) {k} Spec.ZebState.between (s.comRef.get 0 + k.1) (s.comRef.get 1 + k.2) := by
  have conf : ∀ b, Spec.Configured (s.comLimited b) k := by
    intro b
    obtain ⟨cx, cy, cs, hl, hns, h0, hk⟩ := hc
    refine ⟨cx, cy, cs ++ [.setConfig (s.comLimited b).config], ?_, ?_, ?_, ?_⟩
    · clear hns h0 hk
      generalize Spec.ZebSettings.init cx cy = s0 at hl
      induction cs generalizing s0 with
      | nil => exact ⟨trivial, trivial⟩
      | cons c cs ih => exact ⟨hl.1, ih _ hl.2⟩
    · intro fb hm
      rcases List.mem_append.1 hm with hm | hm
      · exact hns fb hm
      · simp at hm
    · unfold zebSettingsOf at h0 ⊢
      rw [after_append, h0]
      rfl
    · rw [usedShift_append, hk]
      rfl
  have hs' : (s.comLimited true).Centres T wc wj k :=
    ⟨⟨hs.samples, hs.period, hs.refs⟩, hs.weights, hs.config, fun _ => by
      obtain ⟨r, hr, h⟩ := hroom
      exact ⟨r, hr, fun p hx hy => (hsym p).1 (h p hx hy)⟩⟩
  exact (C95_centre_iff hs' (conf true) hT hfb hp hj).trans (C95_centre_iff hs (conf false) hT hfb hp hj).symm

/-- The hypotheses of `C98_symmetric_partial` are met, by a square. -/
example : let s : Spec.ZebSettings ℝ := zebSettingsOf 0 0 (zOneCalls ⟨0, 0, 0, 36, 1, 0, 0⟩ ⟨false, false, false, false⟩)
    (s.comLimited false).Centres 1 36 1 (0, 0) ∧ Spec.Configured s (0, 0) ∧ Spec.CentrallySymmetric s.comPolygon ∧
    Spec.RoomAround s.comPolygon ⟨s.comRef.get 0 + 0, s.comRef.get 1 + 0⟩ := by
  have hsym : Spec.CentrallySymmetric zSquare := by
    have key : ∀ X, Spec.InPolygon zSquare X → Spec.InPolygon zSquare (Spec.Pt.reflect X) := by
      intro X h i hi
      have h0 := h 0 (by show 0 < 4; norm_num)
      have h1 := h 1 (by show 1 < 4; norm_num)
      have h2 := h 2 (by show 2 < 4; norm_num)
      have h3 := h 3 (by show 3 < 4; norm_num)
      norm_num [zSquare, Spec.InnerSide] at h0 h1 h2 h3
      have hi : i < 4 := hi
      interval_cases i <;> norm_num [zSquare, Spec.InnerSide, Spec.Pt.reflect] <;> linarith
    intro X
    refine ⟨key X, fun h => ?_⟩
    have := key _ h
    simpa [Spec.Pt.reflect] using this
  refine ⟨⟨⟨rfl, rfl, rfl, rfl, rfl⟩, rfl, ⟨rfl, rfl, rfl⟩, fun h => absurd (show false = true from h) (by decide)⟩,
    zOne_configured (by norm_num), hsym, 1, one_pos, fun p hx hy => ?_⟩
  have e0 : (zebSettingsOf 0 0 (zOneCalls ⟨0, 0, 0, 36, 1, 0, 0⟩ ⟨false, false, false, false⟩) : Spec.ZebSettings ℝ).comRef.get 0 + (0 : ℝ) = 0 := add_zero _
  have e1 : (zebSettingsOf 0 0 (zOneCalls ⟨0, 0, 0, 36, 1, 0, 0⟩ ⟨false, false, false, false⟩) : Spec.ZebSettings ℝ).comRef.get 1 + (0 : ℝ) = 0 := add_zero _
  rw [e0, sub_zero] at hx
  rw [e1, sub_zero] at hy
  exact (hsym p).2 (zSquare_inside hx hy)

/-- A triangle around the origin, wider towards the front, as in `C46_violated`. -/
def zFront : Vec (Pt ℝ) := ⟨3, fun i => if i = 0 then ⟨3, 0⟩ else if i = 1 then ⟨-1, 1⟩ else ⟨-1, -1⟩⟩

/-- Calls for one sample of one second, with the triangle and the CoM reference `(2, 0)`. -/
def zFrontCalls (c : Bool) : List (ZebCall ℝ) :=
  [.setWeightings ⟨0, 0, 0, 36, 1, 0, 0⟩, .setComPolygon zFront, .setComRef ⟨2, fun i => if i = 0 then 2 else 0⟩, .setConfig ⟨false, c, false, false⟩]

/-- **C98 is violated.** There are a convex polygon and a CoM reference with room around it in the polygon such that the CoM settles at
the reference without the CoM constraint, and does not with it. -/
theorem C98_violated : let s : Spec.ZebSettings ℝ := zebSettingsOf 0 0 (zFrontCalls false)
    Spec.Convex s.comPolygon ∧ Spec.RoomAround s.comPolygon ⟨2, 0⟩ ∧ s.comRef.get 0 = 2 ∧ s.comRef.get 1 = 0 ∧
    Spec.ZebSettlesEvery (1 / 10) (s.comLimited false) {(0, 0)} Spec.ZebState.between 2 0 ∧
    ∀ fb > 0, ¬ Spec.ZebSettlesEvery fb (s.comLimited true) {(0, 0)} Spec.ZebState.between 2 0 := by
  intro s
  have hE : (EPS : ℝ) < 1 := by norm_num [EPS]
  have conf : ∀ c, Spec.Configured (zebSettingsOf 0 0 (zFrontCalls c)) (0, 0) := fun c =>
    ⟨0, 0, zFrontCalls c, by
      norm_num [zFrontCalls, zFront, Spec.ZebSettings.Legal, Spec.ZebSettings.Pre, Spec.ZebSettings.apply, Spec.ZebSettings.init],
      by simp [zFrontCalls], rfl, rfl⟩
  refine ⟨?_, ⟨1 / 8, by norm_num, ?_⟩, rfl, rfl, ?_, fun fb hfb => C98_outside hE ⟨rfl, rfl, rfl⟩ rfl ?_ (Set.mem_singleton _) (conf true) hfb⟩
  · intro j hj i hi
    have hi : i < 3 := hi
    have hj : j < 3 := hj
    change Spec.InnerSide (zFront.get i) (zFront.get ((i + 1) % 3)) (zFront.get j)
    interval_cases i <;> interval_cases j <;> norm_num [zFront, Spec.InnerSide]
  · intro q hx hy i hi
    have h1 := abs_le.1 hx
    have h2 := abs_le.1 hy
    simp only [sub_zero] at h2
    have hi : i < 3 := hi
    change Spec.InnerSide (zFront.get i) (zFront.get ((i + 1) % 3)) q
    interval_cases i <;> norm_num [zFront, Spec.InnerSide] <;> linarith
  · have hs : (zebSettingsOf 0 0 (zFrontCalls false) : Spec.ZebSettings ℝ).Centres 1 36 1 (0, 0) :=
      ⟨⟨rfl, rfl, rfl, rfl, rfl⟩, rfl, ⟨rfl, rfl, rfl⟩, fun h => absurd (show false = true from h) (by decide)⟩
    have := (C95_centre_iff hs (conf false) hE (by norm_num : (0 : ℝ) < 1 / 10) (by norm_num) (by norm_num)).2 (by norm_num [Spec.BalancedEvery])
    have e0 : (zebSettingsOf 0 0 (zFrontCalls false) : Spec.ZebSettings ℝ).comRef.get 0 + (0 : ℝ) = 2 := add_zero _
    have e1 : (zebSettingsOf 0 0 (zFrontCalls false) : Spec.ZebSettings ℝ).comRef.get 1 + (0 : ℝ) = 0 := add_zero _
    rwa [e0, e1] at this
  · intro h
    have : Spec.InnerSide (zFront.get 1) (zFront.get 2) (Spec.Pt.reflect ⟨2, 0⟩) := h 1 (by show 1 < 3; norm_num)
    norm_num [zFront, Spec.InnerSide, Spec.Pt.reflect] at this

end MPC
