import Verif.Lemmas.RoundedHistory
import Verif.Lemmas.FloatRound
import Verif.Props.Timeline
/-!
# C83: with rounded clocks the walk is the same, as long as the rounding errors of one phase stay below `EPSILON`

Statements: `Verif.Spec.Rounded`; model: `Verif.Model.Rounded`.
-/
namespace MPC
open Spec
variable {K : Type} [Field K] [LinearOrder K] [IsStrictOrderedRing K]
variable {c : Clock K} {fb fb' δ : K} {Q : ℕ} {a a' : Sup K × Vec K}

/-- Without rounding the model is that of `Verif.Model.Supervisor`. -/
theorem C83_exact [FloorRing K] (s : Sup K) (v : Vec K) (p : K) : s.updateTimelineR Clock.exact v p = s.updateTimeline v p ∧
    s.updateFeetStatesR Clock.exact v p = s.updateFeetStates v p ∧ s.nbCallsR Clock.exact = s.nbCalls :=
  ⟨rfl, rfl, rfl⟩

/-- Same phases, footsteps and assignments of samples during the whole history, whatever the answers of the two solvers; the
remaining time of the phase differs by at most `2 Q + 1` rounding errors. -/
theorem C83_same (hf : FineClock c fb δ Q a.1) (hfb : |fb' - fb| ≤ δ) (h : Both c fb fb' δ a a') :
    SameWalk a.1 a'.1 ∧ |a'.1.ttnp - a.1.ttnp| ≤ (2 * Q + 1) * δ ∧
    ∀ (k : ℕ) (p p' : Phase K), a.1.timeline[k]? = some p → a'.1.timeline[k]? = some p' → |p'.duration - p.duration| ≤ δ := by
  obtain ⟨n, hn, hT⟩ := hf.grid.T
  obtain ⟨⟨j, k, hP⟩, -, hS⟩ := Both.pair h hfb hf hn hT
  exact ⟨hP.walk hS, hP.remaining ((abs_nonneg _).trans hfb), fun k p p' h1 h2 => (hP.near.tl k p p' h1 h2).2⟩

/-- The control cycles with rounded clocks never fault, whatever the solver answers. -/
theorem C83_progress [Archimedean K] (hf : FineClock c fb δ Q a.1) (hfb : |fb' - fb| ≤ δ) (h : Both c fb fb' δ a a') :
    ∃ s v, a'.1.updateTimelineR c a'.2 fb' = .ok (s, v) ∧
      ∀ w : Vec K, w.size = v.size → ∃ t, CycleR c fb' a' (t, w) := by
  have h0 : 0 < fb := EPS_pos.trans hf.grid.pos
  obtain ⟨n, hn, hT⟩ := hf.grid.T
  obtain ⟨⟨j, k, hP⟩, hv, -⟩ := Both.pair h hfb hf hn hT
  obtain ⟨g, mv, R, hG⟩ := (Both.reach h).ginv h0.le hf.grid
  have hF := FineClock.fine hf hG.hist.N hn hT
  obtain ⟨s, v, h1⟩ := hG.update_ok hf.grid (fb' := fb)
  obtain ⟨s', v', j₁, k₁, g1, gv, gj, gP, -⟩ := updateTimeline_near hF hP hv (p' := fb') h1
  obtain ⟨t, h2, -⟩ := hG.cycle_ok hf.grid h1 ⟨2 * s.M, fun _ => 0⟩ rfl
  obtain ⟨f₁, hf₁, hM⟩ := hG.steps hf.grid h1
  refine ⟨s', v', g1, fun w hw => ?_⟩
  obtain ⟨t', k1, -⟩ := updateFeet_near hF gP gj hf₁ hM (sv' := ⟨2 * s'.M, fun i => w.get (2 * s'.N + i)⟩) rfl hfb h2
  exact ⟨t', s', v', g1, hw, k1⟩

/-- The walk previewed inside of a cycle is the same, the vectors for the solver have the same size, and both supervisors
report the same number of calls before the next sample; the quotient must be rounded like a fraction of an integer. -/
theorem C83_update [FloorRing K] (hf : FineClock c fb δ Q a.1) (hfb : |fb' - fb| ≤ δ) (h : Both c fb fb' δ a a')
    {s s' : Sup K} {v v' : Vec K} (hs : a.1.updateTimeline a.2 fb = .ok (s, v))
    (hs' : a'.1.updateTimelineR c a'.2 fb' = .ok (s', v')) :
    SameWalk s s' ∧ v'.size = v.size ∧
    (4 * EPS ≤ fb → (∀ z : ℕ, z ≤ Q → ∀ x : K, z ≤ x → x ≤ z + 3 / 4 → (z : K) ≤ c.rnd x ∧ c.rnd x < z + 1) →
      ∀ i, s.nbCalls = .ok i → s'.nbCallsR c = .ok i) := by
  have h0 : 0 < fb := EPS_pos.trans hf.grid.pos
  obtain ⟨n, hn, hT⟩ := hf.grid.T
  obtain ⟨⟨j, k, hP⟩, hv, -⟩ := Both.pair h hfb hf hn hT
  obtain ⟨g, mv, R, hG⟩ := (Both.reach h).ginv h0.le hf.grid
  have hF := FineClock.fine hf hG.hist.N hn hT
  obtain ⟨t', w', j₁, k₁, g1, gv, gj, gP, gf, gV⟩ := updateTimeline_near hF hP hv (p' := fb') hs
  rw [hs'] at g1
  cases g1
  obtain ⟨s₁, v₁, f₁, m, hU⟩ := hG.hist.update hs
  exact ⟨gP.walk gV, gv, fun h4 hq i hi => gP.calls hF (hU.preview.same.fb.trans hU.fbe) gf hfb h4 hq hi⟩

/-- The flying foot is moved in the same cycles, and goes up and down in the same cycles: these are the comparisons of
`updateFeetStates`, lines 562 and 590. -/
theorem C83_flight (hf : FineClock c fb δ Q a.1) (hfb : |fb' - fb| ≤ δ) (h : Both c fb fb' δ a a')
    {s s' : Sup K} {v v' : Vec K} (hs : a.1.updateTimeline a.2 fb = .ok (s, v))
    (hs' : a'.1.updateTimelineR c a'.2 fb' = .ok (s', v')) {f f' : Phase K} (h1 : s.timeline[0]? = some f)
    (h1' : s'.timeline[0]? = some f') :
    (s'.ttnp < c.rnd (c.rnd (f'.duration - s'.T) + c.eps) ↔ s.ttnp < f.duration - s.T + EPS) ∧
    (4 * EPS ≤ fb → (s'.ttnp < c.rnd (c.rnd (c.rnd (f'.duration - s'.T) / 2) + c.eps) ↔
      s.ttnp < (f.duration - s.T) / 2 + EPS)) := by
  have h0 : 0 < fb := EPS_pos.trans hf.grid.pos
  obtain ⟨n, hn, hT⟩ := hf.grid.T
  obtain ⟨⟨j, k, hP⟩, hv, -⟩ := Both.pair h hfb hf hn hT
  obtain ⟨g, mv, R, hG⟩ := (Both.reach h).ginv h0.le hf.grid
  have hF := FineClock.fine hf hG.hist.N hn hT
  obtain ⟨t', w', j₁, k₁, g1, -, -, gP, -⟩ := updateTimeline_near hF hP hv (p' := fb') hs
  rw [hs'] at g1
  cases g1
  exact flight_near hF gP h1 h1'

/-! ### `float` and `double` -/

/-- `fl` is the rounding to nearest on `p` bits. -/
theorem C83_rounding (p : ℕ) (x : ℚ) : |fl p x - x| ≤ |x| / 2 ^ p ∧ (∃ m e : ℤ, fl p x = m * 2 ^ e ∧ |m| ≤ 2 ^ p) ∧
    ∀ k : ℤ, |fl p x - x| ≤ |k * 2 ^ (Int.log 2 |x| - p + 1) - x| :=
  ⟨fl_error p x, fl_bits p x, fl_nearest p x⟩

/-- The conditions for `float` (`p = 24`) and `double` (`p = 53`). -/
theorem C83_float {p : ℕ} {fb : ℚ} {a : Sup ℚ × Vec ℚ} (hr : Ready a) (hg : Grid fb a.1) (h2 : 2 * EPS ≤ fb)
    (hs : a.1.stepPeriod ≤ Q * fb) (hd : a.1.dsPeriod ≤ Q * fb) (hT : a.1.T ≤ Q * fb)
    (hp : (3 * Q + 3 * a.1.N + 12) * ((1 + 2 * a.1.N * a.1.T + Q * fb) / 2 ^ p) < (EPS : ℚ)) :
    ∃ δ, FineClock (flClock p) fb δ Q a.1 ∧ |fl p fb - fb| ≤ δ ∧ Both (flClock p) fb (fl p fb) δ a (stored p a.1, a.2) ∧
      (∀ z : ℕ, z ≤ Q → ∀ x : ℚ, z ≤ x → x ≤ z + 3 / 4 → (z : ℚ) ≤ fl p x ∧ fl p x < z + 1) := by
  have hE : (0 : ℚ) < EPS := EPS_pos
  have hE1 : (EPS : ℚ) < 1 := EPS_lt_one
  have h0 : 0 < fb := hE.trans hg.pos
  have hT0 : 0 < a.1.T := lt_of_lt_of_le hE hr.T
  have hs0 : 0 < a.1.stepPeriod := lt_of_lt_of_le hE hr.step
  have hd0 : 0 < a.1.dsPeriod := lt_of_lt_of_le hE hr.ds
  have hNT : (0 : ℚ) ≤ a.1.N * a.1.T := by positivity
  have hQ : (1 : ℚ) ≤ Q := by
    have : 0 < Q := by
      rcases Nat.eq_zero_or_pos Q with rfl | h
      · norm_num at hs; linarith
      · exact h
    exact_mod_cast this
  have hQfb : fb ≤ Q * fb := le_mul_of_one_le_left h0.le hQ
  have hp0 : (0 : ℚ) < 2 ^ p := by positivity
  have key : ∀ x : ℚ, |x| ≤ 1 + 2 * a.1.N * a.1.T + Q * fb → |fl p x - x| ≤ (1 + 2 * a.1.N * a.1.T + Q * fb) / 2 ^ p :=
    fun x hx => (fl_error p x).trans (div_le_div_of_nonneg_right hx hp0.le)
  have key' : ∀ x : ℚ, 0 < x → x ≤ Q * fb → |fl p x - x| ≤ (1 + 2 * a.1.N * a.1.T + Q * fb) / 2 ^ p :=
    fun x h1 h2 => key x (by rw [abs_of_pos h1]; linarith)
  have keyE := key EPS (by rw [abs_of_pos hE]; linarith)
  refine ⟨(1 + 2 * a.1.N * a.1.T + Q * fb) / 2 ^ p, ⟨hg, h2, hs, hd, keyE, key, hp⟩, key' fb h0 hQfb, ?_, ?_⟩
  · refine .start hr ⟨rfl, rfl, rfl, ?_, rfl, rfl, rfl, rfl⟩ ⟨key' _ hT0 hT, key' _ hs0 hs, key' _ hd0 hd, ?_, ?_⟩ rfl rfl rfl
    · simp [stored]
    · rw [hr.ttnp]
      change |fl p a.1.ttnp - _| ≤ _
      rw [hr.ttnp]; exact key' _ hd0 hd
    · intro k f f' hf hf'
      change (a.1.timeline.map fun f => (⟨f.type, fl p f.duration⟩ : Phase ℚ))[k]? = _ at hf'
      rw [List.getElem?_map, hf] at hf'
      cases hf'
      rw [hr.timeline] at hf
      cases k with
      | zero => cases hf; exact key' _ hd0 hd
      | succ k => simp at hf
  · intro z hz x h1 h3
    refine fl_quotient z ?_ h1 h3
    have hzQ : (z : ℚ) ≤ Q := by exact_mod_cast hz
    have h5 : (3 * Q + 3 * a.1.N + 12 : ℚ) * (1 / 2 ^ p) ≤
        (3 * Q + 3 * a.1.N + 12) * ((1 + 2 * a.1.N * a.1.T + Q * fb) / 2 ^ p) := by
      apply mul_le_mul_of_nonneg_left _ (by positivity)
      exact div_le_div_of_nonneg_right (by linarith) hp0.le
    have h6 := lt_of_le_of_lt h5 hp
    rw [mul_one_div, div_lt_iff₀ hp0] at h6
    have hE3 : (EPS : ℚ) = 1 / 10000 := rfl
    have hN0 : (0 : ℚ) ≤ a.1.N := by positivity
    rw [hE3] at h6
    linarith

/-- `float`, 16 samples of 0.1 s, steps and double supports of 0.8 s, control periods of 20 ms. -/
example : ∃ δ, FineClock (flClock 24) (1 / 50) δ 40 (demo 16 (1 / 10) (8 / 10) (8 / 10) 1).1 ∧
    Both (flClock 24) (1 / 50) (fl 24 (1 / 50)) δ (demo 16 (1 / 10) (8 / 10) (8 / 10) 1)
      (stored 24 (demo 16 (1 / 10) (8 / 10) (8 / 10) 1).1, (demo 16 (1 / 10) (8 / 10) (8 / 10) 1).2) := by
  obtain ⟨δ, h1, -, h2, -⟩ := C83_float (p := 24) (Q := 40) (fb := 1 / 50)
    (a := demo 16 (1 / 10) (8 / 10) (8 / 10) 1) (demo_ready 1 (by norm_num) (by norm_num [EPS]) (by norm_num [EPS])
    (by norm_num [EPS])) ⟨by norm_num [EPS], ⟨5, by norm_num [demo]⟩, ⟨40, by norm_num [demo]⟩,
      ⟨40, by norm_num [demo]⟩, by norm_num [demo]⟩ (by norm_num [EPS]) (by norm_num [demo]) (by norm_num [demo])
    (by norm_num [demo]) (by norm_num [demo, EPS])
  exact ⟨δ, h1, h2⟩

/-- `double`, phases of 5 s and control periods of 1 ms. -/
example : ∃ δ, FineClock (flClock 53) (1 / 1000) δ 5000 (demo 16 (4 / 10) 5 5 1).1 ∧
    Both (flClock 53) (1 / 1000) (fl 53 (1 / 1000)) δ (demo 16 (4 / 10) 5 5 1)
      (stored 53 (demo 16 (4 / 10) 5 5 1).1, (demo 16 (4 / 10) 5 5 1).2) := by
  obtain ⟨δ, h1, -, h2, -⟩ := C83_float (p := 53) (Q := 5000) (fb := 1 / 1000)
    (a := demo 16 (4 / 10) 5 5 1) (demo_ready 1 (by norm_num) (by norm_num [EPS]) (by norm_num [EPS])
    (by norm_num [EPS])) ⟨by norm_num [EPS], ⟨400, by norm_num [demo]⟩, ⟨5000, by norm_num [demo]⟩,
      ⟨5000, by norm_num [demo]⟩, by norm_num [demo]⟩ (by norm_num [EPS]) (by norm_num [demo]) (by norm_num [demo])
    (by norm_num [demo]) (by norm_num [demo, EPS])
  exact ⟨δ, h1, h2⟩

/-! ### Longer phases -/

/-- What a cycle does to the timer of a phase that is not over. -/
theorem C83_timer {p : K} {a b : Sup K × Vec K} (h : CycleR c p a b) (ht : c.eps ≤ a.1.ttnp) :
    b.1.ttnp = c.rnd (a.1.ttnp - p) := by
  obtain ⟨s, v, h1, -, h3⟩ := h
  rw [Sup.updateFeetR_ttnp h3, Sup.updateTimelineR_ttnp h1 ht]

/-- A phase of 5 s with control periods of 1 ms and `float`: after 5000 cycles `EPSILON` or more is left, so that the phase
lasts one cycle more. -/
theorem C83_drift : (flClock 24).eps ≤
    (fun t => (flClock 24).rnd (t - (flClock 24).rnd (1 / 1000)))^[5000] ((flClock 24).rnd 5) := by
  obtain ⟨Z, h1, h2⟩ : ∃ Z, runNat 5000 (5 * 2 ^ 33) = some Z ∧ 13743895 < Z * 16 := by
    refine ⟨(runNat 5000 (5 * 2 ^ 33)).get (by decide +kernel), by simp, by decide +kernel⟩
  change fl 24 EPS ≤ (fun t => fl 24 (t - fl 24 (1 / 1000)))^[5000] (fl 24 5)
  rw [fl_five, run_nat h1, fl_eps]
  have : (13743895 : ℚ) < Z * 16 := by exact_mod_cast h2
  rw [div_le_div_iff₀ (by positivity) (by positivity)]
  linarith

/-- The loop of lines 453-456 never ends when a sampling period is lost in the remaining time. -/
theorem C83_stuck {T t : K} (h1 : c.rnd (T + c.eps) < t) (h2 : c.rnd (t - T) = t) :
    timeToSampleR c T t = .error .nonTermination := by
  unfold timeToSampleR
  rw [whileLoop_eq]
  unfold whileSpec
  rw [dif_neg]
  rintro ⟨n, hn⟩
  apply hn
  clear hn
  induction n with
  | zero => rfl
  | succ n ih => unfold whileFuel; rw [if_pos h1, ok_bind, h2]; exact ih

/-- `float`: 2 ^ 25 s with a sampling period of 1 s. -/
example : timeToSampleR (flClock 24) 1 (2 ^ 25) = .error .nonTermination := by
  refine C83_stuck ?_ ?_
  · have h := fl_error 24 (1 + fl 24 EPS)
    have h2 := fl_error 24 EPS
    change fl 24 (1 + fl 24 EPS) < 2 ^ 25
    rw [fl_eps] at *
    rw [abs_le, abs_of_nonneg (by norm_num)] at h
    norm_num at h ⊢
    linarith [h.2]
  · change fl 24 (2 ^ 25 - 1) = 2 ^ 25
    unfold fl
    rw [if_neg (by norm_num), log_eq (e := 24) (by norm_num) (by norm_num)]
    unfold roundEven
    have hf : ⌊((2 : ℚ) ^ 25 - 1) / 2 ^ ((24 : ℤ) - (24 : ℕ) + 1)⌋ = 16777215 := by
      rw [Int.floor_eq_iff]; norm_num
    dsimp only
    rw [hf]
    norm_num

end MPC
