import Verif.Lemmas.RoundedLanding
import Verif.Props.Rounded
/-!
# C85: with rounded clocks a foot misses its footstep by the cube of the relative error of the clock

Statements: `Verif.Spec.Rounded`; model: `Verif.Model.Rounded`.
-/
namespace MPC
open Spec
variable {K : Type} [Field K] [LinearOrder K] [IsStrictOrderedRing K]
variable {c : Clock K} {fb fb' δ : K} {Q : ℕ} {a a' : Sup K × Vec K}

/-- In the cycle that ends a single support, whatever the answers of the solver before, the flying foot lands on the footstep
given by the solver up to the cube of `ρ`, which is at most `3 Q δ / fb`. -/
theorem C85_landing (hf : FineClock c fb δ Q a.1) (hfb : |fb' - fb| ≤ δ) (h : Both c fb fb' δ a a')
    {s s' : Sup K} {v v' : Vec K} (hs : a.1.updateTimeline a.2 fb = .ok (s, v))
    (hs' : a'.1.updateTimelineR c a'.2 fb' = .ok (s', v')) {f : Phase K} (h1 : s.timeline[0]? = some f) (hlast : s.ttnp = fb)
    (hfly : fb < f.duration - s.T + EPS) (h4 : 4 * EPS ≤ fb) (hhalf : fb < (f.duration - s.T) / 2 + EPS) {w : Vec K}
    {t : Sup K} (ht : s'.updateFeetStatesR c w fb' = .ok t) :
    ∃ ρ, |ρ| ≤ 3 * Q * δ / fb ∧
      (f.type = .leftSS → FootLands s'.right t.right (w.get 0) (w.get s.M) s'.ttnp ρ) ∧
      (f.type = .rightSS → FootLands s'.left t.left (w.get 0) (w.get s.M) s'.ttnp ρ) := by
  have h0 : 0 < fb := EPS_pos.trans hf.grid.pos
  obtain ⟨n, hn, hT⟩ := hf.grid.T
  obtain ⟨⟨j, k, hP⟩, hv, -⟩ := Both.pair h hfb hf hn hT
  obtain ⟨g, mv, R, hG⟩ := (Both.reach h).ginv h0.le hf.grid
  have hF := FineClock.fine hf hG.hist.N hn hT
  obtain ⟨t', w', j₁, k₁, g1, -, -, gP, -⟩ := updateTimeline_near hF hP hv (p' := fb') hs
  rw [hs'] at g1
  cases g1
  obtain ⟨f', h1', hty, -⟩ := gP.near.get h1
  obtain ⟨e1, e2⟩ := flight_near hF gP h1 h1'
  obtain ⟨k1, k2, k3⟩ := gP.last hF hlast hfb
  obtain ⟨r1, r2⟩ := updateFeetR_lands h1' gP.near.facL gP.near.facR k1 k2 (e1.2 (by rw [hlast]; exact hfly))
    ((e2 h4).2 (by rw [hlast]; exact hhalf)) ht
  rw [hty, gP.near.M] at r1 r2
  exact ⟨_, k3, r1, r2⟩

/-- The distance to the footstep at landing. -/
theorem C85_bound {s s' : State3 K} {g D ρ η m : K} (h : Lands s s' g D ρ) (hρ : |ρ| ≤ η)
    (hm : |9 / 2 * (g - s.p) - 3 / 2 * (D * s.v) - 1 / 6 * (D * D * s.a)| ≤ m) : |g - s'.p| ≤ m * η ^ 3 := by
  rw [h.pos, abs_mul, abs_pow]
  exact mul_le_mul hm (pow_le_pow_left₀ (abs_nonneg _) hρ 3) (by positivity) ((abs_nonneg _).trans hm)

/-- With exact clocks the foot lands on its footstep and stands still. -/
theorem C85_exact {s s' : State3 K} {g D : K} (hD : D ≠ 0) (h : Lands s s' g D 0) : s' = ⟨g, 0, 0⟩ := by
  have h1 := h.pos
  have h2 := h.vel
  have h3 := h.acc
  have e1 : s'.p = g := by rw [zero_pow (by norm_num), mul_zero] at h1; linarith
  have e2 : s'.v = 0 := by
    rw [zero_pow (by norm_num), mul_zero] at h2; exact (mul_eq_zero.1 h2).resolve_left hD
  have e3 : s'.a = 0 := by
    rw [mul_zero, neg_zero] at h3; exact (mul_eq_zero.1 h3).resolve_left (mul_ne_zero hD hD)
  obtain ⟨p, v, a⟩ := s'
  simp only at e1 e2 e3
  rw [e1, e2, e3]

/-- The bound of `C85_landing` for `float` (`p = 24`) and `double` (`p = 53`). -/
theorem C85_float {p : ℕ} {fb : ℚ} {s : Sup ℚ} (hg : Grid fb s) (h2 : 2 * EPS ≤ fb) (hs : s.stepPeriod ≤ Q * fb)
    (hd : s.dsPeriod ≤ Q * fb) (hp : (3 * Q + 3 * s.N + 12) * ((1 + 2 * s.N * s.T + Q * fb) / 2 ^ p) < (EPS : ℚ)) :
    FineClock (flClock p) fb ((1 + 2 * s.N * s.T + Q * fb) / 2 ^ p) Q s ∧
    |fl p fb - fb| ≤ (1 + 2 * s.N * s.T + Q * fb) / 2 ^ p := by
  have hE : (0 : ℚ) < EPS := EPS_pos
  have hE1 : (EPS : ℚ) < 1 := EPS_lt_one
  have h0 : 0 < fb := hE.trans hg.pos
  obtain ⟨n, hn, hT⟩ := hg.T
  obtain ⟨q, hq, hS⟩ := hg.step
  have hNT : (0 : ℚ) ≤ s.N * s.T := by rw [hT]; positivity
  have h1 : fb ≤ s.stepPeriod := by
    rw [hS]; exact le_mul_of_one_le_left h0.le (by exact_mod_cast hq)
  have key : ∀ x : ℚ, |x| ≤ 1 + 2 * s.N * s.T + Q * fb → |fl p x - x| ≤ (1 + 2 * s.N * s.T + Q * fb) / 2 ^ p :=
    fun x hx => (fl_error p x).trans (div_le_div_of_nonneg_right hx (by positivity))
  exact ⟨⟨hg, h2, hs, hd, key _ (by rw [abs_of_pos hE]; linarith), key, hp⟩, key _ (by rw [abs_of_pos h0]; linarith)⟩

/-- `float`, 16 samples of 0.1 s, steps and double supports of 0.8 s, control periods of 20 ms: `ρ` is at most 0.0018, so that
the foot misses its footstep by less than the coefficient times 10 ^ (-8). -/
example : (3 * (40 : ℚ) * ((1 + 2 * (16 : ℕ) * (1 / 10) + 40 * (1 / 50)) / 2 ^ 24) / (1 / 50)) ^ 3 < 1 / 10 ^ 8 := by norm_num

/-! ### A foot that lands

Two samples of 1 s, steps of 2 s, an initial double support of 1 s, control periods of 0.5 s for the exact supervisor and of
0.5000001 s for the other one. -/

/-- A cycle where the solver answers 1. -/
noncomputable def ones (fb : ℚ) (a : Sup ℚ × Vec ℚ) : Res (Sup ℚ × Vec ℚ) := do
  let r ← a.1.updateTimeline a.2 fb
  let t ← r.1.updateFeetStates ⟨2 * r.1.M, fun _ => 1⟩ fb
  pure (t, ⟨r.2.size, fun _ => 1⟩)

theorem ones_cycle {fb : ℚ} {a b : Sup ℚ × Vec ℚ} (h : ones fb a = .ok b) : Cycle fb a b := by
  unfold ones at h
  obtain ⟨r, h1, h⟩ := bind_eq_ok.1 h
  obtain ⟨t, h2, h⟩ := bind_eq_ok.1 h
  cases h
  exact ⟨r.1, r.2, h1, rfl, h2⟩

noncomputable def onesRun (fb : ℚ) : ℕ → Sup ℚ × Vec ℚ → Res (Sup ℚ × Vec ℚ)
  | 0, a => .ok a
  | n + 1, a => onesRun fb n a >>= ones fb

theorem onesRun_both {fb fb' δ : ℚ} {a a' : Sup ℚ × Vec ℚ} (h : Both Clock.exact fb fb' δ a a') :
    ∀ (n : ℕ) (b b' : Sup ℚ × Vec ℚ), onesRun fb n a = .ok b → onesRun fb' n a' = .ok b' → Both Clock.exact fb fb' δ b b'
  | 0, _, _, h1, h2 => by cases h1; cases h2; exact h
  | n + 1, b, b', h1, h2 => by
    obtain ⟨d, e1, e2⟩ := bind_eq_ok.1 h1
    obtain ⟨d', e1', e2'⟩ := bind_eq_ok.1 h2
    exact .cycle (onesRun_both h n d d' e1 e1') (ones_cycle e2) (ones_cycle e2')

/-- The supervisor that walks. -/
def walker : Sup ℚ × Vec ℚ := ((demo 2 1 2 1 1).1.setMove true, (demo 2 1 2 1 1).2)

theorem walker_both : Both Clock.exact (1 / 2) (1 / 2 + 1 / 10 ^ 7) (1 / 10 ^ 7) walker walker := by
  have hr := demo_ready (N := 2) (T := 1) (p := 2) (d := 1) 1 (by norm_num) (by norm_num [EPS]) (by norm_num [EPS])
    (by norm_num [EPS])
  exact .setMove (.start hr ⟨rfl, rfl, rfl, rfl, rfl, rfl, rfl, rfl⟩ ⟨by simp, by simp, by simp, by simp, fun k p p' h h' => by
    rw [h] at h'; cases h'; simp⟩ rfl rfl rfl) (Or.inl rfl)

/-- Everything that is computed in the last cycle of the first flight. -/
theorem walker_lands : okAnd (fun a => okAnd (fun a' => okAnd (fun r => okAnd (fun r' =>
      decide (r.1.ttnp = 1 / 2 ∧ r.1.timeline[0]?.map (fun f => (f.type, f.duration)) = some (.leftSS, 2) ∧ r.1.T = 1 ∧
        a.1.N = 2 ∧ a.1.T = 1 ∧ a.1.stepPeriod = 2 ∧ a.1.dsPeriod = 1) &&
      okAnd (fun t => decide (t.right.x.state.p ≠ 1 ∧ |t.right.x.state.p - 1| < 1 / 10 ^ 9))
        (r'.1.updateFeetStates ⟨2 * r'.1.M, fun _ => 1⟩ (1 / 2 + 1 / 10 ^ 7)))
      (a'.1.updateTimeline a'.2 (1 / 2 + 1 / 10 ^ 7))) (a.1.updateTimeline a.2 (1 / 2)))
    (onesRun (1 / 2 + 1 / 10 ^ 7) 5 walker)) (onesRun (1 / 2) 5 walker) = true := by decide +kernel

/-- The theorem applies: the right foot lands near (1, 1), but not on it. -/
example : ∃ (s' t : Sup ℚ) (ρ : ℚ), |ρ| ≤ 3 * (4 : ℕ) * (1 / 10 ^ 7) / (1 / 2) ∧
    FootLands s'.right t.right 1 1 s'.ttnp ρ ∧ t.right.x.state.p ≠ 1 := by
  obtain ⟨a, ha, h⟩ := okAnd_true walker_lands
  obtain ⟨a', ha', h⟩ := okAnd_true h
  obtain ⟨⟨s, v⟩, hs, h⟩ := okAnd_true h
  obtain ⟨⟨s', v'⟩, hs', h⟩ := okAnd_true h
  rw [Bool.and_eq_true, decide_eq_true_iff] at h
  obtain ⟨⟨k1, k2, k3, k4, k5, k6, k7⟩, h⟩ := h
  obtain ⟨t, ht, h⟩ := okAnd_true h
  rw [decide_eq_true_iff] at h
  obtain ⟨f, hf, hft⟩ := Option.map_eq_some_iff.1 k2
  rw [Prod.mk.injEq] at hft
  have hF : FineClock Clock.exact (1 / 2 : ℚ) (1 / 10 ^ 7) 4 a.1 :=
    ⟨⟨by norm_num [EPS], ⟨2, by norm_num, by rw [k5]; norm_num⟩, ⟨4, by norm_num, by rw [k6]; norm_num⟩,
      ⟨2, by norm_num, by rw [k7]; norm_num⟩, by rw [k4, k5, k6]; norm_num⟩, by norm_num [EPS], by rw [k6]; norm_num,
      by rw [k7]; norm_num, by norm_num [Clock.exact], fun x _ => by norm_num [Clock.exact], by rw [k4]; norm_num [EPS]⟩
  have hB := onesRun_both walker_both 5 a a' ha ha'
  obtain ⟨ρ, hρ, h1, -⟩ := C85_landing hF (by norm_num) hB hs hs' hf k1 (by rw [hft.2, k3]; norm_num [EPS])
    (by norm_num [EPS]) (by rw [hft.2, k3]; norm_num [EPS]) ht
  exact ⟨s', t, ρ, hρ, h1 hft.1, h.1⟩

end MPC
