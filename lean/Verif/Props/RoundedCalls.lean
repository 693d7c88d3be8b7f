import Verif.Lemmas.RoundedRest
import Verif.Props.Rounded
import Verif.Props.Phases
/-!
# C84: with rounded clocks the predictions are those of the right instant, unless the clock drifts by `EPSILON`

In every cycle `HumanoidWalkgen` takes the dynamics number `getNbOfCallsBeforeNextSample() - 1` out of the tables of the
LIP model.
-/
namespace MPC
open Spec
variable {K : Type} [Field K] [LinearOrder K] [IsStrictOrderedRing K] [FloorRing K]
variable {c : Clock K} {fb fb' δ : K} {Q : ℕ} {a a' : Sup K × Vec K}

/-- Without rounding `lipCountR` is the count of `Verif.Model.Lip`. -/
theorem C84_exact {l l' : Lip K} (h : l.computeDynamics = .ok l') :
    lipCountR Clock.exact l.T l.fb = .ok (l'.nbFb : ℤ) := by
  unfold Lip.computeDynamics at h
  unfold lipCountR
  split at h
  · cases h
  · rename_i h0
    split at h
    · cases h
    · rename_i h1
      rw [if_neg h0]
      obtain ⟨l1, e1, h⟩ := bind_eq_ok.1 h
      obtain ⟨l2, e2, h⟩ := bind_eq_ok.1 h
      obtain ⟨v1, e1, e1'⟩ := bind_eq_ok.1 e1
      cases e1'
      obtain ⟨v2, e2, e2'⟩ := bind_eq_ok.1 e2
      cases e2'
      obtain ⟨v3, e3, h⟩ := bind_eq_ok.1 h
      obtain ⟨v4, e4, h⟩ := bind_eq_ok.1 h
      obtain ⟨v5, e5, h⟩ := bind_eq_ok.1 h
      obtain ⟨_, e6, h⟩ := bind_eq_ok.1 h
      cases h
      change Except.ok (truncInt ((l.T + EPS) / l.fb)) = Except.ok _
      congr 1
      change _ = (((truncInt ((l.T + EPS) / l.fb)).toNat : ℕ) : ℤ)
      rw [Int.toNat_of_nonneg (not_lt.1 h1)]

/-- The tables have one entry per control cycle of a sampling period, in spite of the rounding. -/
theorem lipCount_near {T T' : K} {n : ℕ} (hT : T = n * fb) (hT' : |T' - T| ≤ δ) (hfb : |fb' - fb| ≤ δ) (h4 : 4 * EPS ≤ fb)
    (heps : |c.eps - EPS| ≤ δ) (hr : |c.rnd (T' + c.eps) - (T' + c.eps)| ≤ δ) (hs : (n + 4) * δ ≤ EPS)
    (hq : ∀ x : K, n ≤ x → x ≤ n + 3 / 4 → (n : K) ≤ c.rnd x ∧ c.rnd x < n + 1) :
    lipCountR c T' fb' = .ok (n : ℤ) := by
  have hE := EPS_pos (K := K)
  have hδ : 0 ≤ δ := (abs_nonneg _).trans hfb
  have hn0 : (0 : K) ≤ n := by positivity
  have hnδ : (0 : K) ≤ n * δ := by positivity
  rw [add_mul] at hs
  rw [abs_le] at hT' hfb heps hr
  set x := c.rnd (T' + c.eps)
  have hfb'0 : 0 < fb' := by linarith [hfb.1]
  have b1 : (n : K) * fb' ≤ x := by
    have : (n : K) * fb' ≤ n * (fb + δ) := mul_le_mul_of_nonneg_left (by linarith [hfb.2]) hn0
    rw [mul_add] at this
    linarith [hr.1, hT'.1, heps.1]
  have b2 : x ≤ (n + 3 / 4) * fb' := by
    have : (n + 3 / 4 : K) * (fb - δ) ≤ (n + 3 / 4) * fb' := mul_le_mul_of_nonneg_left (by linarith [hfb.1]) (by linarith)
    have e : (n + 3 / 4 : K) * (fb - δ) = n * fb + 3 / 4 * fb - n * δ - 3 / 4 * δ := by ring
    rw [e] at this
    linarith [hr.2, hT'.2, heps.2]
  obtain ⟨q1, q2⟩ := hq (x / fb') (by rw [le_div_iff₀ hfb'0]; exact b1) (by rw [div_le_iff₀ hfb'0]; exact b2)
  unfold lipCountR
  rw [if_neg hfb'0.ne', truncInt_near q1 q2]
  rfl

/-- **C84.** In every cycle the number of calls before the next sample is `i` when `i` control periods are left until the
next sample; the tables have one entry per control period of a sample, so that entry `i - 1` exists. -/
theorem C84_index_partial [Archimedean K] (hf : FineClock c fb δ Q a.1) (hfb : |fb' - fb| ≤ δ) (h : Both c fb fb' δ a a')
    (h4 : 4 * EPS ≤ fb) (hT : a.1.T ≤ Q * fb)
    (hq : ∀ z : ℕ, z ≤ Q → ∀ x : K, z ≤ x → x ≤ z + 3 / 4 → (z : K) ≤ c.rnd x ∧ c.rnd x < z + 1)
    {s s' : Sup K} {v v' : Vec K} (hs : a.1.updateTimeline a.2 fb = .ok (s, v))
    (hs' : a'.1.updateTimelineR c a'.2 fb' = .ok (s', v')) :
    ∃ i j n : ℕ, s'.nbCallsR c = .ok (i : ℤ) ∧ s.ttnp = j * a.1.T + i * fb ∧ 1 ≤ i ∧ i ≤ n ∧ a.1.T = n * fb ∧
      lipCountR c a'.1.T fb' = .ok (n : ℤ) ∧
      ∀ (l : Lip K) (d : Vec (LinearDynamic K)), l.nbFb = n → d.size = n → l.dyn d ((i : ℤ) - 1) = .ok (d.get (i - 1)) := by
  have h0 : 0 < fb := EPS_pos.trans hf.grid.pos
  obtain ⟨n, hn, hTn⟩ := hf.grid.T
  obtain ⟨j, i, hi, hi1, hin, ht⟩ := C34_calls_partial a fb (Both.reach h) hf.grid n hTn s v hs
  have hup := (C83_update hf hfb h hs hs').2.2 h4 hq i hi
  obtain ⟨⟨_, _, hP⟩, -, -⟩ := Both.pair h hfb hf hn hTn
  have hsT : s.T = a.1.T := by
    obtain ⟨f₁, hrun, -, -, hT, -⟩ := Sup.updateTimeline_running hs
    exact hT
  have hnQ : n ≤ Q := by
    rw [hTn] at hT
    exact_mod_cast le_of_mul_le_mul_right hT h0
  have hnQ' : (n : K) ≤ Q := by exact_mod_cast hnQ
  have hδ : 0 ≤ δ := (abs_nonneg _).trans hfb
  have hsm := hf.small
  have hN : (0 : K) ≤ a.1.N := by positivity
  have hQ : (0 : K) ≤ Q := by positivity
  have hT' := hP.near.T
  refine ⟨i, j, n, hup, by rw [ht, hsT], hi1, hin, hTn, ?_, ?_⟩
  · refine lipCount_near hTn hT' hfb h4 hf.eps (hf.rnd _ ?_) ?_ (hq n hnQ)
    · have hE : (EPS : K) < 1 / 10 := by unfold EPS; norm_num
      have e1 := hf.eps
      have hδE : δ < EPS := by
        have : δ ≤ (3 * Q + 3 * a.1.N + 12) * δ := le_mul_of_one_le_left hδ (by linarith)
        linarith
      have hT0 : 0 ≤ a.1.T := by rw [hTn]; positivity
      have hNT : 0 ≤ a.1.N * a.1.T := by positivity
      rw [abs_le] at e1 hT' ⊢
      constructor <;> linarith [e1.1, e1.2, hT'.1, hT'.2]
    · refine le_trans ?_ hsm.le
      exact mul_le_mul_of_nonneg_right (by linarith) hδ
  · intro l d hl hd
    unfold Lip.dyn
    rw [hl]
    simp only [require, requireIndex, bind, Except.bind]
    rw [if_pos (by omega), if_pos (by omega)]
    have : ((i : ℤ) - 1).toNat = i - 1 := by omega
    rw [this]
    unfold Vec.at? requireIndex
    rw [if_pos (by omega)]
    rfl

/-- The conditions of `C84_index_partial` for `float` (`p = 24`) and `double` (`p = 53`): those of `C83_float`. -/
example : ∃ δ, FineClock (flClock 24) (1 / 50) δ 40 (demo 16 (1 / 10) (8 / 10) (8 / 10) 1).1 ∧
    |fl 24 (1 / 50) - 1 / 50| ≤ δ ∧
    Both (flClock 24) (1 / 50) (fl 24 (1 / 50)) δ (demo 16 (1 / 10) (8 / 10) (8 / 10) 1)
      (stored 24 (demo 16 (1 / 10) (8 / 10) (8 / 10) 1).1, (demo 16 (1 / 10) (8 / 10) (8 / 10) 1).2) ∧
    (4 * EPS : ℚ) ≤ 1 / 50 ∧ (demo 16 (1 / 10) (8 / 10) (8 / 10) 1).1.T ≤ (40 : ℕ) * (1 / 50) ∧
    ∀ z : ℕ, z ≤ 40 → ∀ x : ℚ, z ≤ x → x ≤ z + 3 / 4 → (z : ℚ) ≤ (flClock 24).rnd x ∧ (flClock 24).rnd x < z + 1 := by
  obtain ⟨δ, h1, h2, h3, h4⟩ := C83_float (p := 24) (Q := 40) (fb := 1 / 50)
    (a := demo 16 (1 / 10) (8 / 10) (8 / 10) 1)
    (demo_ready 1 (by norm_num) (by norm_num [EPS]) (by norm_num [EPS]) (by norm_num [EPS]))
    ⟨by norm_num [EPS], ⟨5, by norm_num, by norm_num [demo]⟩, ⟨40, by norm_num, by norm_num [demo]⟩,
      ⟨40, by norm_num, by norm_num [demo]⟩, by norm_num [demo]⟩
    (by norm_num [EPS]) (by norm_num [demo]) (by norm_num [demo]) (by norm_num [demo]) (by norm_num [demo, EPS])
  exact ⟨δ, h1, h2, h3, by norm_num [EPS], by norm_num [demo], h4⟩

/-! ### Drift -/

/-- Whatever the tables, the getters read in front of them when no call is left. -/
theorem dyn_before (l : Lip K) (d : Vec (LinearDynamic K)) : l.dyn d (0 - 1) = .error .outOfRange := by
  unfold Lip.dyn
  simp only [require, requireIndex, bind, Except.bind]
  rw [if_pos (by omega), if_neg (by omega)]

/-- `float`, a robot at rest, phases and samples of 5 s, control periods of 1 ms: 5000 cycles are done without a fault, then
the supervisor reports that zero calls are left before the next sample, and `HumanoidWalkgen` reads the dynamics number -1,
in front of the tables. -/
theorem C84_violated : ∃ b : ℕ → Sup ℚ × Vec ℚ, b 0 = demo 1 5 5 5 0 ∧ Ready (b 0) ∧ Grid (1 / 1000) (b 0).1 ∧
    stored 24 (b 0).1 = (b 0).1 ∧ (∀ i < 5000, CycleR (flClock 24) (fl 24 (1 / 1000)) (b i) (b (i + 1))) ∧
    ∃ s v, (b 5000).1.updateTimelineR (flClock 24) (b 5000).2 (fl 24 (1 / 1000)) = .ok (s, v) ∧
      s.nbCallsR (flClock 24) = .ok 0 ∧
      ∀ (l : Lip ℚ) (d : Vec (LinearDynamic ℚ)), l.dyn d (0 - 1) = .error .outOfRange := by
  have h5 : fl 24 5 = 5 := by rw [fl_five]; norm_num
  have hR : Rough (flClock 24) := by
    refine ⟨fun x hx => (fl_error 24 x).trans ?_, (fl_error 24 EPS).trans ?_⟩
    · rw [div_le_iff₀ (by norm_num)]
      exact hx.trans (by norm_num)
    · rw [EPS, abs_of_pos (by norm_num)]; norm_num
  obtain ⟨Z, h1, h2, h3⟩ : ∃ Z, runNat 5000 (5 * 2 ^ 33) = some Z ∧ 902000 < Z ∧ Z < 2000000 := by
    refine ⟨(runNat 5000 (5 * 2 ^ 33)).get (by decide +kernel), by simp, by decide +kernel, by decide +kernel⟩
  have hin : runIn 5000 (5 * 2 ^ 33) = true := by decide +kernel
  have e5 : ((5 * 2 ^ 33 : ℕ) : ℚ) / 2 ^ 33 = 5 := by norm_num
  have hrest : Rests (5 : ℚ) (demo 1 5 5 5 0) := ⟨rfl, rfl, rfl, rfl, rfl, Or.inl rfl, rfl⟩
  obtain ⟨b, b0, b1, b2⟩ := Rests.cycles hR (k := 5000) (fb := fl 24 (1 / 1000)) (t := 5) (fun i hi => by
    have := run_in hin i hi
    rw [e5] at this
    refine ⟨le_trans ?_ this.1.le, this.2⟩
    norm_num [EPS]) hrest
  have hz : (fun x => (flClock 24).rnd (x - fl 24 (1 / 1000)))^[5000] 5 = (Z : ℚ) / 2 ^ 33 := by
    have := run_nat h1
    rw [e5] at this
    exact this
  rw [hz] at b2
  have q2 : (902000 : ℚ) < Z := by exact_mod_cast h2
  have q3 : (Z : ℚ) < 2000000 := by exact_mod_cast h3
  obtain ⟨s, hu, hs, -, hfb⟩ := Rests.update hR (s := (b 5000).1) (v := (b 5000).2) (fb := fl 24 (1 / 1000)) b2
    (by rw [EPS, le_div_iff₀ (by norm_num)]; linarith) (by rw [div_le_iff₀ (by norm_num)]; linarith)
  refine ⟨b, b0, ?_, ?_, ?_, b1, s, (b 5000).2, hu, ?_, dyn_before⟩
  · rw [b0]; exact demo_ready 0 (by norm_num) (by norm_num [EPS]) (by norm_num [EPS]) (by norm_num [EPS])
  · rw [b0]
    exact ⟨by norm_num [EPS], ⟨5000, by norm_num, by norm_num [demo]⟩, ⟨5000, by norm_num, by norm_num [demo]⟩,
      ⟨5000, by norm_num, by norm_num [demo]⟩, by norm_num [demo]⟩
  · rw [b0]
    simp [stored, demo, h5]
  · unfold Sup.nbCallsR
    rw [hs.T, hs.ttnp, hfb]
    have hts : timeToSampleR (flClock 24) 5 ((Z : ℚ) / 2 ^ 33) = .ok ((Z : ℚ) / 2 ^ 33) := by
      unfold timeToSampleR
      refine whileLoop_done (cond := fun t : ℚ => (flClock 24).rnd (5 + (flClock 24).eps) < t) ?_
      have h6 := abs_le.1 (hR.eps)
      have h7 := abs_le.1 (hR.rnd (5 + (flClock 24).eps) (by rw [abs_le]; rw [EPS] at h6; constructor <;> linarith [h6.1, h6.2]))
      rw [not_lt, div_le_iff₀ (by norm_num)]
      rw [EPS] at h6
      linarith [h6.1, h7.1]
    rw [hts]
    change (if fl 24 (1 / 1000) = 0 then _ else _) = _
    rw [if_neg (by rw [fl_ms]; norm_num)]
    change Except.ok (truncInt (fl 24 (fl 24 ((Z : ℚ) / 2 ^ 33 + fl 24 EPS) / fl 24 (1 / 1000)))) = _
    have k1 : (0 : ℚ) ≤ (Z : ℚ) / 2 ^ 33 + fl 24 EPS := by rw [fl_eps]; positivity
    have k2 : (Z : ℚ) / 2 ^ 33 + fl 24 EPS ≤ 4 / 10000 := by
      have : (Z : ℚ) / 2 ^ 33 ≤ 2000000 / 2 ^ 33 := div_le_div_of_nonneg_right q3.le (by norm_num)
      rw [fl_eps]
      refine (add_le_add_left this _).trans ?_
      norm_num
    have k3 := abs_le.1 (fl_error 24 ((Z : ℚ) / 2 ^ 33 + fl 24 EPS))
    rw [abs_of_nonneg k1] at k3
    set y := (Z : ℚ) / 2 ^ 33 + fl 24 EPS
    have k4 : y / 2 ^ 24 ≤ y / 1000 := div_le_div_of_nonneg_left k1 (by norm_num) (by norm_num)
    have k5 : 0 ≤ fl 24 y := by linarith [k3.1]
    have k6 : fl 24 y ≤ 5 / 10000 := by linarith [k3.2]
    generalize fl 24 y = r at k5 k6 ⊢
    obtain ⟨m1, m2⟩ := fl_quotient (p := 24) 0 (x := r / fl 24 (1 / 1000)) (by norm_num)
      (by rw [Nat.cast_zero, fl_ms]; exact div_nonneg k5 (by norm_num))
      (by rw [Nat.cast_zero, fl_ms, div_le_iff₀ (by norm_num)]; linarith)
    rw [truncInt_near m1 m2]
    rfl

end MPC
