import Verif.Lemmas.Config
import Verif.Props.HumSafe

/-! # The configuration of the humanoid generator (C72) -/

set_option linter.unusedSectionVars false

namespace MPC

open Spec

section

variable {K : Type} [Field K] [LinearOrder K] [IsStrictOrderedRing K] [FloorRing K]

theorem Config.of_reaches {hull : Vec (Pt K) → Res (Polygon K)} {o : Oracle K} {cs : List (HCall K)} {w : HWalkgen K}
    (hr : HumReaches hull o cs w) (hc : ∀ c ∈ cs, IsSetting c) : Config (humSettingsOf cs) w := by
  obtain ⟨w₀, e0, e⟩ := hr
  exact (Config.make e0).run hc e

theorem FootHolds.footOf (f : FootSettings K) : FootHolds f (footOf f) := ⟨rfl, rfl, rfl, rfl, rfl, rfl⟩

/-- **C72.** After any sequence of configuration calls, in any order, the generator holds, for every parameter, the last
value given (or that of the constructor), in both models; it stands still in its initial double support with an empty
plan. -/
theorem C72_settings (hull : Vec (Pt K) → Res (Polygon K)) (o : Oracle K) (cs : List (HCall K)) (w : HWalkgen K)
    (hr : HumReaches hull o cs w) (hc : ∀ c ∈ cs, IsSetting c) : HumHolds (humSettingsOf cs) w := by
  have h := Config.of_reaches hr hc
  obtain ⟨-, f2, f3, -, f5, f6, -, f8, -⟩ := h.lip_fields
  have hs := h.sup
  refine ⟨?_, f2, ?_, f3, ?_, ?_, ?_, ?_, f5, f6, f8, h.velRef, h.weighting, h.withCop, h.withFeet, ?_, ?_, ⟨?_, ?_, h.first⟩, ?_⟩
  all_goals first | rw [hs] | rw [h.X]
  all_goals first | rfl | exact FootHolds.footOf _ | exact ⟨rfl, fun _ _ => rfl⟩

/-- **C72, assertions.** After any configuration, a configuration call succeeds exactly when it passes the assertions on
the settings: nothing else in the history matters. -/
theorem C72_accepts (hull : Vec (Pt K) → Res (Polygon K)) (o : Oracle K) (cs : List (HCall K)) (w : HWalkgen K)
    (hr : HumReaches hull o cs w) (hc : ∀ c ∈ cs, IsSetting c) (c : HCall K) (h : IsSetting c) :
    (∃ r, w.step hull o c = .ok r) ↔ (humSettingsOf cs).Accepts c :=
  (Config.of_reaches hr hc).accepts h

/-- **C72, configurations.** A sequence of configuration calls on a new generator runs exactly when each call passes the
assertions on the settings before it. -/
theorem C72_runs (hull : Vec (Pt K) → Res (Polygon K)) (o : Oracle K) (cs : List (HCall K))
    (hc : ∀ c ∈ cs, IsSetting c) : (∃ w, HumReaches hull o cs w) ↔ HumSettings.AcceptsAll .default cs := by
  obtain ⟨w₀, e0⟩ := HWalkgen.make_total (K := K)
  rw [← (Config.make e0).runs (hull := hull) (o := o) hc]
  constructor
  · rintro ⟨w, w₁, e1, e⟩
    rw [e0] at e1
    obtain rfl := Except.ok.inj e1
    exact ⟨w, e⟩
  · rintro ⟨w, e⟩
    exact ⟨w, w₀, e0, e⟩

/-- **C72, order.** Two configurations with the same last values give the same generator, up to the tables of problems and
solvers. -/
theorem C72_order (hull hull' : Vec (Pt K) → Res (Polygon K)) (o o' : Oracle K) (cs cs' : List (HCall K))
    (w w' : HWalkgen K) (hr : HumReaches hull o cs w) (hr' : HumReaches hull' o' cs' w') (hc : ∀ c ∈ cs, IsSetting c)
    (hc' : ∀ c ∈ cs', IsSetting c) (h : humSettingsOf cs = humSettingsOf cs') :
    w' = { w with solvers := w'.solvers, qps := w'.qps, maxCtr := w'.maxCtr } := by
  have h1 := Config.of_reaches hr hc
  have h2 := Config.of_reaches hr' hc'
  rw [← h] at h2
  have e1 := h1.sup.trans h2.sup.symm
  have e2 := Except.ok.inj (h1.lip.symm.trans h2.lip)
  have e3 := h1.velRef.trans h2.velRef.symm
  have e4 := h1.boundSize.trans h2.boundSize.symm
  have e5 := h1.dX.trans h2.dX.symm
  have e6 := h1.X.trans h2.X.symm
  have e7 := h1.transformedX.trans h2.transformedX.symm
  have e8 := h1.weighting.trans h2.weighting.symm
  have e9 := h1.withCop.trans h2.withCop.symm
  have e10 := h1.withFeet.trans h2.withFeet.symm
  have e11 := h1.first.trans h2.first.symm
  have e12 := h1.calls.trans h2.calls.symm
  cases w; cases w'
  dsimp only at *
  subst e1 e2 e3 e4 e5 e6 e7 e8 e9 e10 e11 e12
  rfl

/-- **C72, start of a walk.** The state from which the theorems about walks start is reached by a configuration exactly
when the three periods are not below EPSILON and both feet have a kinematic polygon. -/
theorem C72_ready (hull : Vec (Pt K) → Res (Polygon K)) (o : Oracle K) (cs : List (HCall K)) (w : HWalkgen K)
    (hr : HumReaches hull o cs w) (hc : ∀ c ∈ cs, IsSetting c) : Ready (w.sup, w.X) ↔
      EPS ≤ (humSettingsOf cs).period ∧ EPS ≤ (humSettingsOf cs).stepPeriod ∧ EPS ≤ (humSettingsOf cs).dsPeriod ∧
      0 < (humSettingsOf cs).left.kin.vertices.size ∧ 0 < (humSettingsOf cs).right.kin.vertices.size := by
  have h := Config.of_reaches hr hc
  rw [h.sup, h.X]
  constructor
  · intro hR
    exact ⟨hR.T, hR.step, hR.ds, hR.kin⟩
  · rintro ⟨h1, h2, h3, h4⟩
    exact ⟨h.N, h1, h2, h3, h4, rfl, rfl, rfl, rfl, rfl, ⟨rfl, rfl, rfl⟩, ⟨rfl, rfl, rfl⟩⟩

/-- **C72, tables.** When the polygons are given before the last call of `setConfig` or `setNbSamples`, the tables of
problems have room for all the rows of the polygons. -/
theorem C72_tables (hull : Vec (Pt K) → Res (Polygon K)) (o : Oracle K) (cs cs' : List (HCall K)) (c : HCall K)
    (w : HWalkgen K) (hr : HumReaches hull o (cs ++ c :: cs') w) (hc : ∀ d ∈ cs ++ c :: cs', IsSetting d)
    (ht : MakesTables c) (hp : ∀ d ∈ cs', ¬ SetsPolygon d) : (humSettingsOf (cs ++ c :: cs')).rows ≤ w.maxCtr := by
  obtain ⟨w₀, e0, e⟩ := hr
  obtain ⟨w1, e1, e⟩ := HWalkgen.run_append e
  obtain ⟨⟨b, w2⟩, e2, e⟩ := bind_eq_ok.1 e
  have h1 := (Config.make e0).run (fun d hd => hc d (by simp [hd])) e1
  have h2 := h1.tables ht e2
  have h3 := (h1.step (hc c (by simp)) e2).keep_run (fun d hd => hc d (by simp [hd])) hp e h2
  unfold humSettingsOf
  rw [List.foldl_append, List.foldl_cons]
  exact h3

/-- **C72, walks** (part: solvers of the right size are given, the table of the library being filled wrongly, C42). When
the settings allow to walk and the polygons are given before the last call of `setConfig` or `setNbSamples`, no sequence
of `solve`, `setMove`, new references and CoM states leads to a fault, whatever the other calls of the configuration, their
order and the answers of the QP solver. -/
theorem C72_walk_partial [Archimedean K] (hull : Vec (Pt K) → Res (Polygon K)) (o : Oracle K) (cs cs' : List (HCall K))
    (c : HCall K) (w w' : HWalkgen K) (sv : List (SolverState K)) (fb : K) (hr : HumReaches hull o (cs ++ c :: cs') w)
    (hc : ∀ d ∈ cs ++ c :: cs', IsSetting d) (ht : MakesTables c) (hp : ∀ d ∈ cs', ¬ SetsPolygon d)
    (hw : (humSettingsOf (cs ++ c :: cs')).Walkable fb) (hh : (humSettingsOf (cs ++ c :: cs')).withCop = true →
      ∀ w₁, HumWalks hull o fb { w with solvers := sv } w₁ → ∀ s X p, w₁.sup.updateTimeline w₁.X fb = .ok (s, X) →
      s.dsCopPoints = .ok p → HullWorks hull p) (hs : SolversFit { w with solvers := sv }) (h : HumWalks hull o fb { w with solvers := sv } w') :
    (∃ b w'', w'.step hull o (.solve fb) = .ok (b, w'')) ∧ ∀ m, ∃ w'', w'.step hull o (.setMove m) = .ok (true, w'') := by
  have hC := Config.of_reaches hr hc
  have hT := C72_tables hull o cs cs' c w hr hc ht hp
  generalize humSettingsOf (cs ++ c :: cs') = s at *
  obtain ⟨f1, f2, f3, f4, f5, f6, f7, f8, f9, f10, f11, f12, f13⟩ := hC.lip_fields
  have hn : ∀ {x : K} {n : ℕ}, 0 < n → x = n * fb → EPS ≤ x := by
    rintro x n h1 rfl
    have h2 : (1 : K) ≤ n := by exact_mod_cast h1
    have h3 := hw.pos
    have h4 := EPS_pos (K := K)
    nlinarith
  obtain ⟨n1, a1, b1⟩ := hw.period
  obtain ⟨n2, a2, b2⟩ := hw.stepPeriod
  obtain ⟨n3, a3, b3⟩ := hw.dsPeriod
  have hR : Ready (w.sup, w.X) := by
    rw [hC.sup, hC.X]
    exact ⟨hC.N, hn a1 b1, hn a2 b2, hn a3 b3, hw.kin, rfl, rfl, rfl, rfl, rfl, ⟨rfl, rfl, rfl⟩, ⟨rfl, rfl, rfl⟩⟩
  have hU : HumUsable fb { w with solvers := sv } := by
    refine ⟨?_, ?_, ?_, ?_, ?_, ?_, ?_⟩
    · show Grid fb w.sup
      rw [hC.sup]
      exact ⟨hw.pos, ⟨n1, a1, b1⟩, ⟨n2, a2, b2⟩, ⟨n3, a3, b3⟩, hw.horizon⟩
    · show w.lip.fb = fb ∨ EPS < |fb - w.lip.fb|
      rw [f4]; exact hw.update
    · show 0 < w.weighting.velocityTracking → w.velRef.size = 2 * w.lip.N
      rw [hC.weighting, hC.velRef, f2]; exact hw.ref
    · show ∀ c : ℕ, 1 ≤ c → c * fb ≤ w.lip.T → (c * fb) ^ 2 * GRAVITY_NORM ≠ 6 * w.lip.comHeight
      rw [f3, f8]; exact hw.regular
    · show w.withCop = true → w.sup.left.cop.Complete ∧ w.sup.right.cop.Complete
      rw [hC.withCop, hC.sup]; exact hw.copFits
    · show w.withFeet = true → w.sup.left.kin.Complete ∧ w.sup.right.kin.Complete
      rw [hC.withFeet, hC.sup]; exact hw.kinFits
    · show (if w.withCop then w.sup.maxNbCop * w.lip.N else 0) +
        (if w.withFeet then w.sup.maxNbKin * w.lip.N else 0) ≤ w.maxCtr
      rw [hC.withCop, hC.withFeet, hC.sup, f2, rows_supOf]; exact hT
  exact C68_walk_partial hull o { w with solvers := sv } w' fb (.solvers _ hr.history) hR hU
    (fun hcop => hh (hC.withCop.symm.trans hcop)) hs h

/-! ### Violations -/

/-- Calls that lower the initial double support by EPSILON each. -/
def creepCalls (n : ℕ) : List (HCall K) :=
  .setInitialDoubleSupportLength 0 :: (List.range n).map fun i => .setInitialDoubleSupportLength (-((i + 1 : ℕ) * EPS))

theorem creep_accepts : ∀ (n i : ℕ) (s : HumSettings K), s.dsPeriod = -((i : ℕ) * EPS) →
    s.AcceptsAll ((List.range' i n).map fun i => .setInitialDoubleSupportLength (-((i + 1 : ℕ) * EPS)))
  | 0, _, _, _ => trivial
  | n + 1, i, s, hs => by
    rw [List.range'_succ, List.map_cons]
    refine ⟨.inl ?_, creep_accepts n (i + 1) _ rfl⟩
    rw [hs]; push_cast; linarith

theorem creep_settings (n : ℕ) : (humSettingsOf (creepCalls (K := K) n)).dsPeriod = -((n : ℕ) * EPS) := by
  unfold humSettingsOf creepCalls
  induction n with
  | zero => simp [HumSettings.set]
  | succ n ih =>
    rw [List.range_succ, List.map_append, ← List.cons_append, List.foldl_append]
    simp [HumSettings.set]

/-- **C72 is false: initial double support.** The assertion allows to lower the initial double support by EPSILON whatever
its length: repeated calls make it as negative as one wants. -/
theorem C72_violated_creep (hull : Vec (Pt K) → Res (Polygon K)) (o : Oracle K) (n : ℕ) : ∃ cs w,
    HumReaches hull o cs w ∧ (∀ c ∈ cs, IsSetting c) ∧ w.sup.dsPeriod = -(n * EPS) ∧ w.sup.ttnp = -(n * EPS) := by
  have hc : ∀ c ∈ creepCalls (K := K) n, IsSetting c := by
    intro c hc
    unfold creepCalls at hc
    simp only [List.mem_cons, List.mem_map] at hc
    rcases hc with rfl | ⟨i, -, rfl⟩ <;> trivial
  have ha : HumSettings.AcceptsAll .default (creepCalls (K := K) n) := by
    refine ⟨.inr (by have := EPS_pos (K := K); linarith), ?_⟩
    rw [List.range_eq_range']
    exact creep_accepts n 0 _ (by simp [HumSettings.set])
  obtain ⟨w, hw⟩ := (C72_runs hull o _ hc).2 ha
  have h := C72_settings hull o _ w hw hc
  exact ⟨_, w, hw, hc, h.dsPeriod.trans (creep_settings n), h.ttnp.trans (creep_settings n)⟩

/-- **C72 is false: sampling period.** `setStepPeriod` demands a step period of at least a sampling period;
`setSamplingPeriod` accepts any positive period, so that a sampling period may hold any number of steps. -/
theorem C72_violated_period (hull : Vec (Pt K) → Res (Polygon K)) (o : Oracle K) (n : ℕ) : ∃ cs w,
    HumReaches hull o cs w ∧ (∀ c ∈ cs, IsSetting c) ∧ 0 < w.sup.stepPeriod ∧ n * w.sup.stepPeriod < w.sup.T := by
  have hc : ∀ c ∈ [HCall.setSamplingPeriod (2 * n + 1 : K)], IsSetting c := by
    intro c hc
    rw [List.mem_singleton] at hc
    subst hc
    trivial
  have hn : (0 : K) ≤ n := Nat.cast_nonneg n
  obtain ⟨w, hw⟩ := (C72_runs hull o _ hc).2 ⟨by show (0 : K) < 2 * n + 1; linarith, trivial⟩
  have h := C72_settings hull o _ w hw hc
  refine ⟨_, w, hw, hc, ?_, ?_⟩
  · rw [h.stepPeriod]
    exact two_pos
  · rw [h.stepPeriod, h.supT]
    show n * (2 : K) < 2 * n + 1
    linarith

theorem grow_run {hull : Vec (Pt K) → Res (Polygon K)} {o : Oracle K} : ∀ (n : ℕ) (w : HWalkgen K), ∃ w',
    w.run hull o (List.replicate n (.setConfig false true)) = .ok w' ∧
      w'.maxCtr = w.maxCtr + n * (w.sup.maxNbKin * w.sup.N)
  | 0, w => ⟨w, rfl, by simp⟩
  | n + 1, w => by
    obtain ⟨w', e, h⟩ := grow_run n (HWalkgen.computeConstantPart { w with withCop := false, withFeet := true })
    refine ⟨w', ?_, ?_⟩
    · rw [List.replicate_succ, HWalkgen.run]
      exact e
    · rw [h]
      show w.maxCtr + w.sup.maxNbKin * w.sup.N + n * (w.sup.maxNbKin * w.sup.N) = _
      ring

/-- **C72 is false: tables.** With the kinematic constraints alone, every call of `setConfig` with the same values adds to
the size of the tables: the last values do not determine them. -/
theorem C72_violated_grows (hull : Vec (Pt K) → Res (Polygon K)) (o : Oracle K) (g : Polygon K) (n : ℕ) : ∃ w,
    HumReaches hull o (.setKin true g :: List.replicate n (.setConfig false true)) w ∧
      w.maxCtr = n * g.vertices.size := by
  obtain ⟨w₀, e0⟩ := HWalkgen.make_total (K := K)
  obtain ⟨w', e, h⟩ := grow_run (hull := hull) (o := o) n
    { w₀ with sup := w₀.sup.mapFoot true fun f => { f with kin := g } }
  refine ⟨w', ⟨w₀, e0, ?_⟩, ?_⟩
  · rw [HWalkgen.run]
    exact e
  · rw [h]
    have hs := (Config.make e0).sup
    have hm : w₀.maxCtr = 0 := by
      unfold HWalkgen.make at e0
      obtain ⟨s, hs, e0⟩ := bind_eq_ok.1 e0
      obtain ⟨l, hl, e0⟩ := bind_eq_ok.1 e0
      obtain ⟨_, -, e0⟩ := bind_eq_ok.1 e0
      obtain ⟨_, -, e0⟩ := bind_eq_ok.1 e0
      obtain rfl := Except.ok.inj e0
      rfl
    show w₀.maxCtr + n * (Sup.maxNbKin (w₀.sup.mapFoot true fun f => { f with kin := g }) *
      (w₀.sup.mapFoot true fun f => { f with kin := g }).N) = _
    rw [hm, hs, Nat.zero_add]
    congr 1
    unfold Sup.maxNbKin Sup.mapFoot supOf
    show max g.vertices.size 0 * 1 = _
    rw [Nat.max_zero, Nat.mul_one]

end

/-! ### Examples -/

/-- The user of `safeCalls` walks. -/
theorem safe_walkable : (humSettingsOf safeCalls).Walkable (1 / 2) := by
  have h1 : (humSettingsOf safeCalls).period = 1 := rfl
  have h2 : (humSettingsOf safeCalls).stepPeriod = 2 := rfl
  have h3 : (humSettingsOf safeCalls).dsPeriod = 1 := rfl
  have h4 : (humSettingsOf safeCalls).nbSamples = 3 := rfl
  have h5 : (humSettingsOf safeCalls).height = 1 := rfl
  have h6 : demoDiamond.vertices.size = 4 := by decide +kernel
  refine ⟨by norm_num [EPS], ⟨2, by omega, by rw [h1]; norm_num⟩, ⟨4, by omega, by rw [h2]; norm_num⟩,
    ⟨2, by omega, by rw [h3]; norm_num⟩, by rw [h1, h2, h4]; norm_num, .inr ?_, fun _ => rfl, ?_, ?_,
    fun _ => ⟨demoDiamond_complete, demoDiamond_complete⟩, fun _ => ⟨demoDiamond_complete, demoDiamond_complete⟩⟩
  · rw [h1]; norm_num [EPS, abs_of_neg]
  · rw [h1, h5]; exact regular_half
  · show 0 < demoDiamond.vertices.size ∧ 0 < demoDiamond.vertices.size
    rw [h6]; omega

theorem safe_accepts : HumSettings.AcceptsAll .default safeCalls := by
  refine ⟨.inr ?_, ?_, ⟨?_, ?_⟩, trivial, trivial, trivial, trivial, trivial, ?_, trivial⟩
  · norm_num [EPS]
  · show 0 < 3; omega
  · norm_num
  · show (1 : ℚ) < 2 + EPS; norm_num [EPS]
  · show 6 = 2 * 3; rfl

theorem safe_settings : ∀ c ∈ safeCalls, IsSetting c := AcceptsAll_setting safe_accepts

/-- The first of `safeCalls`. -/
def safeFirst : List (HCall ℚ) :=
  [.setInitialDoubleSupportLength 1, .setNbSamples 3, .setStepPeriod 2, .setKin true demoDiamond,
    .setKin false demoDiamond, .setCop true demoDiamond, .setCop false demoDiamond]

/-- The hypotheses of the theorems are met by the user of `safeCalls`, for every solver; given solvers of the right sizes,
they may walk. -/
example (o : Oracle ℚ) : ∃ w, HumReaches (fun _ => .ok demoRect) o safeCalls w ∧ (∀ c ∈ safeCalls, IsSetting c) ∧
    Ready (w.sup, w.X) ∧ HumHolds (humSettingsOf safeCalls) w ∧ (humSettingsOf safeCalls).rows = 36 ∧ 36 ≤ w.maxCtr ∧
    ∃ sv, ∀ w', HumWalks (fun _ => .ok demoRect) o (1 / 2) { w with solvers := sv } w' →
      ∃ b w'', w'.step (fun _ => .ok demoRect) o (.solve (1 / 2)) = .ok (b, w'') := by
  have hc := safe_settings
  obtain ⟨w, hr⟩ := (C72_runs (fun _ => .ok demoRect) o safeCalls hc).2 safe_accepts
  have hW := safe_walkable
  have hp : ∀ d ∈ [HCall.setVelRef (Vec.const 6 (1 : ℚ))], ¬ SetsPolygon d := by
    intro d hd
    rw [List.mem_singleton] at hd
    subst hd
    exact id
  have h6 : demoDiamond.vertices.size = 4 := by decide +kernel
  have hrows : (humSettingsOf safeCalls).rows = 36 := by
    show (demoDiamond.vertices.size + demoDiamond.vertices.size) * 3 +
      max demoDiamond.vertices.size demoDiamond.vertices.size * 3 = 36
    rw [h6]; rfl
  refine ⟨w, hr, hc, ?_, C72_settings _ o _ w hr hc, hrows, ?_, ?_⟩
  · refine (C72_ready _ o _ w hr hc).2 ⟨?_, ?_, ?_, hW.kin⟩
    · show EPS ≤ (1 : ℚ); norm_num [EPS]
    · show EPS ≤ (2 : ℚ); norm_num [EPS]
    · show EPS ≤ (1 : ℚ); norm_num [EPS]
  · rw [← hrows]
    exact C72_tables _ o safeFirst [.setVelRef (Vec.const 6 1)] (.setConfig true true) w hr hc trivial hp
  · refine ⟨(fitted w).solvers, fun w' hw => ?_⟩
    have hN := hr.inv.N
    exact (C72_walk_partial _ o safeFirst [.setVelRef (Vec.const 6 1)] (.setConfig true true) w w' _ _ hr hc trivial hp hW
      (fun _ _ _ _ _ p _ _ => demoRect_works p) (fitted_fit hN) hw).1

/-- Calls in another order, some of them repeated, with the same last values. -/
def shuffledCalls : List (HCall ℚ) :=
  [.setVelRef (Vec.const 2 5), .setConfig false true, .setNbSamples 3, .setKin true demoDiamond,
    .setCop true demoDiamond, .setConfig true true, .setVelRef (Vec.const 6 1), .setKin false demoDiamond,
    .setCop false demoDiamond, .setStepPeriod 3, .setStepPeriod 2, .setInitialDoubleSupportLength 1]

/-- The hypotheses of `C72_order` are met by different calls. -/
example (o : Oracle ℚ) : ∃ w w', HumReaches (fun _ => .ok demoRect) o safeCalls w ∧
    HumReaches (fun _ => .ok demoRect) o shuffledCalls w' ∧ w'.sup = w.sup ∧ w'.lip = w.lip := by
  have h : HumSettings.AcceptsAll .default shuffledCalls := by
    refine ⟨rfl, trivial, ?_, trivial, trivial, trivial, rfl, trivial, trivial, ⟨?_, ?_⟩, ⟨?_, ?_⟩, .inr ?_, trivial⟩
    · show 0 < 3; omega
    · norm_num
    · show (1 : ℚ) < 3 + EPS; norm_num [EPS]
    · norm_num
    · show (1 : ℚ) < 2 + EPS; norm_num [EPS]
    · norm_num [EPS]
  have hc := AcceptsAll_setting h
  obtain ⟨w, hr⟩ := (C72_runs (fun _ => .ok demoRect) o safeCalls safe_settings).2 safe_accepts
  obtain ⟨w', hr'⟩ := (C72_runs (fun _ => .ok demoRect) o shuffledCalls hc).2 h
  have e := C72_order _ _ o o safeCalls shuffledCalls w w' hr hr' safe_settings hc rfl
  refine ⟨w, w', hr, hr', ?_, ?_⟩ <;> rw [e]

end MPC
