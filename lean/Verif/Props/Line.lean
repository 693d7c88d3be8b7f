import Verif.Spec.Line
import Verif.Props.ZebOutside
import Verif.Props.Independent
import Verif.Props.ZebConverge

/-!
# C99: with the heading constraint a wheeled robot stays on the line of its heading
-/

set_option linter.unusedSectionVars false
namespace MPC
open Finset Filter Topology

section
variable {K : Type} [Field K] [LinearOrder K] [IsStrictOrderedRing K] [FloorRing K]
variable {o : Oracle K} {tr : Trig K} {cx cy : K} {cs : List (ZebCall K)} {w : Zeb K} {fb : K}

theorem comFirst_pos {T : K} (hT : 0 < T) : 0 < Spec.comFirst T := by
  unfold Spec.comFirst
  have h : (1 : ℤ) ≤ ⌊(T + EPS) / T⌋ := by
    rw [Int.le_floor, Int.cast_one, le_div_iff₀ hT]
    have : (0 : K) < EPS := by norm_num [EPS]
    linarith
  have : (1 : K) ≤ (⌊(T + EPS) / T⌋ : K) := by exact_mod_cast h
  have : (0 : K) < (⌊(T + EPS) / T⌋ : K) := by linarith
  positivity

/-- Without motion across the heading, jerks that lead to none after the time `S` have no component across it. -/
theorem across_jerk {S c n vx vy ax ay jx jy : K} (hS : 0 < S) (hv : Spec.across c n vx vy = 0) (ha : Spec.across c n ax ay = 0)
    (h : n * (vx + ax * S + jx * S ^ 2 / 2) - c * (vy + ay * S + jy * S ^ 2 / 2) = 0) : Spec.across c n jx jy = 0 := by
  unfold Spec.across at *
  have h1 : (n * jx - c * jy) * (S ^ 2 / 2) = 0 := by linear_combination h - hv - S * ha
  rcases mul_eq_zero.1 h1 with h1 | h1
  · exact h1
  · exact absurd h1 (by positivity)

/-- A robot on the line that is driven by jerks along the heading stays on it. -/
theorem driven_line {c n t j1 j2 j3 j4 : K} {z : Spec.ZebState K} (hz : z.OnLine c n) (hc : Spec.across c n j1 j2 = 0)
    (hb : Spec.across c n j3 j4 = 0) : (z.driven j1 j2 j3 j4 t).OnLine c n ∧ z.SameLine c n (z.driven j1 j2 j3 j4 t) := by
  obtain ⟨h1, h2, h3, h4⟩ := hz
  unfold Spec.across at *
  refine ⟨⟨?_, ?_, ?_, ?_⟩, ?_, ?_⟩ <;> simp only [Spec.across, Spec.ZebState.driven, Spec.cubic]
  · linear_combination h1 + t * h2 + t ^ 2 / 2 * hc
  · linear_combination h2 + t * hc
  · linear_combination h3 + t * h4 + t ^ 2 / 2 * hb
  · linear_combination h4 + t * hb
  · linear_combination t * h1 + t ^ 2 / 2 * h2 + t ^ 3 / 6 * hc
  · linear_combination t * h3 + t ^ 2 / 2 * h4 + t ^ 3 / 6 * hb

/-- From a state on the line, the velocities at the samples are along the heading iff the jerks are. -/
theorem traj_line {S T c n : K} {x y : State3 K} (hS : 0 < S) (hT : 0 < T) (hv : Spec.across c n x.v y.v = 0) (ha : Spec.across c n x.a y.a = 0)
    (J J' : ℕ → K) (N : ℕ) :
    (∀ i < N, n * (Spec.jerkTrajectory S T x J i).v - c * (Spec.jerkTrajectory S T y J' i).v = 0) ↔
      ∀ i < N, Spec.across c n (J i) (J' i) = 0 := by
  have next : ∀ (t : K) (x y : State3 K) (j j' : K), Spec.across c n x.v y.v = 0 → Spec.across c n x.a y.a = 0 → Spec.across c n j j' = 0 →
      Spec.across c n (Spec.cubic x j t).v (Spec.cubic y j' t).v = 0 ∧ Spec.across c n (Spec.cubic x j t).a (Spec.cubic y j' t).a = 0 := by
    intro t x y j j' h1 h2 h3
    simp only [Spec.across, Spec.cubic] at *
    exact ⟨by linear_combination h1 + t * h2 + t ^ 2 / 2 * h3, by linear_combination h2 + t * h3⟩
  have state : ∀ i, (∀ k ≤ i, Spec.across c n (J k) (J' k) = 0) →
      Spec.across c n (Spec.jerkTrajectory S T x J i).v (Spec.jerkTrajectory S T y J' i).v = 0 ∧
      Spec.across c n (Spec.jerkTrajectory S T x J i).a (Spec.jerkTrajectory S T y J' i).a = 0 := by
    intro i
    induction i with
    | zero => exact fun h => next S x y _ _ hv ha (h 0 le_rfl)
    | succ i ih =>
      intro h
      obtain ⟨h1, h2⟩ := ih fun k hk => h k (by omega)
      exact next T _ _ _ _ h1 h2 (h (i + 1) le_rfl)
  constructor
  · intro h i
    induction i using Nat.strong_induction_on with
    | _ i ih =>
      intro hi
      cases i with
      | zero => exact across_jerk hS hv ha (h 0 hi)
      | succ i =>
        obtain ⟨h1, h2⟩ := state i fun k hk => ih k (by omega) (by omega)
        exact across_jerk hT h1 h2 (h (i + 1) hi)
  · exact fun h i hi => (state i fun k hk => h k (by omega)).1

/-- The heading constraint, from a state on the line: the jerks are along the heading. -/
theorem heading_line {s : Spec.ZebSettings K} {c n : K} {z : Spec.ZebState K} {X : ℕ → K} (hT : 0 < s.period) (hz : z.OnLine c n) :
    s.AlongHeading c n z X ↔ Spec.JerksAlong c n s.nbSamples X := by
  have h1 := traj_line (comFirst_pos hT) hT hz.comV hz.comA (Spec.jerkCX s.nbSamples X) (Spec.jerkCY s.nbSamples X) s.nbSamples
  have h2 := traj_line hT hT hz.baseV hz.baseA (Spec.jerkBX s.nbSamples X) (Spec.jerkBY s.nbSamples X) s.nbSamples
  unfold Spec.ZebSettings.AlongHeading Spec.JerksAlong
  exact ⟨fun h i hi => ⟨h1.1 (fun i hi => (h i hi).1) i hi, h2.1 (fun i hi => (h i hi).2) i hi⟩,
    fun h i hi => ⟨h1.2 (fun i hi => (h i hi).1) i hi, h2.2 (fun i hi => (h i hi).2) i hi⟩⟩

/-- **C99 (one call).** With the heading constraint, whatever the other constraints, the weights and the horizon, a robot that does not move
across its heading stays on the line along it, and so do the planned jerks, if the answer of the solver is feasible, for every period of the
call. -/
theorem C99_step (hw : ZebReaches o tr cx cy cs w) (hr : (zebSettingsOf cx cy cs).RefsCurrent) (hc : (zebSettingsOf cx cy cs).config.tilt = true)
    (hz : w.state.OnLine (tr.cos (zebSettingsOf cx cy cs).yaw.p) (tr.sin (zebSettingsOf cx cy cs).yaw.p)) (hfb : 0 < fb) :
    ∃ qp, ZebGives tr w fb qp ∧ ∀ (o' : Oracle K) b w', Spec.Feasible qp (o' w.solver.calls qp 10000).2 → w.solve o' tr fb = .ok (b, w') →
      w'.state.OnLine (tr.cos (zebSettingsOf cx cy cs).yaw.p) (tr.sin (zebSettingsOf cx cy cs).yaw.p) ∧
      w.state.SameLine (tr.cos (zebSettingsOf cx cy cs).yaw.p) (tr.sin (zebSettingsOf cx cy cs).yaw.p) w'.state ∧
      Spec.JerksAlong (tr.cos (zebSettingsOf cx cy cs).yaw.p) (tr.sin (zebSettingsOf cx cy cs).yaw.p) (zebSettingsOf cx cy cs).nbSamples w'.X.get := by
  have h := zReachable_inv hw
  have hN : 0 < (zebSettingsOf cx cy cs).nbSamples := h.part.user.model.N_pos
  have hT : 0 < (zebSettingsOf cx cy cs).period := h.part.user.model.T_pos
  obtain ⟨qp, hg, hadv⟩ := C66_advance hw hr hfb
  obtain ⟨qp1, hg1, hfeas⟩ := C57_constraints hw hr hfb
  obtain rfl := hg.unique h hg1
  refine ⟨qp, hg, fun o' b w' hf e => ?_⟩
  obtain ⟨-, hX, hst, -⟩ := hadv o' b w' e
  have hj : Spec.JerksAlong (tr.cos (zebSettingsOf cx cy cs).yaw.p) (tr.sin (zebSettingsOf cx cy cs).yaw.p) (zebSettingsOf cx cy cs).nbSamples
      w'.X.get := by
    intro i hi
    have := (heading_line hT hz).1 (((hfeas _).1 hf).2.2.2.1 hc) i hi
    simp only [Spec.jerkCX, Spec.jerkCY, Spec.jerkBX, Spec.jerkBY] at this ⊢
    rwa [← hX _ (by omega), ← hX _ (by omega), ← hX _ (by omega), ← hX _ (by omega)] at this
  rw [hst]
  obtain ⟨h1, h2⟩ := driven_line (t := fb) hz (hj 0 hN).1 (hj 0 hN).2
  exact ⟨h1, h2, hj⟩

/-- **C99.** With the heading constraint only, whatever the weights and the horizon, a robot that does not move across its heading and does not
plan to stays on the line along it forever, for all calls of `solve` with any periods and every solver that finds points that meet the
constraints. The problems given to the solver have such points. -/
theorem C99_line (ho : Spec.FindsFeasible o) (hw : ZebReaches o tr cx cy cs w) (hr : (zebSettingsOf cx cy cs).RefsCurrent)
    (hc : (zebSettingsOf cx cy cs).config = ⟨false, false, false, true⟩)
    (hz : w.state.OnLine (tr.cos (zebSettingsOf cx cy cs).yaw.p) (tr.sin (zebSettingsOf cx cy cs).yaw.p))
    (hj : Spec.JerksAlong (tr.cos (zebSettingsOf cx cy cs).yaw.p) (tr.sin (zebSettingsOf cx cy cs).yaw.p) (zebSettingsOf cx cy cs).nbSamples w.X.get)
    (fbs : List K) (hfb : ∀ fb ∈ fbs, 0 < fb) : ∃ w', ZebReaches o tr cx cy (cs ++ fbs.map .solve) w' ∧
      w'.state.OnLine (tr.cos (zebSettingsOf cx cy cs).yaw.p) (tr.sin (zebSettingsOf cx cy cs).yaw.p) ∧
      w.state.SameLine (tr.cos (zebSettingsOf cx cy cs).yaw.p) (tr.sin (zebSettingsOf cx cy cs).yaw.p) w'.state := by
  induction fbs generalizing cs w with
  | nil => exact ⟨w, by simpa using hw, hz, rfl, rfl⟩
  | cons fb fbs ih =>
    have h := zReachable_inv hw
    have hT : 0 < (zebSettingsOf cx cy cs).period := h.part.user.model.T_pos
    have hf0 : 0 < fb := hfb fb List.mem_cons_self
    obtain ⟨qp, hg, hstep⟩ := C99_step hw hr (by rw [hc]) hz hf0
    obtain ⟨qp1, hg1, hfeas⟩ := C57_constraints hw hr hf0
    obtain rfl := hg.unique h hg1
    have hex : ∃ d, Spec.Feasible qp d := by
      refine ⟨fun _ => 0, (hfeas _).2 ?_⟩
      simp only [add_zero]
      refine ⟨by rw [hc]; simp, by rw [hc]; simp, by rw [hc]; simp, fun _ => (heading_line hT hz).2 hj, fun i _ _ => ?_⟩
      rw [sub_self, abs_zero]
      norm_num [MAXBOUND]
    obtain ⟨b, w1, e, -, -⟩ := hg o
    obtain ⟨h1, h2, h3⟩ := hstep o b w1 (ho _ _ _ (hg.consistent h) hex) e
    have hw1 : ZebReaches o tr cx cy (cs ++ [.solve fb]) w1 := by
      rw [zReaches_append hw]
      simp [Zeb.run, Zeb.step, e, ok_bind]
    have es := zebSettingsOf_solve cx cy cs fb
    obtain ⟨w', q1, q2, q3⟩ := ih hw1 (by rw [es]; exact hr) (by rw [es]; exact hc) (by rw [es]; exact h1) (by rw [es]; exact h3)
      (fun f hf => hfb f (List.mem_cons_of_mem _ hf))
    rw [es] at q2 q3
    exact ⟨w', by simpa using q1, q2, q3.1.trans h2.1, q3.2.trans h2.2⟩
end

variable {fb : ℝ} {s : Spec.ZebSettings ℝ}

/-- **C99 (no rest position).** With the heading constraint, whatever the weights, the horizon, the period of the calls and the other
constraints, no position is an asymptotically stable rest position of the base: it does not come back from beside. -/
theorem C99_never {shifts : Set (ℝ × ℝ)} {k : ℝ × ℝ} {px py : ℝ} (hr : s.RefsCurrent) (hc : s.config.tilt = true) (hk : k ∈ shifts)
    (hcalls : Spec.Configured s k) (hfb : 0 < fb) : ¬ Spec.ZebSettlesEvery fb s shifts Spec.ZebState.base px py := by
  intro hset
  obtain ⟨d, hd, h⟩ := hset 1 one_pos
  obtain ⟨o, ho, hzero⟩ := free_oracle fun _ => 0
  obtain ⟨cx, cy, cs0, hl, hns, hs0, hk0⟩ := hcalls
  set tr : Trig ℝ := ⟨fun _ => 0, fun _ => 1⟩ with htr
  obtain ⟨w0, hw0⟩ := C54_no_fault_partial o tr cx cy cs0 hl (by
    clear hl hs0 hk0
    generalize Spec.ZebSettings.init cx cy = s0
    induction cs0 generalizing s0 with
    | nil => trivial
    | cons c cs ih =>
      exact ⟨fun fb e => absurd (e ▸ List.mem_cons_self) (hns fb), ih (fun fb hm => hns fb (List.mem_cons_of_mem _ hm)) _⟩)
  obtain ⟨w, hrun, hst⟩ := zPlace_run o tr w0 ⟨px, 0, 0⟩ ⟨py + d, 0, 0⟩ ⟨px, 0, 0⟩ ⟨py + d, 0, 0⟩
  set cs := cs0 ++ zPlaceCalls ⟨px, 0, 0⟩ ⟨py + d, 0, 0⟩ ⟨px, 0, 0⟩ ⟨py + d, 0, 0⟩ with hcs
  have hw : ZebReaches o tr cx cy cs w := (zReaches_append hw0).2 hrun
  have hset0 : zebSettingsOf cx cy cs = s := by rw [← hs0, hcs]; unfold zebSettingsOf; rw [after_append]; rfl
  have hk1 : (Spec.ZebSettings.init cx cy).usedShift (0, 0) cs ∈ shifts := by rw [hcs, usedShift_append, hk0]; exact hk
  have hX : ∀ i, w.X.get i = 0 := zReaches_X hw (by
    intro fb hm
    rcases List.mem_append.1 hm with hm | hm
    · exact hns fb hm
    · simp [zPlaceCalls] at hm)
  obtain ⟨W, hW, -, -, hlim, -⟩ := h o tr cx cy cs w ho hw hset0 hk1 (fun i _ => by rw [hX, abs_zero]; exact hd.le)
    (by rw [hst]; simp [Spec.ZebState.base, Spec.NearRest, hd.le]) (by rw [hst]; simp [Spec.ZebState.base, Spec.NearRest, abs_of_pos hd, hd.le])
  have unique : ∀ {cs' : List (ZebCall ℝ)} {w1 w2 : Zeb ℝ}, ZebReaches o tr cx cy cs' w1 → ZebReaches o tr cx cy cs' w2 → w1 = w2 := by
    intro cs' w1 w2 e1 e2
    unfold ZebReaches at e1 e2
    rw [e1] at e2
    exact Except.ok.inj e2
  have set : ∀ n, zebSettingsOf cx cy (cs ++ List.replicate n (.solve fb)) = s := by
    intro n
    induction n with
    | zero => simpa using hset0
    | succ n ih => rw [← replicate_snoc, zebSettingsOf_solve]; exact ih
  have stay : ∀ n, (W n).state.OnLine 1 0 ∧ (W n).state.by_.p = py + d ∧ Spec.JerksAlong 1 0 s.nbSamples (W n).X.get := by
    intro n
    induction n with
    | zero =>
      rw [unique (hW 0) (by simpa using hw), hst]
      refine ⟨⟨?_, ?_, ?_, ?_⟩, rfl, fun i _ => ?_⟩ <;> simp [Spec.across, Spec.jerkCX, Spec.jerkCY, Spec.jerkBX, Spec.jerkBY, hX]
    | succ n ih =>
      obtain ⟨i1, i2, i3⟩ := ih
      have hr' : (zebSettingsOf cx cy (cs ++ List.replicate n (.solve fb))).RefsCurrent := by rw [set n]; exact hr
      have hin := zReachable_inv (hW n)
      have hN : 0 < s.nbSamples := by rw [← set n]; exact hin.part.user.model.N_pos
      obtain ⟨qp, hgv, hstep⟩ := C99_step (hW n) hr' (by rw [set n]; exact hc) (show (W n).state.OnLine 1 0 from i1) hfb
      obtain ⟨qp1, hg1, hadv⟩ := C66_advance (hW n) hr' hfb
      obtain rfl := hgv.unique hin hg1
      obtain ⟨b, w', e1, -, -⟩ := hgv o
      obtain rfl : W (n + 1) = w' := by
        refine unique (hW (n + 1)) ?_
        rw [← replicate_snoc, zReaches_append (hW n)]
        simp [Zeb.run, Zeb.step, e1, ok_bind]
      have same : ∀ {z z' : Spec.ZebState ℝ}, z.SameLine 1 0 z' → z'.by_.p = z.by_.p := by
        intro z z' h
        have := h.2
        simp only [Spec.across] at this
        linarith
      by_cases hsol : ∃ d, Spec.IsSolution qp d
      · obtain ⟨q1, q2, q3⟩ := hstep o b _ (ho _ _ _ hsol).1 e1
        rw [set n] at q3
        exact ⟨q1, (same q2).trans i2, q3⟩
      · obtain ⟨-, hX', hst', -⟩ := hadv o b _ e1
        rw [set n] at hX' hst'
        have q3 : Spec.JerksAlong 1 0 s.nbSamples (W (n + 1)).X.get := by
          intro i hi
          have := i3 i hi
          simp only [Spec.jerkCX, Spec.jerkCY, Spec.jerkBX, Spec.jerkBY] at this ⊢
          rw [hX' _ (by omega), hX' _ (by omega), hX' _ (by omega), hX' _ (by omega), hzero _ _ _ hsol]
          simpa using this
        obtain ⟨q1, q2⟩ := driven_line (t := fb) i1 (q3 0 hN).1 (q3 0 hN).2
        rw [← hst'] at q1 q2
        exact ⟨q1, (same q2).trans i2, q3⟩
  have hconst : Tendsto (fun n => (W n).state.by_.p) atTop (𝓝 (py + d)) := tendsto_const_nhds.congr fun n => (stay n).2.1.symm
  have := tendsto_nhds_unique hlim hconst
  linarith

/-- Calls for a robot that moves forward with the heading constraint. -/
noncomputable def zLineCalls : List (ZebCall ℝ) :=
  zVelCalls ++ [.setConfig ⟨false, false, false, true⟩] ++ zPlaceCalls ⟨0, 1, 0⟩ ⟨0, 0, 0⟩ ⟨0, 1, 0⟩ ⟨0, 0, 0⟩

theorem zLineCalls_legal : (Spec.ZebSettings.init 0 0).Legal zLineCalls ∧ ∀ fb, ZebCall.solve fb ∉ zLineCalls := by
  constructor
  · simp [zLineCalls, zPlaceCalls, zVelCalls, Spec.ZebSettings.Legal, Spec.ZebSettings.Pre, Spec.ZebSettings.apply, Spec.ZebSettings.init, Vec.const]
  · intro fb; simp [zLineCalls, zPlaceCalls, zVelCalls]

/-- The hypotheses of `C99_line` and `C99_never` are met: the heading is forward, the robot moves forward, and its reference is the velocity
`(1, 1)`, which is not along the heading. -/
example : (∃ o : Oracle ℝ, Spec.FindsFeasible o ∧ ∃ w, ZebReaches o ⟨fun _ => 0, fun _ => 1⟩ 0 0 zLineCalls w ∧
      (zebSettingsOf 0 0 zLineCalls).RefsCurrent ∧ (zebSettingsOf 0 0 zLineCalls).config = ⟨false, false, false, true⟩ ∧ w.state.OnLine 1 0 ∧
      w.state.bx.v = 1 ∧ Spec.JerksAlong 1 0 (zebSettingsOf 0 0 zLineCalls).nbSamples w.X.get) ∧
    ¬ Spec.ZebSettlesEvery 1 (zebSettingsOf 0 0 zLineCalls) {(0, 0)} Spec.ZebState.base 0 0 := by
  obtain ⟨o, ho⟩ := finding_oracle
  constructor
  · obtain ⟨w, hw⟩ := C54_no_fault_partial o ⟨fun _ => 0, fun _ => 1⟩ 0 0 zLineCalls zLineCalls_legal.1 (by
      have h := zLineCalls_legal.2
      generalize zLineCalls = l at h
      generalize Spec.ZebSettings.init (0 : ℝ) 0 = s0
      induction l generalizing s0 with
      | nil => trivial
      | cons c cs ih => exact ⟨fun fb e => absurd (e ▸ List.mem_cons_self) (h fb), ih (fun fb hm => h fb (List.mem_cons_of_mem _ hm)) _⟩)
    have hX := zReaches_X hw zLineCalls_legal.2
    obtain ⟨w0, hw0⟩ := C54_no_fault_partial o ⟨fun _ => 0, fun _ => 1⟩ 0 0 (zVelCalls ++ [.setConfig ⟨false, false, false, true⟩])
      (by simp [zVelCalls, Spec.ZebSettings.Legal, Spec.ZebSettings.Pre, Spec.ZebSettings.apply, Spec.ZebSettings.init, Vec.const])
      (by simp [zVelCalls, Spec.ZebSettings.RefsCurrentAtSolves])
    obtain ⟨w1, hr1, hst⟩ := zPlace_run o ⟨fun _ => 0, fun _ => 1⟩ w0 ⟨0, 1, 0⟩ ⟨0, 0, 0⟩ ⟨0, 1, 0⟩ ⟨0, 0, 0⟩
    have hw1 := (zReaches_append hw0).2 hr1
    obtain rfl : w = w1 := by
      have e1 := hw
      unfold zLineCalls ZebReaches at e1
      unfold ZebReaches at hw1
      rw [e1] at hw1
      exact Except.ok.inj hw1
    refine ⟨o, C78_finds_feasible o ho, w, hw, ⟨rfl, rfl, rfl⟩, rfl, ?_, by rw [hst], fun i _ => ?_⟩
    · rw [hst]
      constructor <;> simp [Spec.across]
    · simp [Spec.across, Spec.jerkCX, Spec.jerkCY, Spec.jerkBX, Spec.jerkBY, hX]
  · exact C99_never (k := (0, 0)) ⟨rfl, rfl, rfl⟩ rfl rfl ⟨0, 0, zLineCalls, zLineCalls_legal.1, zLineCalls_legal.2, rfl, rfl⟩ one_pos

end MPC
