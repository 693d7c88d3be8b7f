import Verif.Lemmas.ZebSuper
import Verif.Props.ZebBoost

/-!
# C102: without constraints, the motion of `ZebulonWalkgen` is affine in the states and in the references of the base

Statements: `Verif.Spec.ZebSuper`.
-/

set_option linter.unusedSectionVars false

namespace MPC

open Finset

variable {K : Type} [Field K] [LinearOrder K] [IsStrictOrderedRing K] [FloorRing K]

variable {o : Oracle K} {tr : Trig K} {cx cy : K} {cs : List (ZebCall K)} {w : Zeb K} {fb : K}

/-- **C102, one call.** Three generators, after whatever histories, without constraints and with the same settings, except that
the states and references of the base of the third one are `a` times those of the first one plus `b` times those of the second
one, where `a + b = 1`. If solutions of the first two QPs stay away from the bounds ±`MAXBOUND` that the code sets, then their
combination is a solution of the third one; if the jerks are weighted, the third generator then plans the combined jerks and
its next state is the combination of the next states. -/
theorem C102_solve {o₁ o₂ o₃ : Oracle K} {cx₁ cy₁ cx₂ cy₂ cx₃ cy₃ : K} {cs₁ cs₂ cs₃ : List (ZebCall K)} {w₁ w₂ w₃ : Zeb K}
    (hw₁ : ZebReaches o₁ tr cx₁ cy₁ cs₁ w₁) (hw₂ : ZebReaches o₂ tr cx₂ cy₂ cs₂ w₂) (hw₃ : ZebReaches o₃ tr cx₃ cy₃ cs₃ w₃)
    (a b B : K) (hab : a + b = 1)
    (hs₂ : { zebSettingsOf cx₁ cy₁ cs₁ with
        velRef := (zebSettingsOf cx₂ cy₂ cs₂).velRef
        posRef := (zebSettingsOf cx₂ cy₂ cs₂).posRef } = zebSettingsOf cx₂ cy₂ cs₂)
    (hs₃ : { zebSettingsOf cx₁ cy₁ cs₁ with
        velRef := (zebSettingsOf cx₃ cy₃ cs₃).velRef
        posRef := (zebSettingsOf cx₃ cy₃ cs₃).posRef } = zebSettingsOf cx₃ cy₃ cs₃)
    (hv : Spec.Combines a b (zebSettingsOf cx₁ cy₁ cs₁).velRef (zebSettingsOf cx₂ cy₂ cs₂).velRef
      (zebSettingsOf cx₃ cy₃ cs₃).velRef)
    (hp : Spec.Combines a b (zebSettingsOf cx₁ cy₁ cs₁).posRef (zebSettingsOf cx₂ cy₂ cs₂).posRef
      (zebSettingsOf cx₃ cy₃ cs₃).posRef)
    (hL₂ : (Spec.ZebSettings.init cx₂ cy₂).tiltHeight 0 cs₂ = (Spec.ZebSettings.init cx₁ cy₁).tiltHeight 0 cs₁)
    (hL₃ : (Spec.ZebSettings.init cx₃ cy₃).tiltHeight 0 cs₃ = (Spec.ZebSettings.init cx₁ cy₁).tiltHeight 0 cs₁)
    (hk₂ : (Spec.ZebSettings.init cx₂ cy₂).usedShift (0, 0) cs₂ = (Spec.ZebSettings.init cx₁ cy₁).usedShift (0, 0) cs₁)
    (hk₃ : (Spec.ZebSettings.init cx₃ cy₃).usedShift (0, 0) cs₃ = (Spec.ZebSettings.init cx₁ cy₁).usedShift (0, 0) cs₁)
    (hz : w₃.state = w₁.state.superpose a b w₂.state)
    (hf : (zebSettingsOf cx₁ cy₁ cs₁).config = ⟨false, false, false, false⟩)
    (hr : (zebSettingsOf cx₁ cy₁ cs₁).RefsCurrent) (hfb : 0 < fb)
    (hB : 2 * B < MAXBOUND) (hB' : 2 * ((|a| + |b|) * B) ≤ MAXBOUND)
    (hX₁ : ∀ i < 4 * (zebSettingsOf cx₁ cy₁ cs₁).nbSamples, |w₁.X.get i| ≤ B)
    (hX₂ : ∀ i < 4 * (zebSettingsOf cx₁ cy₁ cs₁).nbSamples, |w₂.X.get i| ≤ B)
    (hX₃ : ∀ i < 4 * (zebSettingsOf cx₁ cy₁ cs₁).nbSamples, |w₃.X.get i| ≤ (|a| + |b|) * B) :
    ∃ qp₁ qp₂ qp₃, ZebGives tr w₁ fb qp₁ ∧ ZebGives tr w₂ fb qp₂ ∧ ZebGives tr w₃ fb qp₃ ∧
      (∀ d₁ d₂, Spec.IsSolution qp₁ d₁ → Spec.IsSolution qp₂ d₂ →
        (∀ i < 4 * (zebSettingsOf cx₁ cy₁ cs₁).nbSamples, |w₁.X.get i + d₁ i| ≤ B) →
        (∀ i < 4 * (zebSettingsOf cx₁ cy₁ cs₁).nbSamples, |w₂.X.get i + d₂ i| ≤ B) →
        Spec.IsSolution qp₃ fun i => a * (w₁.X.get i + d₁ i) + b * (w₂.X.get i + d₂ i) - w₃.X.get i) ∧
      ∀ (p₁ p₂ p₃ : Oracle K) b₁ b₂ b₃ w₁' w₂' w₃', 0 < (zebSettingsOf cx₁ cy₁ cs₁).weighting.jerkMinimization →
        Spec.IsSolution qp₁ (p₁ w₁.solver.calls qp₁ 10000).2 → Spec.IsSolution qp₂ (p₂ w₂.solver.calls qp₂ 10000).2 →
        ((∃ d, Spec.IsSolution qp₃ d) → Spec.IsSolution qp₃ (p₃ w₃.solver.calls qp₃ 10000).2) →
        w₁.solve p₁ tr fb = .ok (b₁, w₁') → w₂.solve p₂ tr fb = .ok (b₂, w₂') → w₃.solve p₃ tr fb = .ok (b₃, w₃') →
        (∀ i < 4 * (zebSettingsOf cx₁ cy₁ cs₁).nbSamples, |w₁'.X.get i| ≤ B) →
        (∀ i < 4 * (zebSettingsOf cx₁ cy₁ cs₁).nbSamples, |w₂'.X.get i| ≤ B) →
        (∀ i < 4 * (zebSettingsOf cx₁ cy₁ cs₁).nbSamples, w₃'.X.get i = a * w₁'.X.get i + b * w₂'.X.get i) ∧
        w₃'.state = w₁'.state.superpose a b w₂'.state := by
  obtain rfl : b = 1 - a := by linear_combination hab
  have h₁ := zReachable_inv hw₁
  have h₂ := zReachable_inv hw₂
  have h₃ := zReachable_inv hw₃
  have eN₂ : (zebSettingsOf cx₂ cy₂ cs₂).nbSamples = (zebSettingsOf cx₁ cy₁ cs₁).nbSamples := by rw [← hs₂]
  have eN₃ : (zebSettingsOf cx₃ cy₃ cs₃).nbSamples = (zebSettingsOf cx₁ cy₁ cs₁).nbSamples := by rw [← hs₃]
  have hr₂ : (zebSettingsOf cx₂ cy₂ cs₂).RefsCurrent := by
    refine ⟨?_, ?_, ?_⟩
    · rw [hv.size₂, eN₂]; exact hr.1
    · rw [hp.size₂, eN₂]; exact hr.2.1
    · rw [eN₂, ← hr.2.2, ← hs₂]
  have hr₃ : (zebSettingsOf cx₃ cy₃ cs₃).RefsCurrent := by
    refine ⟨?_, ?_, ?_⟩
    · rw [hv.size₃, eN₃]; exact hr.1
    · rw [hp.size₃, eN₃]; exact hr.2.1
    · rw [eN₃, ← hr.2.2, ← hs₃]
  obtain ⟨qp₁, g₁, adv₁⟩ := C66_advance hw₁ hr hfb
  obtain ⟨qp₂, g₂, adv₂⟩ := C66_advance hw₂ hr₂ hfb
  obtain ⟨qp₃, g₃, adv₃⟩ := C66_advance hw₃ hr₃ hfb
  obtain ⟨q₁, u, ps, v, qs, g₁', hq₁, -⟩ := zebGives_of_inv h₁ hr hfb
  obtain rfl := g₁.unique h₁ g₁'
  obtain ⟨q₂, u₂, ps₂, v₂, qs₂, g₂', hq₂, -⟩ := zebGives_of_inv h₂ hr₂ hfb
  obtain rfl := g₂.unique h₂ g₂'
  obtain ⟨q₃, u₃, ps₃, v₃, qs₃, g₃', hq₃, -⟩ := zebGives_of_inv h₃ hr₃ hfb
  obtain rfl := g₃.unique h₃ g₃'
  obtain ⟨q₁, f₁', f₁⟩ := C57_constraints hw₁ hr hfb
  obtain rfl := g₁.unique h₁ f₁'
  obtain ⟨q₂, f₂', f₂⟩ := C57_constraints hw₂ hr₂ hfb
  obtain rfl := g₂.unique h₂ f₂'
  obtain ⟨q₃, f₃', f₃⟩ := C57_constraints hw₃ hr₃ hfb
  obtain rfl := g₃.unique h₃ f₃'
  obtain ⟨q₃, c₃', -, -, -, -, huniq⟩ := C57_convex hw₃ hr₃ hfb
  obtain rfl := g₃.unique h₃ c₃'
  have hN : 0 < (zebSettingsOf cx₁ cy₁ cs₁).nbSamples := h₁.part.user.model.N_pos
  have hv' : ∀ i < 2 * (zebSettingsOf cx₁ cy₁ cs₁).nbSamples, (zebSettingsOf cx₃ cy₃ cs₃).velRef.get i
      = a * (zebSettingsOf cx₁ cy₁ cs₁).velRef.get i + (1 - a) * (zebSettingsOf cx₂ cy₂ cs₂).velRef.get i :=
    fun i hi => hv.get i (by rw [hr.1]; exact hi)
  have hp' : ∀ i < 2 * (zebSettingsOf cx₁ cy₁ cs₁).nbSamples, (zebSettingsOf cx₃ cy₃ cs₃).posRef.get i
      = a * (zebSettingsOf cx₁ cy₁ cs₁).posRef.get i + (1 - a) * (zebSettingsOf cx₂ cy₂ cs₂).posRef.get i :=
    fun i hi => hp.get i (by rw [hr.2.1]; exact hi)
  change ZPrep tr (zebSettingsOf cx₁ cy₁ cs₁) _ _ w₁ u ps v qs qp₁ at hq₁
  change ZPrep tr (zebSettingsOf cx₂ cy₂ cs₂) _ _ w₂ u₂ ps₂ v₂ qs₂ qp₂ at hq₂
  change ZPrep tr (zebSettingsOf cx₃ cy₃ cs₃) _ _ w₃ u₃ ps₃ v₃ qs₃ qp₃ at hq₃
  rw [hL₂, hk₂] at hq₂
  rw [hL₃, hk₃] at hq₃
  clear hv hp hr hr₂ hr₃ h₁ h₂ h₃ hw₁ hw₂ hw₃ g₁' g₂' g₃' f₁' f₂' f₃' c₃' eN₂ eN₃ hL₂ hL₃ hk₂ hk₃
  generalize (Spec.ZebSettings.init cx₁ cy₁).tiltHeight 0 cs₁ = L at *
  generalize (Spec.ZebSettings.init cx₁ cy₁).usedShift (0, 0) cs₁ = k at *
  generalize zebSettingsOf cx₁ cy₁ cs₁ = s at *
  generalize zebSettingsOf cx₂ cy₂ cs₂ = s₂ at *
  generalize zebSettingsOf cx₃ cy₃ cs₃ = s₃ at *
  generalize s₂.posRef = r₂ at *
  generalize s₂.velRef = rv₂ at *
  generalize s₃.posRef = r₃ at *
  generalize s₃.velRef = rv₃ at *
  subst hs₂ hs₃
  obtain ⟨cu₂, cps₂⟩ := hq₁.sol.unique (⟨hq₂.sol.inv, hq₂.sol.ps⟩ : TiltSol s L u₂ ps₂)
  obtain ⟨cv₂, cqs₂⟩ := hq₁.velSol.unique (⟨hq₂.velSol.inv, hq₂.velSol.ps⟩ : TiltVelSol s L v₂ qs₂)
  obtain ⟨cu₃, cps₃⟩ := hq₁.sol.unique (⟨hq₃.sol.inv, hq₃.sol.ps⟩ : TiltSol s L u₃ ps₃)
  obtain ⟨cv₃, cqs₃⟩ := hq₁.velSol.unique (⟨hq₃.velSol.inv, hq₃.velSol.ps⟩ : TiltVelSol s L v₃ qs₃)
  set s₂ : Spec.ZebSettings K := { s with
    velRef := rv₂
    posRef := r₂ } with hs₂
  set s₃ : Spec.ZebSettings K := { s with
    velRef := rv₃
    posRef := r₃ } with hs₃
  -- costs and feasible points
  have k₁ : ∀ d, Spec.cost qp₁ d = w₁.invObj * (zTotal s L k u ps v qs w₁.state (fun i => w₁.X.get i + d i)
      - zTotal s L k u ps v qs w₁.state w₁.X.get) := fun d => zCost hq₁ d
  have k₂ : ∀ d, Spec.cost qp₂ d = w₂.invObj * (zTotal s₂ L k u ps v qs w₂.state (fun i => w₂.X.get i + d i)
      - zTotal s₂ L k u ps v qs w₂.state w₂.X.get) := fun d => by
    rw [← zTotal_congr (s := s₂) (fun i hi j hj => (cu₂ i hi j hj).symm) (fun i hi j hj => (cps₂ i hi j hj).symm)
      (fun i hi j hj => (cv₂ i hi j hj).symm) (fun i hi j hj => (cqs₂ i hi j hj).symm),
      ← zTotal_congr (s := s₂) (u := u) (fun i hi j hj => (cu₂ i hi j hj).symm) (fun i hi j hj => (cps₂ i hi j hj).symm)
      (fun i hi j hj => (cv₂ i hi j hj).symm) (fun i hi j hj => (cqs₂ i hi j hj).symm)]
    exact zCost hq₂ d
  have k₃ : ∀ d, Spec.cost qp₃ d = w₃.invObj * (zTotal s₃ L k u ps v qs w₃.state (fun i => w₃.X.get i + d i)
      - zTotal s₃ L k u ps v qs w₃.state w₃.X.get) := fun d => by
    rw [← zTotal_congr (s := s₃) (fun i hi j hj => (cu₃ i hi j hj).symm) (fun i hi j hj => (cps₃ i hi j hj).symm)
      (fun i hi j hj => (cv₃ i hi j hj).symm) (fun i hi j hj => (cqs₃ i hi j hj).symm),
      ← zTotal_congr (s := s₃) (u := u) (fun i hi j hj => (cu₃ i hi j hj).symm) (fun i hi j hj => (cps₃ i hi j hj).symm)
      (fun i hi j hj => (cv₃ i hi j hj).symm) (fun i hi j hj => (cqs₃ i hi j hj).symm)]
    exact zCost hq₃ d
  have feas : ∀ (s' : Spec.ZebSettings K) (c n : K) (z : Spec.ZebState K) (X Y : ℕ → K), s'.config = s.config →
      s'.nbSamples = s.nbSamples → (s'.Allowed c n z X Y ↔ ∀ i < 4 * s.nbSamples, |Y i - X i| ≤ MAXBOUND) := by
    intro s' c n z X Y hc hn
    unfold Spec.ZebSettings.Allowed
    rw [hc, hf, hn]
    simp
  have loc : ∀ {s' : Spec.ZebSettings K} {w : Zeb K} {qp : QPMatrices K} {c n : K} {z : Spec.ZebState K} {F : (ℕ → K) → K} {d : ℕ → K},
      s'.config = s.config → s'.nbSamples = s.nbSamples → 0 < w.invObj →
      (∀ d, Spec.Feasible qp d ↔ s'.Allowed c n z w.X.get fun i => w.X.get i + d i) →
      (∀ d, Spec.cost qp d = w.invObj * (F (fun i => w.X.get i + d i) - F w.X.get)) → Spec.IsSolution qp d →
      (∀ i < 4 * s.nbSamples, |w.X.get i| ≤ B) → (∀ i < 4 * s.nbSamples, |w.X.get i + d i| ≤ B) →
      ∀ L : ℕ → K, (∀ i < 4 * s.nbSamples, |L i - (w.X.get i + d i)| ≤ MAXBOUND - 2 * B) → F (fun i => w.X.get i + d i) ≤ F L := by
    intro s' w qp c n z F d hc hn hi hfe hco hso hX hXd L hL
    have hfL : Spec.Feasible qp fun i => L i - w.X.get i := by
      rw [hfe, feas s' _ _ _ _ _ hc hn]
      intro i hi
      have b1 := hX i hi
      have b2 := hXd i hi
      have b3 := hL i hi
      rw [abs_le] at b1 b2 b3 ⊢
      constructor <;> linarith
    have hle := hso.2 _ hfL
    rw [hco, hco, mul_le_mul_iff_right₀ hi] at hle
    simp only [add_sub_cancel] at hle
    linarith
  have hmain : ∀ d₁ d₂, Spec.IsSolution qp₁ d₁ → Spec.IsSolution qp₂ d₂ →
      (∀ i < 4 * s.nbSamples, |w₁.X.get i + d₁ i| ≤ B) → (∀ i < 4 * s.nbSamples, |w₂.X.get i + d₂ i| ≤ B) →
      Spec.IsSolution qp₃ fun i => a * (w₁.X.get i + d₁ i) + (1 - a) * (w₂.X.get i + d₂ i) - w₃.X.get i := by
    intro d₁ d₂ hd₁ hd₂ hb₁ hb₂
    have m₁ := loc rfl rfl hq₁.invObj_pos f₁ k₁ hd₁ hX₁ hb₁
    have m₂ := loc (s' := s₂) rfl rfl hq₂.invObj_pos f₂ k₂ hd₂ hX₂ hb₂
    have hl := (zTotal_super (s := s) (a := a) (rv₂ := rv₂) (r₂ := r₂) (rv₃ := rv₃) (r₃ := r₃) (z₁ := w₁.state) (z₂ := w₂.state)
      (J₁ := fun i => w₁.X.get i + d₁ i) (J₂ := fun i => w₂.X.get i + d₂ i) hv' hp' L k u ps v qs).least
      (n := 4 * s.nbSamples) (e := MAXBOUND - 2 * B) (by linarith) m₁ m₂
    refine ⟨?_, fun y _ => ?_⟩
    · rw [f₃, feas s₃ _ _ _ _ _ rfl rfl]
      intro i hi
      have b1 : |a * (w₁.X.get i + d₁ i)| ≤ |a| * B := by
        rw [abs_mul]; exact mul_le_mul_of_nonneg_left (hb₁ i hi) (abs_nonneg _)
      have b2 : |(1 - a) * (w₂.X.get i + d₂ i)| ≤ |1 - a| * B := by
        rw [abs_mul]; exact mul_le_mul_of_nonneg_left (hb₂ i hi) (abs_nonneg _)
      have b3 := hX₃ i hi
      rw [abs_le] at b1 b2 b3 ⊢
      constructor <;> linarith
    · rw [k₃, k₃, mul_le_mul_iff_right₀ hq₃.invObj_pos, hz]
      have := hl fun i => w₃.X.get i + y i
      simp only [add_sub_cancel]
      linarith
  refine ⟨qp₁, qp₂, qp₃, g₁, g₂, g₃, hmain, fun p₁ p₂ p₃ b₁ b₂ b₃ w₁' w₂' w₃' hj hp₁ hp₂ hp₃ e₁ e₂ e₃ hb₁ hb₂ => ?_⟩
  obtain ⟨-, x₁, t₁, -⟩ := adv₁ p₁ b₁ w₁' e₁
  obtain ⟨-, x₂, t₂, -⟩ := adv₂ p₂ b₂ w₂' e₂
  obtain ⟨-, x₃, t₃, -⟩ := adv₃ p₃ b₃ w₃' e₃
  have hsol := hmain _ _ hp₁ hp₂ (fun i hi => by rw [← x₁ i hi]; exact hb₁ i hi) (fun i hi => by rw [← x₂ i hi]; exact hb₂ i hi)
  have hX : ∀ i < 4 * s.nbSamples, w₃'.X.get i = a * w₁'.X.get i + (1 - a) * w₂'.X.get i := by
    intro i hi
    rw [x₃ i hi, (huniq hj).2 _ _ (hp₃ ⟨_, hsol⟩) hsol i hi, x₁ i hi, x₂ i hi]
    ring
  refine ⟨hX, ?_⟩
  rw [t₁, t₂, t₃, hz]
  change Spec.ZebState.driven _ (Spec.jerkCX s.nbSamples _ 0) (Spec.jerkCY s.nbSamples _ 0) (Spec.jerkBX s.nbSamples _ 0)
    (Spec.jerkBY s.nbSamples _ 0) fb = Spec.ZebState.superpose a (1 - a) _
    (Spec.ZebState.driven _ (Spec.jerkCX s.nbSamples _ 0) (Spec.jerkCY s.nbSamples _ 0) (Spec.jerkBX s.nbSamples _ 0)
    (Spec.jerkBY s.nbSamples _ 0) fb)
  simp only [Spec.jerkCX, Spec.jerkCY, Spec.jerkBX, Spec.jerkBY]
  rw [hX _ (by omega), hX _ (by omega), hX _ (by omega), hX _ (by omega)]
  simp only [Spec.ZebState.driven, Spec.ZebState.superpose, combine_cubic]

/-- **C102.** Three generators, after whatever histories, without constraints and with the same settings; the state and planned
jerks of the third one are `a` times those of the first one plus `b` times those of the second one, where `a + b = 1`. New references
of the base are given before each call of `solve`, those of the third generator combined in the same way. All solvers find
solutions, the jerks are weighted, and those of the first two generators stay away from the bounds ±`MAXBOUND` that the code sets.
Then all calls succeed, and state and planned jerks of the third generator are the combination of those of the others, at all
times. -/
theorem C102_motion {o₁ o₂ o₃ : Oracle K} (ho₁ : Spec.FindsSolution o₁) (ho₂ : Spec.FindsSolution o₂) (ho₃ : Spec.FindsSolution o₃)
    {cx₁ cy₁ cx₂ cy₂ cx₃ cy₃ : K} {cs₁ cs₂ cs₃ : List (ZebCall K)} {w₁ w₂ w₃ : Zeb K}
    (hw₁ : ZebReaches o₁ tr cx₁ cy₁ cs₁ w₁) (hw₂ : ZebReaches o₂ tr cx₂ cy₂ cs₂ w₂) (hw₃ : ZebReaches o₃ tr cx₃ cy₃ cs₃ w₃)
    (a b B : K) (hab : a + b = 1)
    (hs₂ : { zebSettingsOf cx₁ cy₁ cs₁ with
        velRef := (zebSettingsOf cx₂ cy₂ cs₂).velRef
        posRef := (zebSettingsOf cx₂ cy₂ cs₂).posRef } = zebSettingsOf cx₂ cy₂ cs₂)
    (hs₃ : { zebSettingsOf cx₁ cy₁ cs₁ with
        velRef := (zebSettingsOf cx₃ cy₃ cs₃).velRef
        posRef := (zebSettingsOf cx₃ cy₃ cs₃).posRef } = zebSettingsOf cx₃ cy₃ cs₃)
    (hL₂ : (Spec.ZebSettings.init cx₂ cy₂).tiltHeight 0 cs₂ = (Spec.ZebSettings.init cx₁ cy₁).tiltHeight 0 cs₁)
    (hL₃ : (Spec.ZebSettings.init cx₃ cy₃).tiltHeight 0 cs₃ = (Spec.ZebSettings.init cx₁ cy₁).tiltHeight 0 cs₁)
    (hk₂ : (Spec.ZebSettings.init cx₂ cy₂).usedShift (0, 0) cs₂ = (Spec.ZebSettings.init cx₁ cy₁).usedShift (0, 0) cs₁)
    (hk₃ : (Spec.ZebSettings.init cx₃ cy₃).usedShift (0, 0) cs₃ = (Spec.ZebSettings.init cx₁ cy₁).usedShift (0, 0) cs₁)
    (hz : w₃.state = w₁.state.superpose a b w₂.state)
    (hX : ∀ i < 4 * (zebSettingsOf cx₁ cy₁ cs₁).nbSamples, w₃.X.get i = a * w₁.X.get i + b * w₂.X.get i)
    (hf : (zebSettingsOf cx₁ cy₁ cs₁).config = ⟨false, false, false, false⟩)
    (hj : 0 < (zebSettingsOf cx₁ cy₁ cs₁).weighting.jerkMinimization)
    (hc : (zebSettingsOf cx₁ cy₁ cs₁).copRef.size = 2 * (zebSettingsOf cx₁ cy₁ cs₁).nbSamples)
    (hB : 2 * B < MAXBOUND) (hB' : 2 * ((|a| + |b|) * B) ≤ MAXBOUND) (rs : List (Spec.PairRound K))
    (hrs : ∀ r ∈ rs, r.velRef₁.size = 2 * (zebSettingsOf cx₁ cy₁ cs₁).nbSamples ∧
      r.posRef₁.size = 2 * (zebSettingsOf cx₁ cy₁ cs₁).nbSamples ∧ r.velRef₂.size = 2 * (zebSettingsOf cx₁ cy₁ cs₁).nbSamples ∧
      r.posRef₂.size = 2 * (zebSettingsOf cx₁ cy₁ cs₁).nbSamples ∧ 0 < r.period)
    (hsol₁ : ∀ ds r es w qp, rs = ds ++ r :: es → ZebReaches o₁ tr cx₁ cy₁
      (cs₁ ++ Spec.zRoundCalls (ds.map (·.first)) ++ [.setVelRef r.velRef₁, .setPosRef r.posRef₁]) w →
      ZebGives tr w r.period qp → ∃ d, Spec.IsSolution qp d)
    (hsol₂ : ∀ ds r es w qp, rs = ds ++ r :: es → ZebReaches o₂ tr cx₂ cy₂
      (cs₂ ++ Spec.zRoundCalls (ds.map (·.second)) ++ [.setVelRef r.velRef₂, .setPosRef r.posRef₂]) w →
      ZebGives tr w r.period qp → ∃ d, Spec.IsSolution qp d)
    (hX₁ : ∀ ds es w, rs = ds ++ es → ZebReaches o₁ tr cx₁ cy₁ (cs₁ ++ Spec.zRoundCalls (ds.map (·.first))) w →
      ∀ i < 4 * (zebSettingsOf cx₁ cy₁ cs₁).nbSamples, |w.X.get i| ≤ B)
    (hX₂ : ∀ ds es w, rs = ds ++ es → ZebReaches o₂ tr cx₂ cy₂ (cs₂ ++ Spec.zRoundCalls (ds.map (·.second))) w →
      ∀ i < 4 * (zebSettingsOf cx₁ cy₁ cs₁).nbSamples, |w.X.get i| ≤ B) :
    ∃ w₁' w₂' w₃', ZebReaches o₁ tr cx₁ cy₁ (cs₁ ++ Spec.zRoundCalls (rs.map (·.first))) w₁' ∧
      ZebReaches o₂ tr cx₂ cy₂ (cs₂ ++ Spec.zRoundCalls (rs.map (·.second))) w₂' ∧
      ZebReaches o₃ tr cx₃ cy₃ (cs₃ ++ Spec.zRoundCalls (rs.map (·.combined a b))) w₃' ∧
      w₃'.state = w₁'.state.superpose a b w₂'.state ∧
      ∀ i < 4 * (zebSettingsOf cx₁ cy₁ cs₁).nbSamples, w₃'.X.get i = a * w₁'.X.get i + b * w₂'.X.get i := by
  induction rs generalizing cs₁ cs₂ cs₃ w₁ w₂ w₃ with
  | nil =>
    exact ⟨w₁, w₂, w₃, by simpa [Spec.zRoundCalls] using hw₁, by simpa [Spec.zRoundCalls] using hw₂,
      by simpa [Spec.zRoundCalls] using hw₃, hz, hX⟩
  | cons r rs ih =>
    obtain ⟨hv₁, hp₁, hv₂, hp₂, hfb⟩ := hrs r (by simp)
    have eN₂ : (zebSettingsOf cx₂ cy₂ cs₂).nbSamples = (zebSettingsOf cx₁ cy₁ cs₁).nbSamples := by rw [← hs₂]
    have eN₃ : (zebSettingsOf cx₃ cy₃ cs₃).nbSamples = (zebSettingsOf cx₁ cy₁ cs₁).nbSamples := by rw [← hs₃]
    set N := (zebSettingsOf cx₁ cy₁ cs₁).nbSamples with hN
    set v₃ := (r.combined a b).velRef with hv₃
    set p₃ := (r.combined a b).posRef with hp₃
    obtain ⟨y1, f1, st1, pl1⟩ := zRefs_run (zReachable_inv hw₁) o₁ (v := r.velRef₁) (p := r.posRef₁) hv₁ hp₁
    obtain ⟨y2, f2, st2, pl2⟩ := zRefs_run (zReachable_inv hw₂) o₂ (v := r.velRef₂) (p := r.posRef₂) (by
      change _ = 2 * (zebSettingsOf cx₂ cy₂ cs₂).nbSamples; rw [eN₂]; exact hv₂) (by
      change _ = 2 * (zebSettingsOf cx₂ cy₂ cs₂).nbSamples; rw [eN₂]; exact hp₂)
    obtain ⟨y3, f3, st3, pl3⟩ := zRefs_run (zReachable_inv hw₃) o₃ (v := v₃) (p := p₃) (by
      change r.velRef₁.size = 2 * (zebSettingsOf cx₃ cy₃ cs₃).nbSamples; rw [eN₃]; exact hv₁) (by
      change r.posRef₁.size = 2 * (zebSettingsOf cx₃ cy₃ cs₃).nbSamples; rw [eN₃]; exact hp₁)
    have gy1 := (zReaches_append hw₁).2 f1
    have gy2 := (zReaches_append hw₂).2 f2
    have gy3 := (zReaches_append hw₃).2 f3
    set ds₁ := cs₁ ++ [ZebCall.setVelRef r.velRef₁, .setPosRef r.posRef₁] with hds₁
    set ds₂ := cs₂ ++ [ZebCall.setVelRef r.velRef₂, .setPosRef r.posRef₂] with hds₂
    set ds₃ := cs₃ ++ [ZebCall.setVelRef v₃, .setPosRef p₃] with hds₃
    have q1 : zebSettingsOf cx₁ cy₁ ds₁ = { zebSettingsOf cx₁ cy₁ cs₁ with
        velRef := r.velRef₁
        posRef := r.posRef₁ } := by
      unfold zebSettingsOf; rw [hds₁, after_append]; rfl
    have q2 : zebSettingsOf cx₂ cy₂ ds₂ = { zebSettingsOf cx₁ cy₁ cs₁ with
        velRef := r.velRef₂
        posRef := r.posRef₂ } := by
      have : zebSettingsOf cx₂ cy₂ ds₂ = { zebSettingsOf cx₂ cy₂ cs₂ with
        velRef := r.velRef₂
        posRef := r.posRef₂ } := by
        unfold zebSettingsOf; rw [hds₂, after_append]; rfl
      rw [this, ← hs₂]
    have q3 : zebSettingsOf cx₃ cy₃ ds₃ = { zebSettingsOf cx₁ cy₁ cs₁ with
        velRef := v₃
        posRef := p₃ } := by
      have : zebSettingsOf cx₃ cy₃ ds₃ = { zebSettingsOf cx₃ cy₃ cs₃ with
        velRef := v₃
        posRef := p₃ } := by
        unfold zebSettingsOf; rw [hds₃, after_append]; rfl
      rw [this, ← hs₃]
    have l : ∀ (cx cy : K) (cs : List (ZebCall K)) (v p : Vec K), (Spec.ZebSettings.init cx cy).tiltHeight 0
        (cs ++ [.setVelRef v, .setPosRef p]) = (Spec.ZebSettings.init cx cy).tiltHeight 0 cs := by
      intro cx cy cs v p; rw [tiltHeight_append]; rfl
    have k : ∀ (cx cy : K) (cs : List (ZebCall K)) (v p : Vec K), (Spec.ZebSettings.init cx cy).usedShift (0, 0)
        (cs ++ [.setVelRef v, .setPosRef p]) = (Spec.ZebSettings.init cx cy).usedShift (0, 0) cs := by
      intro cx cy cs v p; rw [usedShift_append]; rfl
    have hr₁ : (zebSettingsOf cx₁ cy₁ ds₁).RefsCurrent := by rw [q1]; exact ⟨hv₁, hp₁, hc⟩
    have B₁ : ∀ i < 4 * N, |w₁.X.get i| ≤ B := hX₁ [] (r :: rs) w₁ rfl (by simpa [Spec.zRoundCalls] using hw₁)
    have B₂ : ∀ i < 4 * N, |w₂.X.get i| ≤ B := hX₂ [] (r :: rs) w₂ rfl (by simpa [Spec.zRoundCalls] using hw₂)
    have B₃ : ∀ i < 4 * N, |w₃.X.get i| ≤ (|a| + |b|) * B := by
      intro i hi
      rw [hX i hi]
      calc |a * w₁.X.get i + b * w₂.X.get i| ≤ |a * w₁.X.get i| + |b * w₂.X.get i| := abs_add_le _ _
        _ = |a| * |w₁.X.get i| + |b| * |w₂.X.get i| := by rw [abs_mul, abs_mul]
        _ ≤ |a| * B + |b| * B := by
          gcongr
          · exact B₁ i hi
          · exact B₂ i hi
        _ = (|a| + |b|) * B := by ring
    -- the call
    obtain ⟨qp₁, qp₂, qp₃, g₁, g₂, g₃, -, hmain⟩ := C102_solve (fb := r.period) gy1 gy2 gy3 a b B hab (by rw [q1, q2])
      (by rw [q1, q3]) (by rw [q1, q2, q3]; exact ⟨hv₂.trans hv₁.symm, rfl, fun i _ => rfl⟩)
      (by rw [q1, q2, q3]; exact ⟨hp₂.trans hp₁.symm, rfl, fun i _ => rfl⟩)
      (by rw [hds₁, hds₂, l, l, hL₂]) (by rw [hds₁, hds₃, l, l, hL₃]) (by rw [hds₁, hds₂, k, k, hk₂])
      (by rw [hds₁, hds₃, k, k, hk₃]) (by rw [st1, st2, st3, hz]) (by rw [q1]; exact hf) hr₁ hfb hB hB'
      (by rw [q1, pl1]; exact B₁) (by rw [q1, pl2]; exact B₂) (by rw [q1, pl3]; exact B₃)
    obtain ⟨c1, z1, m1, -⟩ := g₁ o₁
    obtain ⟨c2, z2, m2, -⟩ := g₂ o₂
    obtain ⟨c3, z3, m3, -⟩ := g₃ o₃
    have gz1 : ZebReaches o₁ tr cx₁ cy₁ (ds₁ ++ [.solve r.period]) z1 := by
      rw [zReaches_append gy1]; simp [Zeb.run, Zeb.step, m1, ok_bind]
    have gz2 : ZebReaches o₂ tr cx₂ cy₂ (ds₂ ++ [.solve r.period]) z2 := by
      rw [zReaches_append gy2]; simp [Zeb.run, Zeb.step, m2, ok_bind]
    have gz3 : ZebReaches o₃ tr cx₃ cy₃ (ds₃ ++ [.solve r.period]) z3 := by
      rw [zReaches_append gy3]; simp [Zeb.run, Zeb.step, m3, ok_bind]
    have a₁ := ho₁ y1.solver.calls qp₁ 10000
      (hsol₁ [] r rs y1 qp₁ rfl (by simpa [Spec.zRoundCalls] using gy1) g₁)
    have a₂ := ho₂ y2.solver.calls qp₂ 10000
      (hsol₂ [] r rs y2 qp₂ rfl (by simpa [Spec.zRoundCalls] using gy2) g₂)
    have n₁ : ∀ i < 4 * N, |z1.X.get i| ≤ B := hX₁ [r] rs z1 rfl (by simpa [Spec.zRoundCalls, hds₁, Spec.PairRound.first] using gz1)
    have n₂ : ∀ i < 4 * N, |z2.X.get i| ≤ B := hX₂ [r] rs z2 rfl (by simpa [Spec.zRoundCalls, hds₂, Spec.PairRound.second] using gz2)
    obtain ⟨t1, t2⟩ := hmain o₁ o₂ o₃ _ _ _ _ _ _ (by rw [q1]; exact hj) a₁ a₂ (ho₃ y3.solver.calls qp₃ 10000) m1 m2 m3
      (by rw [q1]; exact n₁) (by rw [q1]; exact n₂)
    have P1 : zebSettingsOf cx₁ cy₁ (ds₁ ++ [.solve r.period]) = _ := (by
      unfold zebSettingsOf; rw [after_append]; rfl : _ = zebSettingsOf cx₁ cy₁ ds₁).trans q1
    have P2 : zebSettingsOf cx₂ cy₂ (ds₂ ++ [.solve r.period]) = _ := (by
      unfold zebSettingsOf; rw [after_append]; rfl : _ = zebSettingsOf cx₂ cy₂ ds₂).trans q2
    have P3 : zebSettingsOf cx₃ cy₃ (ds₃ ++ [.solve r.period]) = _ := (by
      unfold zebSettingsOf; rw [after_append]; rfl : _ = zebSettingsOf cx₃ cy₃ ds₃).trans q3
    have L' : ∀ (cx cy : K) (cs : List (ZebCall K)) (f : K), (Spec.ZebSettings.init cx cy).tiltHeight 0 (cs ++ [.solve f])
        = (Spec.ZebSettings.init cx cy).tiltHeight 0 cs := by
      intro cx cy cs f; rw [tiltHeight_append]; rfl
    have K' : ∀ (cx cy : K) (cs : List (ZebCall K)) (f : K), (Spec.ZebSettings.init cx cy).usedShift (0, 0) (cs ++ [.solve f])
        = (Spec.ZebSettings.init cx cy).usedShift (0, 0) cs := by
      intro cx cy cs f; rw [usedShift_append]; rfl
    rw [q1] at t1
    obtain ⟨w₁', w₂', w₃', r1, r2, r3, r4, r5⟩ := ih gz1 gz2 gz3
      (by rw [P1, P2]) (by rw [P1, P3])
      (by rw [L', L', hds₁, hds₂, l, l, hL₂]) (by rw [L', L', hds₁, hds₃, l, l, hL₃])
      (by rw [K', K', hds₁, hds₂, k, k, hk₂]) (by rw [K', K', hds₁, hds₃, k, k, hk₃])
      t2 (by rw [P1]; exact t1) (by rw [P1]; exact hf) (by rw [P1]; exact hj) (by rw [P1]; exact hc)
      (by rw [P1]; exact fun r' hr' => hrs r' (by simp [hr']))
      (fun ds r' es w qp e hw hg => hsol₁ (r :: ds) r' es w qp (by simp [e])
        (by simpa [Spec.zRoundCalls, hds₁, Spec.PairRound.first] using hw) hg)
      (fun ds r' es w qp e hw hg => hsol₂ (r :: ds) r' es w qp (by simp [e])
        (by simpa [Spec.zRoundCalls, hds₂, Spec.PairRound.second] using hw) hg)
      (by
        rw [P1]
        exact fun ds es w e hw => hX₁ (r :: ds) es w (by simp [e])
          (by simpa [Spec.zRoundCalls, hds₁, Spec.PairRound.first] using hw))
      (by
        rw [P1]
        exact fun ds es w e hw => hX₂ (r :: ds) es w (by simp [e])
          (by simpa [Spec.zRoundCalls, hds₂, Spec.PairRound.second] using hw))
    refine ⟨w₁', w₂', w₃', ?_, ?_, ?_, r4, ?_⟩
    · simpa [Spec.zRoundCalls, hds₁, Spec.PairRound.first] using r1
    · simpa [Spec.zRoundCalls, hds₂, Spec.PairRound.second] using r2
    · simpa [Spec.zRoundCalls, hds₃, Spec.PairRound.combined, hv₃, hp₃] using r3
    · rw [P1] at r5; exact r5

/-- **C102, the jerks are bounded** by the cost of not using any, here without the tilt objectives: what makes the conditions of
`C102_motion` on the jerks easy to meet (`MAXBOUND` is 10¹¹). -/
theorem C102_jerks_bounded (hw : ZebReaches o tr cx cy cs w) (hr : (zebSettingsOf cx cy cs).RefsCurrent) (hfb : 0 < fb)
    (hf : (zebSettingsOf cx cy cs).config = ⟨false, false, false, false⟩)
    (ht : (zebSettingsOf cx cy cs).weighting.tiltMinimization ≤ 0)
    (htv : (zebSettingsOf cx cy cs).weighting.tiltVelMinimization ≤ 0)
    (hX : ∀ i < 4 * (zebSettingsOf cx cy cs).nbSamples, |w.X.get i| ≤ MAXBOUND) :
    ∃ qp, ZebGives tr w fb qp ∧ ∀ (o' : Oracle K) b w', Spec.IsSolution qp (o' w.solver.calls qp 10000).2 →
      w.solve o' tr fb = .ok (b, w') → ∀ i < 4 * (zebSettingsOf cx cy cs).nbSamples,
      (zebSettingsOf cx cy cs).weighting.jerkMinimization * w'.X.get i ^ 2
        ≤ 2 * (zebSettingsOf cx cy cs).totalCost ((Spec.ZebSettings.init cx cy).usedShift (0, 0) cs) 0 0 w.state fun _ => 0 := by
  have h := zReachable_inv hw
  obtain ⟨qp, g, adv⟩ := C66_advance hw hr hfb
  obtain ⟨q, g', f⟩ := C57_constraints hw hr hfb
  obtain rfl := g.unique h g'
  obtain ⟨q, g', c, hc, ψx, ψy, ωx, ωy, -, hcost⟩ := C57_cost hw hr hfb
  obtain rfl := g.unique h g'
  refine ⟨qp, g, fun o' b w' hs e i hi => ?_⟩
  obtain ⟨-, hx, -, -⟩ := adv o' b w' e
  generalize (Spec.ZebSettings.init cx cy).usedShift (0, 0) cs = k at *
  generalize zebSettingsOf cx cy cs = s at *
  have hfe : Spec.Feasible qp fun i => -w.X.get i := by
    rw [f]
    unfold Spec.ZebSettings.Allowed
    rw [hf]
    simp only [Bool.false_eq_true, false_imp_iff, true_and, forall_const]
    intro i hi
    rw [add_neg_cancel, zero_sub, abs_neg]
    exact hX i hi
  have hle := hs.2 _ hfe
  rw [hcost, hcost, mul_le_mul_iff_right₀ hc] at hle
  have e0 : (fun i => w.X.get i + -w.X.get i) = fun _ => (0 : K) := funext fun i => add_neg_cancel _
  rw [e0] at hle
  set J := fun i => w.X.get i + (o' w.solver.calls qp 10000).2 i with hJ
  have hJi : w'.X.get i = J i := hx i hi
  rw [hJi]
  have m1 : max s.weighting.tiltMinimization 0 = 0 := max_eq_right ht
  have m2 : max s.weighting.tiltVelMinimization 0 = 0 := max_eq_right htv
  have nn : ∀ x y : K, 0 ≤ y → 0 ≤ max x 0 * y := fun x y hy => mul_nonneg (le_max_right _ _) hy
  have n1 : 0 ≤ s.velCost w.state J := sum_nonneg fun i _ => by positivity
  have n2 : 0 ≤ s.posCost w.state J := sum_nonneg fun i _ => by positivity
  have n3 : 0 ≤ s.copCost w.state J := sum_nonneg fun i _ => by positivity
  have n4 : 0 ≤ s.comCost k w.state J := sum_nonneg fun i _ => by positivity
  have n5 : J i ^ 2 ≤ s.jerkCost J := single_le_sum (f := fun i => J i ^ 2) (fun i _ => sq_nonneg _) (mem_range.2 hi)
  have n6 : s.weighting.jerkMinimization * J i ^ 2 ≤ max s.weighting.jerkMinimization 0 * s.jerkCost J :=
    mul_le_mul (le_max_left _ _) n5 (sq_nonneg _) (le_max_right _ _)
  have p1 := nn s.weighting.velocityTracking _ n1
  have p2 := nn s.weighting.positionTracking _ n2
  have p3 := nn s.weighting.copCentering _ n3
  have p4 := nn s.weighting.comCentering _ n4
  unfold Spec.ZebSettings.totalCost at hle ⊢
  simp only [m1, m2, zero_mul, add_zero] at hle ⊢
  linarith

theorem zFree_solvable {tr : Trig ℝ} {o : Oracle ℝ} {cx cy fb : ℝ} {cs : List (ZebCall ℝ)} {w : Zeb ℝ} {qp : QPMatrices ℝ}
    (hw : ZebReaches o tr cx cy cs w) (hf : (zebSettingsOf cx cy cs).config = ⟨false, false, false, false⟩)
    (hg : ZebGives tr w fb qp) : ∃ d, Spec.IsSolution qp d := by
  have h := zReachable_inv hw
  obtain ⟨b', w', e', -⟩ := hg o
  have hp := zCodePre_of_ok h o (.solve fb) (r := (b', w')) (by simpa [Zeb.step] using e')
  obtain ⟨qp', hg', hfe⟩ := C57_constraints hw hp.2 hp.1
  obtain rfl := hg.unique h hg'
  obtain ⟨_, _, hcon⟩ := hg.consistent h
  refine solution_exists hcon ⟨fun _ => 0, (hfe _).2 ?_⟩
  refine ⟨by rw [hf]; simp, by rw [hf]; simp, by rw [hf]; simp, by rw [hf]; simp, fun i _ _ => ?_⟩
  simp only [add_zero, sub_self, abs_zero]
  norm_num [MAXBOUND]

/-- **C102 over the real numbers**, where the QPs have solutions. -/
theorem C102_real {tr : Trig ℝ} {o₁ o₂ o₃ : Oracle ℝ} (ho₁ : Spec.FindsSolution o₁) (ho₂ : Spec.FindsSolution o₂)
    (ho₃ : Spec.FindsSolution o₃)
    {cx₁ cy₁ cx₂ cy₂ cx₃ cy₃ : ℝ} {cs₁ cs₂ cs₃ : List (ZebCall ℝ)} {w₁ w₂ w₃ : Zeb ℝ}
    (hw₁ : ZebReaches o₁ tr cx₁ cy₁ cs₁ w₁) (hw₂ : ZebReaches o₂ tr cx₂ cy₂ cs₂ w₂) (hw₃ : ZebReaches o₃ tr cx₃ cy₃ cs₃ w₃)
    (a b B : ℝ) (hab : a + b = 1)
    (hs₂ : { zebSettingsOf cx₁ cy₁ cs₁ with
        velRef := (zebSettingsOf cx₂ cy₂ cs₂).velRef
        posRef := (zebSettingsOf cx₂ cy₂ cs₂).posRef } = zebSettingsOf cx₂ cy₂ cs₂)
    (hs₃ : { zebSettingsOf cx₁ cy₁ cs₁ with
        velRef := (zebSettingsOf cx₃ cy₃ cs₃).velRef
        posRef := (zebSettingsOf cx₃ cy₃ cs₃).posRef } = zebSettingsOf cx₃ cy₃ cs₃)
    (hL₂ : (Spec.ZebSettings.init cx₂ cy₂).tiltHeight 0 cs₂ = (Spec.ZebSettings.init cx₁ cy₁).tiltHeight 0 cs₁)
    (hL₃ : (Spec.ZebSettings.init cx₃ cy₃).tiltHeight 0 cs₃ = (Spec.ZebSettings.init cx₁ cy₁).tiltHeight 0 cs₁)
    (hk₂ : (Spec.ZebSettings.init cx₂ cy₂).usedShift (0, 0) cs₂ = (Spec.ZebSettings.init cx₁ cy₁).usedShift (0, 0) cs₁)
    (hk₃ : (Spec.ZebSettings.init cx₃ cy₃).usedShift (0, 0) cs₃ = (Spec.ZebSettings.init cx₁ cy₁).usedShift (0, 0) cs₁)
    (hz : w₃.state = w₁.state.superpose a b w₂.state)
    (hX : ∀ i < 4 * (zebSettingsOf cx₁ cy₁ cs₁).nbSamples, w₃.X.get i = a * w₁.X.get i + b * w₂.X.get i)
    (hf : (zebSettingsOf cx₁ cy₁ cs₁).config = ⟨false, false, false, false⟩)
    (hj : 0 < (zebSettingsOf cx₁ cy₁ cs₁).weighting.jerkMinimization)
    (hc : (zebSettingsOf cx₁ cy₁ cs₁).copRef.size = 2 * (zebSettingsOf cx₁ cy₁ cs₁).nbSamples)
    (hB : 2 * B < MAXBOUND) (hB' : 2 * ((|a| + |b|) * B) ≤ MAXBOUND) (rs : List (Spec.PairRound ℝ))
    (hrs : ∀ r ∈ rs, r.velRef₁.size = 2 * (zebSettingsOf cx₁ cy₁ cs₁).nbSamples ∧
      r.posRef₁.size = 2 * (zebSettingsOf cx₁ cy₁ cs₁).nbSamples ∧ r.velRef₂.size = 2 * (zebSettingsOf cx₁ cy₁ cs₁).nbSamples ∧
      r.posRef₂.size = 2 * (zebSettingsOf cx₁ cy₁ cs₁).nbSamples ∧ 0 < r.period)
    (hX₁ : ∀ ds es w, rs = ds ++ es → ZebReaches o₁ tr cx₁ cy₁ (cs₁ ++ Spec.zRoundCalls (ds.map (·.first))) w →
      ∀ i < 4 * (zebSettingsOf cx₁ cy₁ cs₁).nbSamples, |w.X.get i| ≤ B)
    (hX₂ : ∀ ds es w, rs = ds ++ es → ZebReaches o₂ tr cx₂ cy₂ (cs₂ ++ Spec.zRoundCalls (ds.map (·.second))) w →
      ∀ i < 4 * (zebSettingsOf cx₁ cy₁ cs₁).nbSamples, |w.X.get i| ≤ B) :
    ∃ w₁' w₂' w₃', ZebReaches o₁ tr cx₁ cy₁ (cs₁ ++ Spec.zRoundCalls (rs.map (·.first))) w₁' ∧
      ZebReaches o₂ tr cx₂ cy₂ (cs₂ ++ Spec.zRoundCalls (rs.map (·.second))) w₂' ∧
      ZebReaches o₃ tr cx₃ cy₃ (cs₃ ++ Spec.zRoundCalls (rs.map (·.combined a b))) w₃' ∧
      w₃'.state = w₁'.state.superpose a b w₂'.state ∧
      ∀ i < 4 * (zebSettingsOf cx₁ cy₁ cs₁).nbSamples, w₃'.X.get i = a * w₁'.X.get i + b * w₂'.X.get i := by
  have cfg : ∀ (cx cy : ℝ) (cs : List (ZebCall ℝ)) (ds : List (Spec.Round ℝ)) (v p : Vec ℝ),
      (zebSettingsOf cx cy (cs ++ Spec.zRoundCalls ds ++ [.setVelRef v, .setPosRef p])).config = (zebSettingsOf cx cy cs).config := by
    intro cx cy cs ds v p
    unfold zebSettingsOf
    rw [after_append, after_append]
    exact (rfl : _ = (Spec.ZebSettings.after _ (Spec.zRoundCalls ds)).config).trans (zRounds_config ds)
  refine C102_motion ho₁ ho₂ ho₃ hw₁ hw₂ hw₃ a b B hab hs₂ hs₃ hL₂ hL₃ hk₂ hk₃ hz hX hf hj hc hB hB' rs hrs
    (fun ds r es w qp e hw hg => zFree_solvable hw (by rw [cfg, hf]) hg)
    (fun ds r es w qp e hw hg => zFree_solvable hw (by rw [cfg, ← hs₂, ← hf]) hg) hX₁ hX₂

/-! ### A robot at rest, one that moves, and a combination -/

/-- A robot that moves at the velocity `(vx, vy)` and has to follow the reference velocity `(1, 1)`. -/
noncomputable def zMoveCalls (px vx vy : ℝ) : List (ZebCall ℝ) :=
  zVelCalls ++ zPlaceCalls ⟨px, vx, 0⟩ ⟨0, vy, 0⟩ ⟨px, vx, 0⟩ ⟨0, vy, 0⟩

theorem zMove_reaches (o : Oracle ℝ) (tr : Trig ℝ) (px vx vy : ℝ) : ∃ w, ZebReaches o tr 0 0 (zMoveCalls px vx vy) w ∧
    w.state = ⟨⟨px, vx, 0⟩, ⟨0, vy, 0⟩, ⟨px, vx, 0⟩, ⟨0, vy, 0⟩⟩ ∧ ∀ i, w.X.get i = 0 := by
  obtain ⟨w0, hw0⟩ := C54_no_fault_partial o tr 0 0 zVelCalls
    (by simp [zVelCalls, Spec.ZebSettings.Legal, Spec.ZebSettings.Pre, Spec.ZebSettings.apply, Spec.ZebSettings.init, Vec.const])
    (by simp [zVelCalls, Spec.ZebSettings.RefsCurrentAtSolves])
  obtain ⟨w, r, s⟩ := zPlace_run o tr w0 ⟨px, vx, 0⟩ ⟨0, vy, 0⟩ ⟨px, vx, 0⟩ ⟨0, vy, 0⟩
  have h := (zReaches_append hw0).2 r
  exact ⟨w, h, s, zReaches_X h (by intro fb; simp [zVelCalls, zPlaceCalls])⟩

theorem zMove_bound {o : Oracle ℝ} (ho : Spec.FindsSolution o) {tr : Trig ℝ} {px vx vy c : ℝ}
    (hc : (vx - c) ^ 2 + (vy - c) ^ 2 ≤ 1000) {w : Zeb ℝ}
    (hw : ZebReaches o tr 0 0 (zMoveCalls px vx vy ++ Spec.zRoundCalls [⟨⟨2, fun _ => c⟩, ⟨2, fun _ => 0⟩, 1 / 10⟩]) w) :
    ∀ i < 4, |w.X.get i| ≤ 100 := by
  obtain ⟨w0, h0, s0, x0⟩ := zMove_reaches o tr px vx vy
  obtain ⟨y, f, st, pl⟩ := zRefs_run (zReachable_inv h0) o (v := ⟨2, fun _ => c⟩) (p := ⟨2, fun _ => 0⟩) rfl rfl
  have gy := (zReaches_append h0).2 f
  have hw' : ZebReaches o tr 0 0 ((zMoveCalls px vx vy ++ [.setVelRef ⟨2, fun _ => c⟩, .setPosRef ⟨2, fun _ => 0⟩])
      ++ [.solve (1 / 10)]) w := by simpa [Spec.zRoundCalls] using hw
  obtain ⟨qp, g, hb⟩ := C102_jerks_bounded (fb := 1 / 10) gy ⟨rfl, rfl, rfl⟩ (by norm_num) rfl le_rfl le_rfl
    (fun i _ => by rw [pl, x0, abs_zero]; norm_num [MAXBOUND])
  have hrun := (zReaches_append gy).1 hw'
  obtain ⟨b, z, m, -⟩ := g o
  obtain rfl : z = w := by
    simp only [Zeb.run, Zeb.step, m, ok_bind] at hrun
    exact Except.ok.inj hrun
  intro i hi
  have h := hb o b z (ho _ _ _ (zFree_solvable gy rfl g)) m i hi
  rw [st, s0] at h
  change 1 / 10 * z.X.get i ^ 2 ≤ _ at h
  have e : ∀ k, (zebSettingsOf (0 : ℝ) 0 (zMoveCalls px vx vy ++ [.setVelRef ⟨2, fun _ => c⟩, .setPosRef ⟨2, fun _ => 0⟩])).totalCost
      k 0 0 ⟨⟨px, vx, 0⟩, ⟨0, vy, 0⟩, ⟨px, vx, 0⟩, ⟨0, vy, 0⟩⟩ (fun _ => 0) = 1 / 2 * ((vx - c) ^ 2 + (vy - c) ^ 2) := by
    intro k
    simp [zebSettingsOf, Spec.ZebSettings.after, zMoveCalls, zVelCalls, zPlaceCalls, Spec.ZebSettings.apply, Spec.ZebSettings.init,
      Spec.ZebSettings.totalCost, Spec.ZebSettings.velCost, Spec.ZebSettings.jerkCost, Spec.ZebSettings.baseX,
      Spec.ZebSettings.baseY, Spec.jerkTrajectory, Spec.cubic, Spec.jerkBX, Spec.jerkBY]
  rw [e] at h
  rw [abs_le]
  constructor <;> nlinarith

/-- The hypotheses of `C102_real`, and with them those of `C102_motion` and `C102_solve`, are met by a robot at rest, one that moves at
the velocity `(3, -1)`, and twice the first one minus the second one. -/
example (o : Oracle ℝ) (ho : Spec.FindsSolution o) (tr : Trig ℝ) : ∃ w₁ w₂ w₃ : Zeb ℝ,
    ZebReaches o tr 0 0 (zMoveCalls 0 0 0 ++ Spec.zRoundCalls [⟨⟨2, fun _ => 1⟩, ⟨2, fun _ => 0⟩, 1 / 10⟩]) w₁ ∧
    ZebReaches o tr 0 0 (zMoveCalls 7 3 (-1) ++ Spec.zRoundCalls [⟨⟨2, fun _ => 4⟩, ⟨2, fun _ => 0⟩, 1 / 10⟩]) w₂ ∧
    ZebReaches o tr 0 0 (zMoveCalls (-7) (-3) 1 ++
      Spec.zRoundCalls [Spec.PairRound.combined 2 (-1) ⟨⟨2, fun _ => 1⟩, ⟨2, fun _ => 0⟩, ⟨2, fun _ => 4⟩, ⟨2, fun _ => 0⟩, 1 / 10⟩]) w₃ ∧
    w₃.state = w₁.state.superpose 2 (-1) w₂.state := by
  obtain ⟨w₁, h₁, s₁, x₁⟩ := zMove_reaches o tr 0 0 0
  obtain ⟨w₂, h₂, s₂, x₂⟩ := zMove_reaches o tr 7 3 (-1)
  obtain ⟨w₃, h₃, s₃, x₃⟩ := zMove_reaches o tr (-7) (-3) 1
  have cases : ∀ {r : Spec.PairRound ℝ} {ds es : List (Spec.PairRound ℝ)}, [r] = ds ++ es → ds = [] ∨ ds = [r] := by
    intro r ds es e
    rcases ds with _ | ⟨d, ds⟩
    · exact .inl rfl
    · simp only [List.cons_append, List.cons.injEq, List.nil_eq, List.append_eq_nil_iff] at e
      obtain ⟨rfl, rfl, -⟩ := e
      exact .inr rfl
  obtain ⟨w₁', w₂', w₃', g₁, g₂, g₃, g₄, -⟩ := C102_real ho ho ho h₁ h₂ h₃ 2 (-1) 100 (by norm_num) rfl rfl rfl rfl rfl rfl
    (by rw [s₁, s₂, s₃]; simp only [Spec.ZebState.superpose, Spec.superpose, Spec.ZebState.mk.injEq, State3.mk.injEq]; norm_num)
    (fun i _ => by rw [x₁, x₂, x₃]; norm_num) rfl (by change (0 : ℝ) < 1 / 10; norm_num) rfl
    (by norm_num [MAXBOUND]) (by norm_num [MAXBOUND])
    [⟨⟨2, fun _ => 1⟩, ⟨2, fun _ => 0⟩, ⟨2, fun _ => 4⟩, ⟨2, fun _ => 0⟩, 1 / 10⟩]
    (by intro r hr; obtain rfl := List.mem_singleton.1 hr; exact ⟨rfl, rfl, rfl, rfl, by norm_num⟩)
    (fun ds es w e hw i hi => by
      rcases cases e with rfl | rfl
      · rw [zReaches_X (w := w) (by simpa [Spec.zRoundCalls] using hw) (by intro fb; simp [zMoveCalls, zVelCalls, zPlaceCalls]), abs_zero]
        norm_num
      · exact zMove_bound ho (by norm_num) hw i hi)
    (fun ds es w e hw i hi => by
      rcases cases e with rfl | rfl
      · rw [zReaches_X (w := w) (by simpa [Spec.zRoundCalls] using hw) (by intro fb; simp [zMoveCalls, zVelCalls, zPlaceCalls]), abs_zero]
        norm_num
      · exact zMove_bound ho (by norm_num) hw i hi)
  exact ⟨w₁', w₂', w₃', g₁, g₂, g₃, g₄⟩

end MPC
