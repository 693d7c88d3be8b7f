import Verif.Lemmas.ZebConvex
import Verif.Props.ZebSuper

/-!
# C103: the plans that the constraints of `ZebulonWalkgen` allow, and their least cost, are convex in the states and in the
references of the base

Statements: `Verif.Spec.ZebSuper`.
-/

set_option linter.unusedSectionVars false

namespace MPC

open Finset

variable {K : Type} [Field K] [LinearOrder K] [IsStrictOrderedRing K] [FloorRing K]

variable {tr : Trig K} {fb : K}

/-- **C103.** Three generators, after whatever histories, with the same settings and any constraints, except that the states,
planned jerks and references of the base of the third one are a mean of those of the first two, with weights `a` and `b`.
The same mean of feasible points of the first two QPs is feasible for the third one. The costs of the QPs are, up to
positive factors and to constants, the documented costs, where the tilt is predicted in the same way for the three generators, and the mean
of two plans does not cost more than the mean of their costs. Hence the least cost is a convex function of states and
references. -/
theorem C103_convex {o₁ o₂ o₃ : Oracle K} {cx₁ cy₁ cx₂ cy₂ cx₃ cy₃ : K} {cs₁ cs₂ cs₃ : List (ZebCall K)} {w₁ w₂ w₃ : Zeb K}
    (hw₁ : ZebReaches o₁ tr cx₁ cy₁ cs₁ w₁) (hw₂ : ZebReaches o₂ tr cx₂ cy₂ cs₂ w₂) (hw₃ : ZebReaches o₃ tr cx₃ cy₃ cs₃ w₃)
    (a b : K) (ha : 0 ≤ a) (hb : 0 ≤ b) (hab : a + b = 1)
    (hs₂ : { zebSettingsOf cx₁ cy₁ cs₁ with
        velRef := (zebSettingsOf cx₂ cy₂ cs₂).velRef
        posRef := (zebSettingsOf cx₂ cy₂ cs₂).posRef } = zebSettingsOf cx₂ cy₂ cs₂)
    (hs₃ : { zebSettingsOf cx₁ cy₁ cs₁ with
        velRef := (zebSettingsOf cx₃ cy₃ cs₃).velRef
        posRef := (zebSettingsOf cx₃ cy₃ cs₃).posRef } = zebSettingsOf cx₃ cy₃ cs₃)
    (hv : Spec.Combines a b (zebSettingsOf cx₁ cy₁ cs₁).velRef (zebSettingsOf cx₂ cy₂ cs₂).velRef
      (zebSettingsOf cx₃ cy₃ cs₃).velRef)
    (hp : Spec.Combines a b (zebSettingsOf cx₁ cy₁ cs₁).posRef (zebSettingsOf cx₂ cy₂ cs₂).posRef
      (zebSettingsOf cx₃ cy₃ cs₃).posRef)
    (hL₂ : (Spec.ZebSettings.init cx₂ cy₂).tiltHeight 0 cs₂ = (Spec.ZebSettings.init cx₁ cy₁).tiltHeight 0 cs₁)
    (hL₃ : (Spec.ZebSettings.init cx₃ cy₃).tiltHeight 0 cs₃ = (Spec.ZebSettings.init cx₁ cy₁).tiltHeight 0 cs₁)
    (hk₂ : (Spec.ZebSettings.init cx₂ cy₂).usedShift (0, 0) cs₂ = (Spec.ZebSettings.init cx₁ cy₁).usedShift (0, 0) cs₁)
    (hk₃ : (Spec.ZebSettings.init cx₃ cy₃).usedShift (0, 0) cs₃ = (Spec.ZebSettings.init cx₁ cy₁).usedShift (0, 0) cs₁)
    (hz : w₃.state = w₁.state.superpose a b w₂.state)
    (hX : ∀ i < 4 * (zebSettingsOf cx₁ cy₁ cs₁).nbSamples, w₃.X.get i = a * w₁.X.get i + b * w₂.X.get i)
    (hr : (zebSettingsOf cx₁ cy₁ cs₁).RefsCurrent) (hfb : 0 < fb) :
    ∃ qp₁ qp₂ qp₃, ZebGives tr w₁ fb qp₁ ∧ ZebGives tr w₂ fb qp₂ ∧ ZebGives tr w₃ fb qp₃ ∧
      (∀ d₁ d₂, Spec.Feasible qp₁ d₁ → Spec.Feasible qp₂ d₂ → Spec.Feasible qp₃ fun i => a * d₁ i + b * d₂ i) ∧
      ∃ (c₁ c₂ c₃ : K) (ψx ψy ωx ωy : Spec.ZebState K → (ℕ → K) → ℕ → K), 0 < c₁ ∧ 0 < c₂ ∧ 0 < c₃ ∧
        ((zebSettingsOf cx₁ cy₁ cs₁).period ^ 2 * EPS ≤ 2 → ∀ z X,
          (zebSettingsOf cx₁ cy₁ cs₁).PredictsCodeTilt ((Spec.ZebSettings.init cx₁ cy₁).tiltHeight 0 cs₁)
            (zebSettingsOf cx₁ cy₁ cs₁).contactX ((zebSettingsOf cx₁ cy₁ cs₁).comX z X)
            ((zebSettingsOf cx₁ cy₁ cs₁).baseX z X) (zebSettingsOf cx₁ cy₁ cs₁).roll (ψx z X) (ωx z X) ∧
          (zebSettingsOf cx₁ cy₁ cs₁).PredictsCodeTilt ((Spec.ZebSettings.init cx₁ cy₁).tiltHeight 0 cs₁)
            (zebSettingsOf cx₁ cy₁ cs₁).contactY ((zebSettingsOf cx₁ cy₁ cs₁).comY z X)
            ((zebSettingsOf cx₁ cy₁ cs₁).baseY z X) (zebSettingsOf cx₁ cy₁ cs₁).pitch (ψy z X) (ωy z X)) ∧
        ∃ F : Spec.ZebSettings K → Spec.ZebState K → (ℕ → K) → K,
          (∀ s z X, F s z X = s.totalCost ((Spec.ZebSettings.init cx₁ cy₁).usedShift (0, 0) cs₁)
            (s.tiltCost (ψx z X) (ψy z X)) (s.tiltCost (ωx z X) (ωy z X)) z X) ∧
          (∀ d, Spec.cost qp₁ d = c₁ * (F (zebSettingsOf cx₁ cy₁ cs₁) w₁.state (fun i => w₁.X.get i + d i)
            - F (zebSettingsOf cx₁ cy₁ cs₁) w₁.state w₁.X.get)) ∧
          (∀ d, Spec.cost qp₂ d = c₂ * (F (zebSettingsOf cx₂ cy₂ cs₂) w₂.state (fun i => w₂.X.get i + d i)
            - F (zebSettingsOf cx₂ cy₂ cs₂) w₂.state w₂.X.get)) ∧
          (∀ d, Spec.cost qp₃ d = c₃ * (F (zebSettingsOf cx₃ cy₃ cs₃) w₃.state (fun i => w₃.X.get i + d i)
            - F (zebSettingsOf cx₃ cy₃ cs₃) w₃.state w₃.X.get)) ∧
          (∀ J₁ J₂, F (zebSettingsOf cx₃ cy₃ cs₃) w₃.state (fun i => a * J₁ i + b * J₂ i)
            ≤ a * F (zebSettingsOf cx₁ cy₁ cs₁) w₁.state J₁ + b * F (zebSettingsOf cx₂ cy₂ cs₂) w₂.state J₂) ∧
          ∀ d₁ d₂ d₃, Spec.Feasible qp₁ d₁ → Spec.Feasible qp₂ d₂ → Spec.IsSolution qp₃ d₃ →
            F (zebSettingsOf cx₃ cy₃ cs₃) w₃.state (fun i => w₃.X.get i + d₃ i)
              ≤ a * F (zebSettingsOf cx₁ cy₁ cs₁) w₁.state (fun i => w₁.X.get i + d₁ i)
                + b * F (zebSettingsOf cx₂ cy₂ cs₂) w₂.state (fun i => w₂.X.get i + d₂ i) := by
  obtain rfl : b = 1 - a := by linear_combination hab
  have h₁ := zReachable_inv hw₁
  have h₂ := zReachable_inv hw₂
  have h₃ := zReachable_inv hw₃
  have eN₂ : (zebSettingsOf cx₂ cy₂ cs₂).nbSamples = (zebSettingsOf cx₁ cy₁ cs₁).nbSamples := by rw [← hs₂]
  have eN₃ : (zebSettingsOf cx₃ cy₃ cs₃).nbSamples = (zebSettingsOf cx₁ cy₁ cs₁).nbSamples := by rw [← hs₃]
  have hr₂ : (zebSettingsOf cx₂ cy₂ cs₂).RefsCurrent := by
    refine ⟨?_, ?_, ?_⟩
    · rw [hv.size₂, eN₂]; exact hr.1
    · rw [hp.size₂, eN₂]; exact hr.2.1
    · rw [eN₂, ← hr.2.2, ← hs₂]
  have hr₃ : (zebSettingsOf cx₃ cy₃ cs₃).RefsCurrent := by
    refine ⟨?_, ?_, ?_⟩
    · rw [hv.size₃, eN₃]; exact hr.1
    · rw [hp.size₃, eN₃]; exact hr.2.1
    · rw [eN₃, ← hr.2.2, ← hs₃]
  obtain ⟨qp₁, u, ps, v, qs, g₁, hq₁, -⟩ := zebGives_of_inv h₁ hr hfb
  obtain ⟨qp₂, u₂, ps₂, v₂, qs₂, g₂, hq₂, -⟩ := zebGives_of_inv h₂ hr₂ hfb
  obtain ⟨qp₃, u₃, ps₃, v₃, qs₃, g₃, hq₃, -⟩ := zebGives_of_inv h₃ hr₃ hfb
  obtain ⟨q₁, f₁', f₁⟩ := C57_constraints hw₁ hr hfb
  obtain rfl := g₁.unique h₁ f₁'
  obtain ⟨q₂, f₂', f₂⟩ := C57_constraints hw₂ hr₂ hfb
  obtain rfl := g₂.unique h₂ f₂'
  obtain ⟨q₃, f₃', f₃⟩ := C57_constraints hw₃ hr₃ hfb
  obtain rfl := g₃.unique h₃ f₃'
  have hT : 0 < (zebSettingsOf cx₁ cy₁ cs₁).period := h₁.part.user.model.T_pos
  have hv' : ∀ i < 2 * (zebSettingsOf cx₁ cy₁ cs₁).nbSamples, (zebSettingsOf cx₃ cy₃ cs₃).velRef.get i
      = a * (zebSettingsOf cx₁ cy₁ cs₁).velRef.get i + (1 - a) * (zebSettingsOf cx₂ cy₂ cs₂).velRef.get i :=
    fun i hi => hv.get i (by rw [hr.1]; exact hi)
  have hp' : ∀ i < 2 * (zebSettingsOf cx₁ cy₁ cs₁).nbSamples, (zebSettingsOf cx₃ cy₃ cs₃).posRef.get i
      = a * (zebSettingsOf cx₁ cy₁ cs₁).posRef.get i + (1 - a) * (zebSettingsOf cx₂ cy₂ cs₂).posRef.get i :=
    fun i hi => hp.get i (by rw [hr.2.1]; exact hi)
  change ZPrep tr (zebSettingsOf cx₁ cy₁ cs₁) _ _ w₁ u ps v qs qp₁ at hq₁
  change ZPrep tr (zebSettingsOf cx₂ cy₂ cs₂) _ _ w₂ u₂ ps₂ v₂ qs₂ qp₂ at hq₂
  change ZPrep tr (zebSettingsOf cx₃ cy₃ cs₃) _ _ w₃ u₃ ps₃ v₃ qs₃ qp₃ at hq₃
  rw [hL₂, hk₂] at hq₂
  rw [hL₃, hk₃] at hq₃
  clear hv hp hr hr₂ hr₃ h₁ h₂ h₃ hw₁ hw₂ hw₃ f₁' f₂' f₃' eN₂ eN₃ hL₂ hL₃ hk₂ hk₃
  generalize (Spec.ZebSettings.init cx₁ cy₁).tiltHeight 0 cs₁ = L at *
  generalize (Spec.ZebSettings.init cx₁ cy₁).usedShift (0, 0) cs₁ = k at *
  generalize zebSettingsOf cx₁ cy₁ cs₁ = s at *
  generalize zebSettingsOf cx₂ cy₂ cs₂ = s₂ at *
  generalize zebSettingsOf cx₃ cy₃ cs₃ = s₃ at *
  generalize s₂.posRef = r₂ at *
  generalize s₂.velRef = rv₂ at *
  generalize s₃.posRef = r₃ at *
  generalize s₃.velRef = rv₃ at *
  subst hs₂ hs₃
  obtain ⟨cu₂, cps₂⟩ := hq₁.sol.unique (⟨hq₂.sol.inv, hq₂.sol.ps⟩ : TiltSol s L u₂ ps₂)
  obtain ⟨cv₂, cqs₂⟩ := hq₁.velSol.unique (⟨hq₂.velSol.inv, hq₂.velSol.ps⟩ : TiltVelSol s L v₂ qs₂)
  obtain ⟨cu₃, cps₃⟩ := hq₁.sol.unique (⟨hq₃.sol.inv, hq₃.sol.ps⟩ : TiltSol s L u₃ ps₃)
  obtain ⟨cv₃, cqs₃⟩ := hq₁.velSol.unique (⟨hq₃.velSol.inv, hq₃.velSol.ps⟩ : TiltVelSol s L v₃ qs₃)
  set s₂ : Spec.ZebSettings K := { s with
    velRef := rv₂
    posRef := r₂ } with hs₂
  set s₃ : Spec.ZebSettings K := { s with
    velRef := rv₃
    posRef := r₃ } with hs₃
  have k₁ : ∀ d, Spec.cost qp₁ d = w₁.invObj * (zTotal s L k u ps v qs w₁.state (fun i => w₁.X.get i + d i)
      - zTotal s L k u ps v qs w₁.state w₁.X.get) := fun d => zCost hq₁ d
  have k₂ : ∀ d, Spec.cost qp₂ d = w₂.invObj * (zTotal s₂ L k u ps v qs w₂.state (fun i => w₂.X.get i + d i)
      - zTotal s₂ L k u ps v qs w₂.state w₂.X.get) := fun d => by
    rw [← zTotal_congr (s := s₂) (fun i hi j hj => (cu₂ i hi j hj).symm) (fun i hi j hj => (cps₂ i hi j hj).symm)
      (fun i hi j hj => (cv₂ i hi j hj).symm) (fun i hi j hj => (cqs₂ i hi j hj).symm),
      ← zTotal_congr (s := s₂) (u := u) (fun i hi j hj => (cu₂ i hi j hj).symm) (fun i hi j hj => (cps₂ i hi j hj).symm)
      (fun i hi j hj => (cv₂ i hi j hj).symm) (fun i hi j hj => (cqs₂ i hi j hj).symm)]
    exact zCost hq₂ d
  have k₃ : ∀ d, Spec.cost qp₃ d = w₃.invObj * (zTotal s₃ L k u ps v qs w₃.state (fun i => w₃.X.get i + d i)
      - zTotal s₃ L k u ps v qs w₃.state w₃.X.get) := fun d => by
    rw [← zTotal_congr (s := s₃) (fun i hi j hj => (cu₃ i hi j hj).symm) (fun i hi j hj => (cps₃ i hi j hj).symm)
      (fun i hi j hj => (cv₃ i hi j hj).symm) (fun i hi j hj => (cqs₃ i hi j hj).symm),
      ← zTotal_congr (s := s₃) (u := u) (fun i hi j hj => (cu₃ i hi j hj).symm) (fun i hi j hj => (cps₃ i hi j hj).symm)
      (fun i hi j hj => (cv₃ i hi j hj).symm) (fun i hi j hj => (cqs₃ i hi j hj).symm)]
    exact zCost hq₃ d
  have hfeas : ∀ d₁ d₂ d₃, (∀ i < 4 * s.nbSamples, w₃.X.get i + d₃ i = a * (w₁.X.get i + d₁ i) + (1 - a) * (w₂.X.get i + d₂ i)) →
      Spec.Feasible qp₁ d₁ → Spec.Feasible qp₂ d₂ → Spec.Feasible qp₃ d₃ := by
    intro d₁ d₂ d₃ hd hd₁ hd₂
    rw [f₃, hz]
    exact allowed_mean (s := s) ha hb _ _ hX hd ((f₁ d₁).1 hd₁) ((f₂ d₂).1 hd₂)
  have hconv : ∀ J₁ J₂, zTotal s₃ L k u ps v qs w₃.state (fun i => a * J₁ i + (1 - a) * J₂ i)
      ≤ a * zTotal s L k u ps v qs w₁.state J₁ + (1 - a) * zTotal s₂ L k u ps v qs w₂.state J₂ := by
    intro J₁ J₂
    rw [hz]
    obtain ⟨-, -, -, -, -, h⟩ := zTotal_super (s := s) (a := a) (rv₂ := rv₂) (r₂ := r₂) (rv₃ := rv₃) (r₃ := r₃) (z₁ := w₁.state)
      (z₂ := w₂.state) (J₁ := J₁) (J₂ := J₂) hv' hp' L k u ps v qs
    exact h ha hb hab
  refine ⟨qp₁, qp₂, qp₃, g₁, g₂, g₃, fun d₁ d₂ hd₁ hd₂ => hfeas d₁ d₂ _ (fun i hi => by rw [hX i hi]; ring) hd₁ hd₂,
    w₁.invObj, w₂.invObj, w₃.invObj,
    fun z X => zTilt s L u ps s.roll s.contactX (s.comX z X) (s.baseX z X),
    fun z X => zTilt s L u ps s.pitch s.contactY (s.comY z X) (s.baseY z X),
    fun z X => zTilt s L v qs s.roll s.contactX (s.comX z X) (s.baseX z X),
    fun z X => zTilt s L v qs s.pitch s.contactY (s.comY z X) (s.baseY z X),
    hq₁.invObj_pos, hq₂.invObj_pos, hq₃.invObj_pos,
    fun hE z X => ⟨zTilt_motion hT hE hq₁.sol hq₁.velSol _ _ _ _, zTilt_motion hT hE hq₁.sol hq₁.velSol _ _ _ _⟩,
    _, fun _ _ _ => rfl, k₁, k₂, k₃, hconv, fun d₁ d₂ d₃ hd₁ hd₂ hd₃ => ?_⟩
  have hle := hd₃.2 _ (hfeas d₁ d₂ (fun i => a * (w₁.X.get i + d₁ i) + (1 - a) * (w₂.X.get i + d₂ i) - w₃.X.get i)
    (fun i _ => by ring) hd₁ hd₂)
  rw [k₃, k₃, mul_le_mul_iff_right₀ hq₃.invObj_pos] at hle
  simp only [add_sub_cancel] at hle
  exact ((sub_le_sub_iff_right _).1 hle).trans (hconv _ _)

/-- **C103 over the real numbers**, where the QPs that allow something have solutions: if the first two generators of
`C103_convex` have feasible QPs, then `solve` of the third one succeeds and adds a solution of its QP to the planned jerks, for every
solver that finds solutions. -/
theorem C103_real {tr : Trig ℝ} {fb : ℝ} {o₁ o₂ o₃ : Oracle ℝ} {cx₁ cy₁ cx₂ cy₂ cx₃ cy₃ : ℝ} {cs₁ cs₂ cs₃ : List (ZebCall ℝ)} {w₁ w₂ w₃ : Zeb ℝ}
    (hw₁ : ZebReaches o₁ tr cx₁ cy₁ cs₁ w₁) (hw₂ : ZebReaches o₂ tr cx₂ cy₂ cs₂ w₂) (hw₃ : ZebReaches o₃ tr cx₃ cy₃ cs₃ w₃)
    (a b : ℝ) (ha : 0 ≤ a) (hb : 0 ≤ b) (hab : a + b = 1)
    (hs₂ : { zebSettingsOf cx₁ cy₁ cs₁ with
        velRef := (zebSettingsOf cx₂ cy₂ cs₂).velRef
        posRef := (zebSettingsOf cx₂ cy₂ cs₂).posRef } = zebSettingsOf cx₂ cy₂ cs₂)
    (hs₃ : { zebSettingsOf cx₁ cy₁ cs₁ with
        velRef := (zebSettingsOf cx₃ cy₃ cs₃).velRef
        posRef := (zebSettingsOf cx₃ cy₃ cs₃).posRef } = zebSettingsOf cx₃ cy₃ cs₃)
    (hv : Spec.Combines a b (zebSettingsOf cx₁ cy₁ cs₁).velRef (zebSettingsOf cx₂ cy₂ cs₂).velRef
      (zebSettingsOf cx₃ cy₃ cs₃).velRef)
    (hp : Spec.Combines a b (zebSettingsOf cx₁ cy₁ cs₁).posRef (zebSettingsOf cx₂ cy₂ cs₂).posRef
      (zebSettingsOf cx₃ cy₃ cs₃).posRef)
    (hL₂ : (Spec.ZebSettings.init cx₂ cy₂).tiltHeight 0 cs₂ = (Spec.ZebSettings.init cx₁ cy₁).tiltHeight 0 cs₁)
    (hL₃ : (Spec.ZebSettings.init cx₃ cy₃).tiltHeight 0 cs₃ = (Spec.ZebSettings.init cx₁ cy₁).tiltHeight 0 cs₁)
    (hk₂ : (Spec.ZebSettings.init cx₂ cy₂).usedShift (0, 0) cs₂ = (Spec.ZebSettings.init cx₁ cy₁).usedShift (0, 0) cs₁)
    (hk₃ : (Spec.ZebSettings.init cx₃ cy₃).usedShift (0, 0) cs₃ = (Spec.ZebSettings.init cx₁ cy₁).usedShift (0, 0) cs₁)
    (hz : w₃.state = w₁.state.superpose a b w₂.state)
    (hX : ∀ i < 4 * (zebSettingsOf cx₁ cy₁ cs₁).nbSamples, w₃.X.get i = a * w₁.X.get i + b * w₂.X.get i)
    (hr : (zebSettingsOf cx₁ cy₁ cs₁).RefsCurrent) (hfb : 0 < fb) :
    ∃ qp₁ qp₂ qp₃, ZebGives tr w₁ fb qp₁ ∧ ZebGives tr w₂ fb qp₂ ∧ ZebGives tr w₃ fb qp₃ ∧
      ((∃ d, Spec.Feasible qp₁ d) → (∃ d, Spec.Feasible qp₂ d) → ∀ o : Oracle ℝ, Spec.FindsSolution o →
        ∃ b₃ w₃' d₃, w₃.solve o tr fb = .ok (b₃, w₃') ∧ Spec.IsSolution qp₃ d₃ ∧
          ∀ i < w₃.X.size, w₃'.X.get i = w₃.X.get i + d₃ i) := by
  obtain ⟨qp₁, qp₂, qp₃, g₁, g₂, g₃, hf, -⟩ := C103_convex hw₁ hw₂ hw₃ a b ha hb hab hs₂ hs₃ hv hp hL₂ hL₃ hk₂ hk₃ hz hX hr hfb
  refine ⟨qp₁, qp₂, qp₃, g₁, g₂, g₃, fun ⟨d₁, hd₁⟩ ⟨d₂, hd₂⟩ o ho => ?_⟩
  obtain ⟨_, _, hcon⟩ := g₃.consistent (zReachable_inv hw₃)
  obtain ⟨b₃, w₃', e, -, hw'⟩ := g₃ o
  exact ⟨b₃, w₃', _, e, ho _ _ _ (solution_exists hcon ⟨_, hf d₁ d₂ hd₁ hd₂⟩), hw'⟩

theorem zRoll_feasible (o : Oracle ℚ) (px vx : ℚ) (hpv : (px, vx) = (3, 0) ∨ (px, vx) = (10, 2) ∨ (px, vx) = (13 / 2, 1)) {w : Zeb ℚ}
    {qp : QPMatrices ℚ} (hw : ZebReaches o trigZero 0 0 (zRollHistory px vx) w)
    (hz : w.state = ⟨⟨px + 1 / 2, vx, 0⟩, ⟨-2, 0, 0⟩, ⟨px, vx, 0⟩, ⟨-2, 0, 0⟩⟩) (hX : ∀ i < 4, w.X.get i = 0)
    (hg : ZebGives trigZero w (1 / 10) qp) : Spec.Feasible qp fun _ => 0 := by
  obtain ⟨qp', hg', hf⟩ := C57_constraints hw ⟨rfl, rfl, rfl⟩ (fb := 1 / 10) (by norm_num)
  obtain rfl := hg.unique (zReachable_inv hw) hg'
  rw [hf, hz]
  have hc : ∀ i < (zebSettingsOf 0 0 (zRollHistory px vx)).nbSamples, ∀ z,
      (zebSettingsOf 0 0 (zRollHistory px vx)).copRel z w.X.get i = (zebSettingsOf 0 0 (zRollHistory px vx)).copRel z (fun _ => 0) i ∧
      (zebSettingsOf 0 0 (zRollHistory px vx)).comRel z w.X.get i = (zebSettingsOf 0 0 (zRollHistory px vx)).comRel z (fun _ => 0) i ∧
      (zebSettingsOf 0 0 (zRollHistory px vx)).comX z w.X.get i = (zebSettingsOf 0 0 (zRollHistory px vx)).comX z (fun _ => 0) i ∧
      (zebSettingsOf 0 0 (zRollHistory px vx)).comY z w.X.get i = (zebSettingsOf 0 0 (zRollHistory px vx)).comY z (fun _ => 0) i ∧
      (zebSettingsOf 0 0 (zRollHistory px vx)).baseX z w.X.get i = (zebSettingsOf 0 0 (zRollHistory px vx)).baseX z (fun _ => 0) i ∧
      (zebSettingsOf 0 0 (zRollHistory px vx)).baseY z w.X.get i = (zebSettingsOf 0 0 (zRollHistory px vx)).baseY z (fun _ => 0) i := by
    intro i hi z
    obtain rfl : i = 0 := by
      have : i < 1 := hi
      omega
    have eN : (zebSettingsOf 0 0 (zRollHistory px vx)).nbSamples = 1 := rfl
    generalize zebSettingsOf 0 0 (zRollHistory px vx) = s at *
    have e1 : s.comX z w.X.get 0 = s.comX z (fun _ => 0) 0 := by
      simp [Spec.ZebSettings.comX, Spec.jerkTrajectory, Spec.jerkCX, hX]
    have e2 : s.comY z w.X.get 0 = s.comY z (fun _ => 0) 0 := by
      simp [Spec.ZebSettings.comY, Spec.jerkTrajectory, Spec.jerkCY, hX, eN]
    have e3 : s.baseX z w.X.get 0 = s.baseX z (fun _ => 0) 0 := by
      simp [Spec.ZebSettings.baseX, Spec.jerkTrajectory, Spec.jerkBX, hX, eN]
    have e4 : s.baseY z w.X.get 0 = s.baseY z (fun _ => 0) 0 := by
      simp [Spec.ZebSettings.baseY, Spec.jerkTrajectory, Spec.jerkBY, hX, eN]
    refine ⟨?_, ?_, e1, e2, e3, e4⟩
    · simp only [Spec.ZebSettings.copRel, Spec.ZebSettings.copRelX, Spec.ZebSettings.copRelY, e1, e2, e3, e4]
    · simp only [Spec.ZebSettings.comRel, Spec.ZebSettings.comRelX, Spec.ZebSettings.comRelY, e1, e2, e3, e4]
  simp only [add_zero]
  refine ⟨fun _ e he i hi => ?_, fun h => absurd h (by 
      simp [zebSettingsOf, Spec.ZebSettings.after, zRollHistory, Spec.ZebSettings.apply]),
    fun _ e he i hi => ?_, fun _ i hi => ?_, fun i _ _ => by rw [sub_self, abs_zero]; norm_num [MAXBOUND]⟩
  · rw [sub_self, (hc i hi _).1]
    refine ⟨?_, by norm_num [MAXBOUND]⟩
    unfold Spec.InnerSide
    revert i e
    rcases hpv with h | h | h <;> cases h <;> (show ∀ e < 4, ∀ i < 1, _) <;> decide +kernel
  · rw [sub_self, (hc i hi _).2.1]
    refine ⟨?_, by norm_num [MAXBOUND]⟩
    unfold Spec.InnerSide
    revert i e
    rcases hpv with h | h | h <;> cases h <;> (show ∀ e < 4, ∀ i < 1, _) <;> decide +kernel
  · obtain ⟨-, -, e1, e2, e3, e4⟩ := hc i hi ⟨⟨px + 1 / 2, vx, 0⟩, ⟨-2, 0, 0⟩, ⟨px, vx, 0⟩, ⟨-2, 0, 0⟩⟩
    rw [e1, e2, e3, e4]
    clear e1 e2 e3 e4
    revert i
    rcases hpv with h | h | h <;> cases h <;> (show ∀ i < 1, _) <;> decide +kernel

/-- The hypotheses of `C103_convex`, which are also those of `C103_real`, are met with both polygons, the heading and all objectives on, and with feasible QPs, by a robot at rest, one that
moves at the velocity 2, and one in the middle that moves at the velocity 1. -/
example (o : Oracle ℚ) : ∃ w₁ w₂ w₃ qp₁ qp₂ qp₃, ZebReaches o trigZero 0 0 (zRollHistory 3 0) w₁ ∧
    ZebReaches o trigZero 0 0 (zRollHistory 10 2) w₂ ∧ ZebReaches o trigZero 0 0 (zRollHistory (13 / 2) 1) w₃ ∧
    ZebGives trigZero w₁ (1 / 10) qp₁ ∧ ZebGives trigZero w₂ (1 / 10) qp₂ ∧ ZebGives trigZero w₃ (1 / 10) qp₃ ∧
    (∃ d, Spec.Feasible qp₁ d) ∧ (∃ d, Spec.Feasible qp₂ d) ∧
    ∀ d₁ d₂, Spec.Feasible qp₁ d₁ → Spec.Feasible qp₂ d₂ → Spec.Feasible qp₃ fun i => 1 / 2 * d₁ i + 1 / 2 * d₂ i := by
  obtain ⟨w₁, h₁, z₁, x₁⟩ := zRoll_reaches o 3 0 (.inl rfl)
  obtain ⟨w₂, h₂, z₂, x₂⟩ := zRoll_reaches o 10 2 (.inr (.inl rfl))
  obtain ⟨w₃, h₃, z₃, x₃⟩ := zRoll_reaches o (13 / 2) 1 (.inr (.inr rfl))
  obtain ⟨qp₁, qp₂, qp₃, g₁, g₂, g₃, hf, -⟩ := C103_convex h₁ h₂ h₃ (1 / 2) (1 / 2) (by norm_num) (by norm_num) (by norm_num)
    (by simp only [zebSettingsOf, Spec.ZebSettings.after, zRollHistory, List.foldl, Spec.ZebSettings.apply])
    (by simp only [zebSettingsOf, Spec.ZebSettings.after, zRollHistory, List.foldl, Spec.ZebSettings.apply])
    ⟨rfl, rfl, by show ∀ i < 2, _; decide +kernel⟩ ⟨rfl, rfl, by show ∀ i < 2, _; decide +kernel⟩
    (by decide +kernel) (by decide +kernel) (by decide +kernel) (by decide +kernel)
    (by
      rw [z₁, z₂, z₃]
      simp only [Spec.ZebState.superpose, Spec.superpose, Spec.ZebState.mk.injEq, State3.mk.injEq]; norm_num)
    (fun i hi => by rw [x₁ i hi, x₂ i hi, x₃ i hi]; norm_num) ⟨rfl, rfl, rfl⟩ (fb := 1 / 10) (by norm_num)
  exact ⟨w₁, w₂, w₃, qp₁, qp₂, qp₃, h₁, h₂, h₃, g₁, g₂, g₃, ⟨_, zRoll_feasible o 3 0 (.inl rfl) h₁ z₁ x₁ g₁⟩,
    ⟨_, zRoll_feasible o 10 2 (.inr (.inl rfl)) h₂ z₂ x₂ g₂⟩, hf⟩

end MPC
