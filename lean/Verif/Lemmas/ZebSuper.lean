import Verif.Lemmas.Superpose
import Verif.Lemmas.ZebMeaning
import Verif.Spec.ZebSuper

/-! # Lemmas on the superposition of motions of `ZebulonWalkgen` -/

set_option linter.unusedSectionVars false

namespace MPC

open Finset

variable {K : Type} [Field K] [LinearOrder K] [IsStrictOrderedRing K]

/-! ### Costs that are quadratic along lines, with combined slopes -/

/-- Along all lines the three costs are quadratic with the same curvature, and the slope of the third one at the combination of
`J₁` and `J₂` is the combination of the slopes of the others at `J₁` and `J₂`; a mean of `J₁` and `J₂` does not cost more than the
mean of the costs. -/
def SuperCost (a b : K) (J₁ J₂ : ℕ → K) (f₁ f₂ f₃ : (ℕ → K) → K) : Prop :=
  ∃ S₁ S₂ C : (ℕ → K) → K, (∀ d, 0 ≤ C d) ∧ (∀ d t,
    f₁ (fun i => J₁ i + t * d i) = f₁ J₁ + t * S₁ d + t ^ 2 * C d ∧
    f₂ (fun i => J₂ i + t * d i) = f₂ J₂ + t * S₂ d + t ^ 2 * C d ∧
    f₃ (fun i => (a * J₁ i + b * J₂ i) + t * d i)
      = f₃ (fun i => a * J₁ i + b * J₂ i) + t * (a * S₁ d + b * S₂ d) + t ^ 2 * C d) ∧
    (0 ≤ a → 0 ≤ b → a + b = 1 → f₃ (fun i => a * J₁ i + b * J₂ i) ≤ a * f₁ J₁ + b * f₂ J₂)

/-- The three quantities are affine, with the same linear part, and the third one at the combination is the combination. -/
def SuperAff (a b : K) (J₁ J₂ : ℕ → K) (r₁ r₂ r₃ : (ℕ → K) → K) : Prop :=
  ∃ ρ : (ℕ → K) → K, ∀ d t,
    r₁ (fun i => J₁ i + t * d i) = r₁ J₁ + t * ρ d ∧
    r₂ (fun i => J₂ i + t * d i) = r₂ J₂ + t * ρ d ∧
    r₃ (fun i => (a * J₁ i + b * J₂ i) + t * d i) = a * r₁ J₁ + b * r₂ J₂ + t * ρ d

section
variable {a b : K} {J₁ J₂ : ℕ → K} {f₁ f₂ f₃ g₁ g₂ g₃ : (ℕ → K) → K}

theorem SuperAff.sq (h : SuperAff a b J₁ J₂ f₁ f₂ f₃) :
    SuperCost a b J₁ J₂ (fun J => f₁ J ^ 2) (fun J => f₂ J ^ 2) fun J => f₃ J ^ 2 := by
  obtain ⟨ρ, h⟩ := h
  have h0 : f₃ (fun i => a * J₁ i + b * J₂ i) = a * f₁ J₁ + b * f₂ J₂ := by
    have := (h 0 0).2.2
    simpa using this
  refine ⟨fun d => 2 * f₁ J₁ * ρ d, fun d => 2 * f₂ J₂ * ρ d, fun d => ρ d ^ 2, fun d => sq_nonneg _, fun d t => ?_,
    fun ha hb hab => ?_⟩
  swap
  · simp only [h0]
    obtain rfl : b = 1 - a := by linear_combination hab
    nlinarith [mul_nonneg (mul_nonneg ha hb) (sq_nonneg (f₁ J₁ - f₂ J₂))]
  obtain ⟨e1, e2, e3⟩ := h d t
  simp only [e1, e2, e3, h0]
  refine ⟨by ring, by ring, by ring⟩

theorem SuperCost.add (h : SuperCost a b J₁ J₂ f₁ f₂ f₃) (h' : SuperCost a b J₁ J₂ g₁ g₂ g₃) :
    SuperCost a b J₁ J₂ (fun J => f₁ J + g₁ J) (fun J => f₂ J + g₂ J) fun J => f₃ J + g₃ J := by
  obtain ⟨S₁, S₂, C, hC, h, v⟩ := h
  obtain ⟨S₁', S₂', C', hC', h', v'⟩ := h'
  refine ⟨fun d => S₁ d + S₁' d, fun d => S₂ d + S₂' d, fun d => C d + C' d, fun d => add_nonneg (hC d) (hC' d), fun d t => ?_,
    fun ha hb hab => by linarith [v ha hb hab, v' ha hb hab]⟩
  obtain ⟨e1, e2, e3⟩ := h d t
  obtain ⟨e1', e2', e3'⟩ := h' d t
  simp only [e1, e2, e3, e1', e2', e3']
  refine ⟨by ring, by ring, by ring⟩

theorem SuperCost.smul {c : K} (hc : 0 ≤ c) (h : SuperCost a b J₁ J₂ f₁ f₂ f₃) :
    SuperCost a b J₁ J₂ (fun J => c * f₁ J) (fun J => c * f₂ J) fun J => c * f₃ J := by
  obtain ⟨S₁, S₂, C, hC, h, v⟩ := h
  refine ⟨fun d => c * S₁ d, fun d => c * S₂ d, fun d => c * C d, fun d => mul_nonneg hc (hC d), fun d t => ?_,
    fun ha hb hab => by nlinarith [mul_le_mul_of_nonneg_left (v ha hb hab) hc]⟩
  obtain ⟨e1, e2, e3⟩ := h d t
  simp only [e1, e2, e3]
  refine ⟨by ring, by ring, by ring⟩

theorem SuperCost.sum {n : ℕ} {f₁ f₂ f₃ : ℕ → (ℕ → K) → K} (h : ∀ i < n, SuperCost a b J₁ J₂ (f₁ i) (f₂ i) (f₃ i)) :
    SuperCost a b J₁ J₂ (fun J => ∑ i ∈ range n, f₁ i J) (fun J => ∑ i ∈ range n, f₂ i J) fun J => ∑ i ∈ range n, f₃ i J := by
  induction n with
  | zero => exact ⟨0, 0, 0, fun _ => le_rfl, fun d t => by simp, fun _ _ _ => by simp⟩
  | succ n ih =>
    simp only [sum_range_succ]
    exact (ih fun i hi => h i (by omega)).add (h n (by omega))

/-- A cost that is quadratic along a line has no slope at a local minimum. -/
theorem slope_zero_of_min {f : (ℕ → K) → K} {J d : ℕ → K} {n : ℕ} {S C e : K} (he : 0 < e) (hC : 0 ≤ C)
    (hf : ∀ t, f (fun i => J i + t * d i) = f J + t * S + t ^ 2 * C)
    (h : ∀ L : ℕ → K, (∀ i < n, |L i - J i| ≤ e) → f J ≤ f L) : S = 0 := by
  set M := ∑ i ∈ range n, |d i| with hM
  have hM0 : 0 ≤ M := sum_nonneg fun i _ => abs_nonneg _
  set D := 1 + C + |S| * M / e with hD
  have hg0 : 0 ≤ |S| * M / e := by positivity
  have hD0 : 0 < D := by linarith
  have hle := h (fun k => J k + (-S / D) * d k) (fun i hi => by
    have h1 : |d i| ≤ M := single_le_sum (f := fun i => |d i|) (fun i _ => abs_nonneg _) (mem_range.2 hi)
    rw [add_sub_cancel_left, abs_mul, abs_div, abs_neg, abs_of_pos hD0]
    calc |S| / D * |d i| ≤ |S| / D * M := by gcongr
      _ = (|S| * M / e) / D * e := by field_simp
      _ ≤ 1 * e := by
        gcongr
        rw [div_le_one hD0]
        linarith
      _ = e := one_mul e)
  rw [hf] at hle
  have h2 : 0 ≤ -S / D * S + (-S / D) ^ 2 * C := by linarith
  have h3 : -S / D * S + (-S / D) ^ 2 * C = -(S ^ 2 * ((D - C) / D ^ 2)) := by field_simp; ring
  rw [h3] at h2
  have h4 : 0 < (D - C) / D ^ 2 := div_pos (by linarith) (by positivity)
  have h5 : S ^ 2 ≤ 0 := by
    by_contra hc
    push Not at hc
    have := mul_pos hc h4
    linarith
  exact pow_eq_zero_iff (two_ne_zero) |>.1 (le_antisymm h5 (sq_nonneg _))

/-- The combination of local minima is a minimum. -/
theorem SuperCost.least (h : SuperCost a b J₁ J₂ f₁ f₂ f₃) {n : ℕ} {e : K} (he : 0 < e)
    (h₁ : ∀ L : ℕ → K, (∀ i < n, |L i - J₁ i| ≤ e) → f₁ J₁ ≤ f₁ L)
    (h₂ : ∀ L : ℕ → K, (∀ i < n, |L i - J₂ i| ≤ e) → f₂ J₂ ≤ f₂ L) (L : ℕ → K) :
    f₃ (fun i => a * J₁ i + b * J₂ i) ≤ f₃ L := by
  obtain ⟨S₁, S₂, C, hC, h, -⟩ := h
  have z₁ := fun d => slope_zero_of_min he (hC d) (fun t => (h d t).1) h₁
  have z₂ := fun d => slope_zero_of_min he (hC d) (fun t => (h d t).2.1) h₂
  have := (h (fun i => L i - (a * J₁ i + b * J₂ i)) 1).2.2
  rw [z₁, z₂] at this
  simp only [one_mul, add_sub_cancel, one_pow, mul_zero, add_zero] at this
  rw [this]
  linarith [hC fun i => L i - (a * J₁ i + b * J₂ i)]

end

/-! ### The costs of the code -/

section
variable [FloorRing K]
variable {s : Spec.ZebSettings K} {rv r : Vec K} {a : K} {J₁ J₂ : ℕ → K} {z₁ z₂ : Spec.ZebState K}

/-- The motion of the jerks `d` from rest at the origin, with a first period `S`. -/
def restMotion (S T : K) (d : ℕ → K) (i : ℕ) : State3 K := Spec.jerkTrajectory S T ⟨0, 0, 0⟩ d i

theorem line_motion (S T : K) (x : State3 K) (J d : ℕ → K) (t : K) (i : ℕ) :
    Spec.jerkTrajectory S T x (fun k => J k + t * d k) i
      = Spec.superpose 1 t (Spec.jerkTrajectory S T x J i) (restMotion S T d i) := by
  have := combine_trajectory 1 t S T x ⟨0, 0, 0⟩ J d i
  unfold restMotion
  rw [← this]
  simp [Spec.superpose]

theorem line_super (a b S T : K) (x y : State3 K) (J L d : ℕ → K) (t : K) (i : ℕ) :
    Spec.jerkTrajectory S T (Spec.superpose a b x y) (fun k => (a * J k + b * L k) + t * d k) i
      = Spec.superpose 1 t (Spec.superpose a b (Spec.jerkTrajectory S T x J i) (Spec.jerkTrajectory S T y L i))
        (restMotion S T d i) := by
  rw [line_motion, combine_trajectory]

/-- A quantity that is affine in the motions of CoM and base along one axis is affine in the jerks. -/
theorem super_axis {S T : K} (f₁ f₂ f₃ : (ℕ → State3 K) → (ℕ → State3 K) → K) (g : (ℕ → State3 K) → (ℕ → State3 K) → K)
    (c₁ c₂ b₁ b₂ : State3 K) (σ τ : ℕ → ℕ)
    (h₁ : ∀ (x y p q : ℕ → State3 K) t, f₁ (fun i => Spec.superpose 1 t (x i) (p i)) (fun i => Spec.superpose 1 t (y i) (q i))
      = f₁ x y + t * g p q)
    (h₂ : ∀ (x y p q : ℕ → State3 K) t, f₂ (fun i => Spec.superpose 1 t (x i) (p i)) (fun i => Spec.superpose 1 t (y i) (q i))
      = f₂ x y + t * g p q)
    (h₃ : ∀ (x y x' y' p q : ℕ → State3 K) t,
      f₃ (fun i => Spec.superpose 1 t (Spec.superpose a (1 - a) (x i) (x' i)) (p i))
        (fun i => Spec.superpose 1 t (Spec.superpose a (1 - a) (y i) (y' i)) (q i))
      = a * f₁ x y + (1 - a) * f₂ x' y' + t * g p q) :
    SuperAff a (1 - a) J₁ J₂
      (fun J => f₁ (Spec.jerkTrajectory S T c₁ fun k => J (σ k)) (Spec.jerkTrajectory T T b₁ fun k => J (τ k)))
      (fun J => f₂ (Spec.jerkTrajectory S T c₂ fun k => J (σ k)) (Spec.jerkTrajectory T T b₂ fun k => J (τ k)))
      (fun J => f₃ (Spec.jerkTrajectory S T (Spec.superpose a (1 - a) c₁ c₂) fun k => J (σ k))
        (Spec.jerkTrajectory T T (Spec.superpose a (1 - a) b₁ b₂) fun k => J (τ k))) := by
  refine ⟨fun d => g (restMotion S T fun k => d (σ k)) (restMotion T T fun k => d (τ k)), fun d t => ⟨?_, ?_, ?_⟩⟩
  · have e1 : Spec.jerkTrajectory S T c₁ (fun k => J₁ (σ k) + t * d (σ k)) = _ :=
      funext (line_motion S T c₁ (fun k => J₁ (σ k)) (fun k => d (σ k)) t)
    have e2 : Spec.jerkTrajectory T T b₁ (fun k => J₁ (τ k) + t * d (τ k)) = _ :=
      funext (line_motion T T b₁ (fun k => J₁ (τ k)) (fun k => d (τ k)) t)
    dsimp only
    rw [e1, e2, h₁]
  · have e1 : Spec.jerkTrajectory S T c₂ (fun k => J₂ (σ k) + t * d (σ k)) = _ :=
      funext (line_motion S T c₂ (fun k => J₂ (σ k)) (fun k => d (σ k)) t)
    have e2 : Spec.jerkTrajectory T T b₂ (fun k => J₂ (τ k) + t * d (τ k)) = _ :=
      funext (line_motion T T b₂ (fun k => J₂ (τ k)) (fun k => d (τ k)) t)
    dsimp only
    rw [e1, e2, h₂]
  · have e1 : Spec.jerkTrajectory S T (Spec.superpose a (1 - a) c₁ c₂)
        (fun k => (a * J₁ (σ k) + (1 - a) * J₂ (σ k)) + t * d (σ k)) = _ :=
      funext (line_super a (1 - a) S T c₁ c₂ (fun k => J₁ (σ k)) (fun k => J₂ (σ k)) (fun k => d (σ k)) t)
    have e2 : Spec.jerkTrajectory T T (Spec.superpose a (1 - a) b₁ b₂)
        (fun k => (a * J₁ (τ k) + (1 - a) * J₂ (τ k)) + t * d (τ k)) = _ :=
      funext (line_super a (1 - a) T T b₁ b₂ (fun k => J₁ (τ k)) (fun k => J₂ (τ k)) (fun k => d (τ k)) t)
    dsimp only
    rw [e1, e2, h₃]

theorem superposed_cop (g t : K) (x y x' y' p q : State3 K) :
    s.predictedCop g (Spec.superpose 1 t x p) (Spec.superpose 1 t y q) = s.predictedCop g x y + t * s.predictedCop 0 p q ∧
    s.predictedCop g (Spec.superpose 1 t (Spec.superpose a (1 - a) x x') p) (Spec.superpose 1 t (Spec.superpose a (1 - a) y y') q)
      = a * s.predictedCop g x y + (1 - a) * s.predictedCop g x' y' + t * s.predictedCop 0 p q := by
  unfold Spec.ZebSettings.predictedCop Spec.copOf Spec.superpose
  split
  · refine ⟨by ring, by ring⟩
  · refine ⟨by ring, by ring⟩

theorem superposed_tilt (L : K) (u ps : ℕ → ℕ → K) (τ : State3 K) (c t : K) (x y x' y' p q : ℕ → State3 K) (i : ℕ) :
    zTilt s L u ps τ c (fun i => Spec.superpose 1 t (x i) (p i)) (fun i => Spec.superpose 1 t (y i) (q i)) i
      = zTilt s L u ps τ c x y i + t * zTilt s L u ps ⟨0, 0, 0⟩ 0 p q i ∧
    zTilt s L u ps τ c (fun i => Spec.superpose 1 t (Spec.superpose a (1 - a) (x i) (x' i)) (p i))
        (fun i => Spec.superpose 1 t (Spec.superpose a (1 - a) (y i) (y' i)) (q i)) i
      = a * zTilt s L u ps τ c x y i + (1 - a) * zTilt s L u ps τ c x' y' i + t * zTilt s L u ps ⟨0, 0, 0⟩ 0 p q i := by
  have h1 : ∑ j ∈ range s.nbSamples, u i j * s.tiltRhs L c (Spec.superpose 1 t (x j) (p j)) (Spec.superpose 1 t (y j) (q j))
      = ∑ j ∈ range s.nbSamples, u i j * s.tiltRhs L c (x j) (y j)
        + t * ∑ j ∈ range s.nbSamples, u i j * s.tiltRhs L 0 (p j) (q j) := by
    rw [mul_sum, ← sum_add_distrib]
    refine sum_congr rfl fun j _ => ?_
    unfold Spec.ZebSettings.tiltRhs Spec.superpose
    ring
  have h2 : ∑ j ∈ range s.nbSamples, u i j * s.tiltRhs L c (Spec.superpose 1 t (Spec.superpose a (1 - a) (x j) (x' j)) (p j))
        (Spec.superpose 1 t (Spec.superpose a (1 - a) (y j) (y' j)) (q j))
      = a * ∑ j ∈ range s.nbSamples, u i j * s.tiltRhs L c (x j) (y j)
        + (1 - a) * ∑ j ∈ range s.nbSamples, u i j * s.tiltRhs L c (x' j) (y' j)
        + t * ∑ j ∈ range s.nbSamples, u i j * s.tiltRhs L 0 (p j) (q j) := by
    rw [mul_sum, mul_sum, mul_sum, ← sum_add_distrib, ← sum_add_distrib]
    refine sum_congr rfl fun j _ => ?_
    unfold Spec.ZebSettings.tiltRhs Spec.superpose
    ring
  unfold zTilt
  rw [h1, h2]
  refine ⟨by ring, by ring⟩

/-- The cost that the code minimises, with its predictions of the tilt. -/
def zTotal (s : Spec.ZebSettings K) (L : K) (k : K × K) (u ps v qs : ℕ → ℕ → K) (z : Spec.ZebState K) (J : ℕ → K) : K :=
  s.totalCost k
    (s.tiltCost (zTilt s L u ps s.roll s.contactX (s.comX z J) (s.baseX z J))
      (zTilt s L u ps s.pitch s.contactY (s.comY z J) (s.baseY z J)))
    (s.tiltCost (zTilt s L v qs s.roll s.contactX (s.comX z J) (s.baseX z J))
      (zTilt s L v qs s.pitch s.contactY (s.comY z J) (s.baseY z J)))
    z J

theorem zTotal_super {rv₂ r₂ rv₃ r₃ : Vec K}
    (hv : ∀ i < 2 * s.nbSamples, rv₃.get i = a * s.velRef.get i + (1 - a) * rv₂.get i)
    (hr : ∀ i < 2 * s.nbSamples, r₃.get i = a * s.posRef.get i + (1 - a) * r₂.get i)
    (L : K) (k : K × K) (u ps v qs : ℕ → ℕ → K) :
    SuperCost a (1 - a) J₁ J₂ (zTotal s L k u ps v qs z₁) (zTotal { s with velRef := rv₂, posRef := r₂ } L k u ps v qs z₂)
      (zTotal { s with velRef := rv₃, posRef := r₃ } L k u ps v qs (z₁.superpose a (1 - a) z₂)) := by
  have tilt : ∀ u ps : ℕ → ℕ → K, SuperCost a (1 - a) J₁ J₂
      (fun J => s.tiltCost (zTilt s L u ps s.roll s.contactX (s.comX z₁ J) (s.baseX z₁ J))
        (zTilt s L u ps s.pitch s.contactY (s.comY z₁ J) (s.baseY z₁ J)))
      (fun J => s.tiltCost (zTilt s L u ps s.roll s.contactX (s.comX z₂ J) (s.baseX z₂ J))
        (zTilt s L u ps s.pitch s.contactY (s.comY z₂ J) (s.baseY z₂ J)))
      (fun J => s.tiltCost (zTilt s L u ps s.roll s.contactX (s.comX (z₁.superpose a (1 - a) z₂) J) (s.baseX (z₁.superpose a (1 - a) z₂) J))
        (zTilt s L u ps s.pitch s.contactY (s.comY (z₁.superpose a (1 - a) z₂) J) (s.baseY (z₁.superpose a (1 - a) z₂) J))) := by
    intro u ps
    refine SuperCost.sum fun i hi => ?_
    refine SuperCost.add (SuperAff.sq ?_) (SuperAff.sq ?_)
    · exact super_axis (S := Spec.comFirst s.period) (T := s.period)
        (fun c b => zTilt s L u ps s.roll s.contactX c b i) (fun c b => zTilt s L u ps s.roll s.contactX c b i)
        (fun c b => zTilt s L u ps s.roll s.contactX c b i) (fun c b => zTilt s L u ps ⟨0, 0, 0⟩ 0 c b i) z₁.cx z₂.cx z₁.bx z₂.bx
        (fun k => k) (fun k => 2 * s.nbSamples + k)
        (fun x y p q t => (superposed_tilt (a := a) L u ps _ _ t x y x y p q i).1)
        (fun x y p q t => (superposed_tilt (a := a) L u ps _ _ t x y x y p q i).1)
        (fun x y x' y' p q t => (superposed_tilt L u ps _ _ t x y x' y' p q i).2)
    · exact super_axis (S := Spec.comFirst s.period) (T := s.period)
        (fun c b => zTilt s L u ps s.pitch s.contactY c b i) (fun c b => zTilt s L u ps s.pitch s.contactY c b i)
        (fun c b => zTilt s L u ps s.pitch s.contactY c b i) (fun c b => zTilt s L u ps ⟨0, 0, 0⟩ 0 c b i) z₁.cy z₂.cy z₁.by_ z₂.by_
        (fun k => s.nbSamples + k) (fun k => 3 * s.nbSamples + k)
        (fun x y p q t => (superposed_tilt (a := a) L u ps _ _ t x y x y p q i).1)
        (fun x y p q t => (superposed_tilt (a := a) L u ps _ _ t x y x y p q i).1)
        (fun x y x' y' p q t => (superposed_tilt L u ps _ _ t x y x' y' p q i).2)
  refine SuperCost.smul (by norm_num) ?_
  refine SuperCost.add (SuperCost.add (SuperCost.add (SuperCost.add (SuperCost.add (SuperCost.add ?_ ?_) ?_) ?_) ?_) ?_) ?_
  · refine SuperCost.smul (le_max_right _ _) (SuperCost.sum fun i hi => SuperCost.add (SuperAff.sq ?_) (SuperAff.sq ?_))
    · exact super_axis (S := Spec.comFirst s.period) (T := s.period)
        (fun _ b => (b i).v - s.velRef.get i) (fun _ b => (b i).v - rv₂.get i) (fun _ b => (b i).v - rv₃.get i)
        (fun _ b => (b i).v) z₁.cx z₂.cx z₁.bx z₂.bx (fun k => k) (fun k => 2 * s.nbSamples + k)
        (fun x y p q t => by simp only [Spec.superpose]; ring) (fun x y p q t => by simp only [Spec.superpose]; ring)
        (fun x y x' y' p q t => by simp only [Spec.superpose, hv i (by omega)]; ring)
    · exact super_axis (S := Spec.comFirst s.period) (T := s.period)
        (fun _ b => (b i).v - s.velRef.get (s.nbSamples + i)) (fun _ b => (b i).v - rv₂.get (s.nbSamples + i))
        (fun _ b => (b i).v - rv₃.get (s.nbSamples + i))
        (fun _ b => (b i).v) z₁.cy z₂.cy z₁.by_ z₂.by_ (fun k => s.nbSamples + k) (fun k => 3 * s.nbSamples + k)
        (fun x y p q t => by simp only [Spec.superpose]; ring) (fun x y p q t => by simp only [Spec.superpose]; ring)
        (fun x y x' y' p q t => by simp only [Spec.superpose, hv (s.nbSamples + i) (by omega)]; ring)
  · refine SuperCost.smul (le_max_right _ _) (SuperCost.sum fun i hi => SuperCost.add (SuperAff.sq ?_) (SuperAff.sq ?_))
    · exact super_axis (S := Spec.comFirst s.period) (T := s.period)
        (fun _ b => (b i).p - s.posRef.get i) (fun _ b => (b i).p - r₂.get i) (fun _ b => (b i).p - r₃.get i)
        (fun _ b => (b i).p) z₁.cx z₂.cx z₁.bx z₂.bx (fun k => k) (fun k => 2 * s.nbSamples + k)
        (fun x y p q t => by simp only [Spec.superpose]; ring) (fun x y p q t => by simp only [Spec.superpose]; ring)
        (fun x y x' y' p q t => by simp only [Spec.superpose, hr i (by omega)]; ring)
    · exact super_axis (S := Spec.comFirst s.period) (T := s.period)
        (fun _ b => (b i).p - s.posRef.get (s.nbSamples + i)) (fun _ b => (b i).p - r₂.get (s.nbSamples + i))
        (fun _ b => (b i).p - r₃.get (s.nbSamples + i))
        (fun _ b => (b i).p) z₁.cy z₂.cy z₁.by_ z₂.by_ (fun k => s.nbSamples + k) (fun k => 3 * s.nbSamples + k)
        (fun x y p q t => by simp only [Spec.superpose]; ring) (fun x y p q t => by simp only [Spec.superpose]; ring)
        (fun x y x' y' p q t => by simp only [Spec.superpose, hr (s.nbSamples + i) (by omega)]; ring)
  · refine SuperCost.smul (le_max_right _ _) (SuperCost.sum fun i hi => SuperCost.add (SuperAff.sq ?_) (SuperAff.sq ?_))
    · exact super_axis (S := Spec.comFirst s.period) (T := s.period)
        (fun c b => s.predictedCop s.gx (c i) (b i) - (b i).p - s.copRef.get i)
        (fun c b => s.predictedCop s.gx (c i) (b i) - (b i).p - s.copRef.get i)
        (fun c b => s.predictedCop s.gx (c i) (b i) - (b i).p - s.copRef.get i)
        (fun c b => s.predictedCop 0 (c i) (b i) - (b i).p) z₁.cx z₂.cx z₁.bx z₂.bx (fun k => k) (fun k => 2 * s.nbSamples + k)
        (fun x y p q t => by
          rw [(superposed_cop (a := a) s.gx t (x i) (y i) (x i) (y i) (p i) (q i)).1]; simp only [Spec.superpose]; ring)
        (fun x y p q t => by
          rw [(superposed_cop (a := a) s.gx t (x i) (y i) (x i) (y i) (p i) (q i)).1]; simp only [Spec.superpose]; ring)
        (fun x y x' y' p q t => by
          rw [(superposed_cop s.gx t (x i) (y i) (x' i) (y' i) (p i) (q i)).2]; simp only [Spec.superpose]; ring)
    · exact super_axis (S := Spec.comFirst s.period) (T := s.period)
        (fun c b => s.predictedCop s.gy (c i) (b i) - (b i).p - s.copRef.get (s.nbSamples + i))
        (fun c b => s.predictedCop s.gy (c i) (b i) - (b i).p - s.copRef.get (s.nbSamples + i))
        (fun c b => s.predictedCop s.gy (c i) (b i) - (b i).p - s.copRef.get (s.nbSamples + i))
        (fun c b => s.predictedCop 0 (c i) (b i) - (b i).p) z₁.cy z₂.cy z₁.by_ z₂.by_ (fun k => s.nbSamples + k)
        (fun k => 3 * s.nbSamples + k)
        (fun x y p q t => by
          rw [(superposed_cop (a := a) s.gy t (x i) (y i) (x i) (y i) (p i) (q i)).1]; simp only [Spec.superpose]; ring)
        (fun x y p q t => by
          rw [(superposed_cop (a := a) s.gy t (x i) (y i) (x i) (y i) (p i) (q i)).1]; simp only [Spec.superpose]; ring)
        (fun x y x' y' p q t => by
          rw [(superposed_cop s.gy t (x i) (y i) (x' i) (y' i) (p i) (q i)).2]; simp only [Spec.superpose]; ring)
  · refine SuperCost.smul (le_max_right _ _) (SuperCost.sum fun i hi => SuperCost.add (SuperAff.sq ?_) (SuperAff.sq ?_))
    · exact super_axis (S := Spec.comFirst s.period) (T := s.period)
        (fun c b => (c i).p - (b i).p - (s.comRef.get i + k.1)) (fun c b => (c i).p - (b i).p - (s.comRef.get i + k.1))
        (fun c b => (c i).p - (b i).p - (s.comRef.get i + k.1))
        (fun c b => (c i).p - (b i).p) z₁.cx z₂.cx z₁.bx z₂.bx (fun k => k) (fun k => 2 * s.nbSamples + k)
        (fun x y p q t => by simp only [Spec.superpose]; ring) (fun x y p q t => by simp only [Spec.superpose]; ring)
        (fun x y x' y' p q t => by simp only [Spec.superpose]; ring)
    · exact super_axis (S := Spec.comFirst s.period) (T := s.period)
        (fun c b => (c i).p - (b i).p - (s.comRef.get (s.nbSamples + i) + k.2))
        (fun c b => (c i).p - (b i).p - (s.comRef.get (s.nbSamples + i) + k.2))
        (fun c b => (c i).p - (b i).p - (s.comRef.get (s.nbSamples + i) + k.2))
        (fun c b => (c i).p - (b i).p) z₁.cy z₂.cy z₁.by_ z₂.by_ (fun k => s.nbSamples + k) (fun k => 3 * s.nbSamples + k)
        (fun x y p q t => by simp only [Spec.superpose]; ring) (fun x y p q t => by simp only [Spec.superpose]; ring)
        (fun x y x' y' p q t => by simp only [Spec.superpose]; ring)
  · refine SuperCost.smul (le_max_right _ _) (SuperCost.sum fun i hi => SuperAff.sq ?_)
    exact ⟨fun d => d i, fun d t => ⟨rfl, rfl, rfl⟩⟩
  · exact SuperCost.smul (le_max_right _ _) (tilt u ps)
  · exact SuperCost.smul (le_max_right _ _) (tilt v qs)

theorem zTotal_congr {L : K} {k : K × K} {u ps v qs u' ps' v' qs' : ℕ → ℕ → K}
    (hu : ∀ i < s.nbSamples, ∀ j < s.nbSamples, u' i j = u i j) (hps : ∀ i < s.nbSamples, ∀ j < 2, ps' i j = ps i j)
    (hv : ∀ i < s.nbSamples, ∀ j < s.nbSamples, v' i j = v i j) (hqs : ∀ i < s.nbSamples, ∀ j < 2, qs' i j = qs i j)
    (z : Spec.ZebState K) (J : ℕ → K) : zTotal s L k u' ps' v' qs' z J = zTotal s L k u ps v qs z J := by
  have key : ∀ {u ps u' ps' : ℕ → ℕ → K}, (∀ i < s.nbSamples, ∀ j < s.nbSamples, u' i j = u i j) →
      (∀ i < s.nbSamples, ∀ j < 2, ps' i j = ps i j) → ∀ (τ : State3 K) (c : K) (com base : ℕ → State3 K), ∀ i < s.nbSamples,
      zTilt s L u' ps' τ c com base i = zTilt s L u ps τ c com base i := by
    intro u ps u' ps' hu hps τ c com base i hi
    unfold zTilt
    rw [hps i hi 0 (by norm_num), hps i hi 1 (by norm_num)]
    congr 1
    exact sum_congr rfl fun j hj => by rw [hu i hi j (mem_range.1 hj)]
  unfold zTotal
  congr 1
  · exact sum_congr rfl fun i hi => by rw [key hu hps _ _ _ _ i (mem_range.1 hi), key hu hps _ _ _ _ i (mem_range.1 hi)]
  · exact sum_congr rfl fun i hi => by rw [key hv hqs _ _ _ _ i (mem_range.1 hi), key hv hqs _ _ _ _ i (mem_range.1 hi)]

end

end MPC
