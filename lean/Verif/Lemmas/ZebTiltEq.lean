import Verif.Lemmas.ZebMeaning

/-! # The equation of motion behind the tilt objectives of `ZebulonWalkgen` -/

set_option linter.unusedSectionVars false

namespace MPC

open Finset

variable {K : Type} [Field K] [LinearOrder K] [IsStrictOrderedRing K] [FloorRing K]

/-- Entries as a square matrix. -/
def toM (N : ℕ) (f : ℕ → ℕ → K) : Matrix (Fin N) (Fin N) K := fun i j => f i j

/-- Entries as a vector. -/
def toV (N : ℕ) (x : ℕ → K) : Fin N → K := fun i => x i

theorem toM_mm (N : ℕ) (f g : ℕ → ℕ → K) : toM N (mm N f g) = toM N f * toM N g := by
  ext i j
  rw [Matrix.mul_apply]
  exact (Fin.sum_univ_eq_sum_range (fun k => f i k * g k j) N).symm

theorem toM_congr {N : ℕ} {f g : ℕ → ℕ → K} (h : ∀ i < N, ∀ j < N, f i j = g i j) : toM N f = toM N g := by
  ext i j; exact h i i.2 j j.2

theorem toM_ide (N : ℕ) : toM N (ide : ℕ → ℕ → K) = 1 := by
  ext i j
  rw [Matrix.one_apply]
  unfold toM ide
  simp only [Fin.ext_iff]

theorem toM_mulVec (N : ℕ) (f : ℕ → ℕ → K) (x : ℕ → K) (i : Fin N) :
    Matrix.mulVec (toM N f) (toV N x) i = ∑ j ∈ range N, f i j * x j :=
  Fin.sum_univ_eq_sum_range (fun k => f i k * x k) N

theorem toM_inverse {N : ℕ} {f g : ℕ → ℕ → K} (h : ∀ i < N, ∀ j < N, mm N f g i j = ide i j) :
    toM N f * toM N g = 1 := by
  rw [← toM_mm, toM_congr h, toM_ide]

/-- Lower triangular Toeplitz matrices commute, for the two matrices used here. -/
theorem accU_velU_comm (T : K) (N : ℕ) : toM N (accU T T) * toM N (velU T T) = toM N (velU T T) * toM N (accU T T) := by
  rw [← toM_mm, ← toM_mm]
  refine toM_congr fun i hi j hj => ?_
  unfold mm
  rcases lt_or_ge i j with c | c
  · rw [sum_eq_zero, sum_eq_zero]
    · intro k _
      rcases lt_or_ge i k with c' | c'
      · rw [velU_upper _ _ c', zero_mul]
      · rw [accU_upper _ _ (show k < j by omega), mul_zero]
    · intro k _
      rcases lt_or_ge i k with c' | c'
      · rw [accU_upper _ _ c', zero_mul]
      · rw [velU_upper _ _ (show k < j by omega), mul_zero]
  · obtain ⟨d, rfl⟩ := Nat.exists_eq_add_of_le c
    have cut : ∀ f g : ℕ → ℕ → K, (∀ a b, a < b → f a b = 0) → (∀ a b, a < b → g a b = 0) →
        ∑ k ∈ range N, f (j + d) k * g k j = ∑ m ∈ range (d + 1), f (j + d) (j + m) * g (j + m) j := by
      intro f g hf hg
      have h1 : ∑ k ∈ range N, f (j + d) k * g k j = ∑ k ∈ range (j + (d + 1)), f (j + d) k * g k j := by
        symm
        apply sum_subset
        · intro k hk; simp only [mem_range] at *; omega
        · intro k _ hk
          simp only [mem_range] at hk
          rw [hf _ _ (by omega), zero_mul]
      rw [h1, sum_range_add, sum_eq_zero (s := range j), zero_add]
      intro k hk
      have := mem_range.1 hk
      rw [hg _ _ this, mul_zero]
    rw [cut _ _ (fun a b => accU_upper T T) (fun a b => velU_upper T T),
      cut _ _ (fun a b => velU_upper T T) (fun a b => accU_upper T T), ← sum_range_reflect]
    refine sum_congr rfl fun m hm => ?_
    have hm := mem_range.1 hm
    have a1 : ∀ a b : ℕ, b ≤ a → accU T T a b = T := fun a b hab => by
      unfold accU; split_ifs <;> rfl
    rw [velU_eq, velU_eq, if_pos (by omega), if_pos (by omega), a1 _ _ (by omega), a1 _ _ (by omega),
      show j + (d + 1 - 1 - m) - j = d - m by omega, show j + d - (j + m) = d - m by omega]
    ring

theorem toM_accU_inv {T : K} (hT : T ≠ 0) (N : ℕ) :
    toM N (accU T T) * toM N (vInvE T N) = 1 := by
  obtain ⟨-, -, -, -, ⟨P, h1, h2⟩, -⟩ := bidiagonal_isInverse T hT N
  rw [Mat.mul?_ok rfl] at h1
  obtain rfl := Except.ok.inj h1
  exact toM_inverse fun i hi j hj => h2.2.2 i hi j hj

/-- Product with a vector. -/
def zmv (N : ℕ) (f : ℕ → ℕ → K) (x : ℕ → K) (i : ℕ) : K := ∑ j ∈ range N, f i j * x j

theorem toV_zmv (N : ℕ) (f : ℕ → ℕ → K) (x : ℕ → K) : toV N (zmv N f x) = Matrix.mulVec (toM N f) (toV N x) := by
  funext i
  rw [toM_mulVec]; rfl

theorem toV_eq {N : ℕ} {x y : ℕ → K} (h : toV N x = toV N y) {i : ℕ} (hi : i < N) : x i = y i :=
  congrFun h ⟨i, hi⟩

theorem row_acc2 (T : K) (N : ℕ) (x : Spec.State2 K) (X : ℕ → K) {i : ℕ} (hi : i < N) :
    (Spec.accTrajectory T T x X i).q = x.q + ((i : K) * T + T) * x.w + zmv N (velU T T) X i := by
  unfold zmv
  rw [traj2_q, sum_lower hi _ _ fun j hj => velU_upper T T hj]

theorem row_acc2_w (T : K) (N : ℕ) (x : Spec.State2 K) (X : ℕ → K) {i : ℕ} (hi : i < N) :
    (Spec.accTrajectory T T x X i).w = x.w + zmv N (accU T T) X i := by
  unfold zmv
  rw [traj2_w, sum_lower hi _ _ fun j hj => accU_upper T T hj]

theorem zmv_congr {N : ℕ} {f f' : ℕ → ℕ → K} {x x' : ℕ → K} {i : ℕ} (hf : ∀ j < N, f i j = f' i j)
    (hx : ∀ j < N, x j = x' j) : zmv N f x i = zmv N f' x' i :=
  sum_congr rfl fun j hj => by rw [hf j (mem_range.1 hj), hx j (mem_range.1 hj)]

theorem abs_zmv_thr {N : ℕ} {u v : ℕ → ℕ → K} {B : ℕ → K} {i : ℕ} (hu : ∀ j < N, u i j = thr tiltEps (v i j)) :
    |zmv N u B i - zmv N v B i| ≤ 1 / 10 ^ 15 * ∑ j ∈ range N, |B j| := by
  have h0 : (0 : K) ≤ tiltEps := by unfold tiltEps; positivity
  have : zmv N u B i - zmv N v B i = ∑ j ∈ range N, (u i j - v i j) * B j := by
    unfold zmv
    rw [← sum_sub_distrib]
    exact sum_congr rfl fun _ _ => by ring
  rw [this, mul_sum]
  refine (abs_sum_le_sum_abs _ _).trans (sum_le_sum fun j hj => ?_)
  rw [abs_mul]
  refine mul_le_mul_of_nonneg_right ?_ (abs_nonneg _)
  rw [hu j (mem_range.1 hj)]
  have := abs_thr_sub_le h0 (v i j)
  have e : (tiltEps : K) = 1 / 10 ^ 15 := by unfold tiltEps; norm_num
  rwa [e] at this ⊢

/-- What the two tilt objectives predict. -/
theorem zTilt_motion {s : Spec.ZebSettings K} {L : K} {u ps v qs : ℕ → ℕ → K} (hT : 0 < s.period)
    (hE : s.period ^ 2 * EPS ≤ 2) (hs : TiltSol s L u ps) (hv : TiltVelSol s L v qs) (τ : State3 K) (c : K)
    (com base : ℕ → State3 K) :
    s.PredictsCodeTilt L c com base τ (zTilt s L u ps τ c com base) (zTilt s L v qs τ c com base) := by
  obtain ⟨⟨m, hm, mr, ml⟩, hps⟩ := hs
  obtain ⟨⟨n, hn, nr, nl⟩, hqs⟩ := hv
  set N := s.nbSamples with hN
  set T := s.period with hTdef
  -- the data of the equation
  let R : ℕ → K := fun j => s.tiltRhs L c (com j) (base j)
  let σ : ℕ → K := fun q => τ.p + ((q : K) * T + T) * τ.v
  let B : ℕ → K := fun j => R j - tA6 s L * zmv N (pInvE T) σ j
  let ψ : ℕ → K := zmv N m B
  let α : ℕ → K := zmv N (pInvE T) fun j => ψ j - σ j
  let γ : ℕ → K := zmv N (pInvE T) ψ
  have hP : toM N (velU T T) * toM N (pInvE T) = 1 := toM_inverse (velU_pInvE hT.ne' N)
  have hP' : toM N (pInvE T) * toM N (velU T T) = 1 := mul_eq_one_comm.1 hP
  have hU : toM N (tiltU s L) = tA1 s L • 1 - tA6 s L • toM N (pInvE T) := by
    ext i j
    rw [← toM_ide]
    change tA1 s L * ide (i : ℕ) j - tA6 s L * pInvT T i j = tA1 s L * ide (i : ℕ) j - tA6 s L * pInvE T i j
    rw [pInvT_eq hT hE]
  have hUm : toM N (tiltU s L) * toM N m = 1 := toM_inverse mr
  have hmU : toM N m * toM N (tiltU s L) = 1 := toM_inverse ml
  have hγα : ∀ i < N, γ i = α i + zmv N (pInvE T) σ i := fun i _ => by
    change zmv N (pInvE T) ψ i = zmv N (pInvE T) (fun j => ψ j - σ j) i + _
    unfold zmv
    rw [← sum_add_distrib]
    exact sum_congr rfl fun _ _ => by ring
  have hmotion : ∀ (α' : ℕ → K) {i : ℕ}, i < N → (s.tiltMotion τ α' i).q = σ i + zmv N (velU T T) α' i :=
    fun α' i hi => row_acc2 T N ⟨τ.p, τ.v⟩ α' hi
  have hψ : ∀ i < N, (s.tiltMotion τ α i).q = ψ i := by
    intro i hi
    have h1 : toV N (zmv N (velU T T) α) = toV N fun j => ψ j - σ j := by
      rw [toV_zmv, toV_zmv, Matrix.mulVec_mulVec, hP, Matrix.one_mulVec]
    rw [hmotion α hi, toV_eq h1 hi]; ring
  have hγ : ∀ i < N, (s.tiltMotion ⟨0, 0, 0⟩ γ i).q = ψ i := by
    intro i hi
    have h1 : toV N (zmv N (velU T T) γ) = toV N ψ := by
      rw [toV_zmv, toV_zmv, Matrix.mulVec_mulVec, hP, Matrix.one_mulVec]
    have h2 := row_acc2 T N ⟨(0 : K), 0⟩ γ hi
    change (s.tiltMotion ⟨0, 0, 0⟩ γ i).q = _ at h2
    rw [h2, toV_eq h1 hi]; ring
  have hB : ∀ i < N, tA1 s L * ψ i - tA6 s L * γ i = B i := by
    intro i hi
    have h1 : Matrix.mulVec (toM N (tiltU s L)) (toV N ψ) = toV N B := by
      rw [toV_zmv, Matrix.mulVec_mulVec, hUm, Matrix.one_mulVec]
    rw [hU, Matrix.sub_mulVec, Matrix.smul_mulVec, Matrix.smul_mulVec, Matrix.one_mulVec, ← toV_zmv] at h1
    exact congrFun h1 ⟨i, hi⟩
  have hcode : s.CodeTilt L c com base τ α := by
    intro i hi
    rw [hψ i hi]
    have := hB i hi
    rw [hγα i hi] at this
    change tA1 s L * ψ i - tA6 s L * α i = R i
    have hBi : B i = R i - tA6 s L * zmv N (pInvE T) σ i := rfl
    rw [hBi] at this
    linear_combination this
  have huniq : ∀ α', s.CodeTilt L c com base τ α' → ∀ i < N, α' i = α i := by
    intro α' h' i hi
    -- the difference `P (α' - α)` is in the kernel of `tiltU`
    let δ : ℕ → K := fun j => zmv N (velU T T) α' j - zmv N (velU T T) α j
    have hδ : toV N δ = Matrix.mulVec (toM N (velU T T)) (toV N α' - toV N α) := by
      rw [Matrix.mulVec_sub, ← toV_zmv, ← toV_zmv]; rfl
    have h1 : Matrix.mulVec (toM N (tiltU s L)) (toV N δ) = 0 := by
      rw [hU, Matrix.sub_mulVec, Matrix.smul_mulVec, Matrix.smul_mulVec, Matrix.one_mulVec]
      have h2 : Matrix.mulVec (toM N (pInvE T)) (toV N δ) = toV N α' - toV N α := by
        rw [hδ, Matrix.mulVec_mulVec, hP', Matrix.one_mulVec]
      rw [h2]
      funext j
      have e1 := h' j j.2
      have e2 := hcode j j.2
      rw [hmotion α' j.2] at e1
      rw [hmotion α j.2] at e2
      change tA1 s L * (σ j + zmv N (velU T T) α' j) - tA6 s L * α' j = _ at e1
      change tA1 s L * (σ j + zmv N (velU T T) α j) - tA6 s L * α j = _ at e2
      change tA1 s L * (zmv N (velU T T) α' j - zmv N (velU T T) α j) - tA6 s L * (α' j - α j) = 0
      linear_combination e1 - e2
    have h3 : toV N δ = 0 := by
      have := congrArg (Matrix.mulVec (toM N m)) h1
      rwa [Matrix.mulVec_mulVec, hmU, Matrix.one_mulVec, Matrix.mulVec_zero] at this
    have h4 : toV N α' - toV N α = 0 := by
      have := congrArg (Matrix.mulVec (toM N (pInvE T))) (hδ.symm.trans h3)
      rwa [Matrix.mulVec_mulVec, hP', Matrix.one_mulVec, Matrix.mulVec_zero] at this
    exact sub_eq_zero.1 (congrFun h4 ⟨i, hi⟩)
  have hS : ∀ q, tiltS0 T q 0 * τ.p + tiltS0 T q 1 * τ.v = σ q := fun q => by
    change (if 0 = 0 then (1 : K) else _) * τ.p + (if (1 : ℕ) = 0 then (1 : K) else _) * τ.v = _
    rw [if_pos rfl, if_neg one_ne_zero, one_mul]
  have hsum : ∀ (f : ℕ → K), (∑ q ∈ range N, f q * tiltS0 T q 0) * τ.p + (∑ q ∈ range N, f q * tiltS0 T q 1) * τ.v
      = ∑ q ∈ range N, f q * σ q := by
    intro f
    rw [sum_mul, sum_mul, ← sum_add_distrib]
    exact sum_congr rfl fun q _ => by rw [← hS q]; ring
  have hA6 : ∀ (x : ℕ → ℕ → K) (i : ℕ),
      (∑ k ∈ range N, tA6 s L * x i k * ∑ q ∈ range N, -pInvT T k q * tiltS0 T q 0) * τ.p
      + (∑ k ∈ range N, tA6 s L * x i k * ∑ q ∈ range N, -pInvT T k q * tiltS0 T q 1) * τ.v
      = -∑ k ∈ range N, x i k * (tA6 s L * zmv N (pInvE T) σ k) := by
    intro x i
    rw [sum_mul, sum_mul, ← sum_add_distrib, ← sum_neg_distrib]
    refine sum_congr rfl fun k _ => ?_
    have := hsum fun q => -pInvT T k q
    have e : ∑ q ∈ range N, -pInvT T k q * σ q = -zmv N (pInvE T) σ k := by
      unfold zmv
      rw [← sum_neg_distrib]
      exact sum_congr rfl fun q _ => by rw [pInvT_eq hT hE]; ring
    rw [e] at this
    linear_combination (tA6 s L * x i k) * this
  have hz : ∀ i < N, zTilt s L u ps τ c com base i = zmv N u B i := by
    intro i hi
    unfold zTilt
    rw [hps i hi 0 (by omega), hps i hi 1 (by omega), hA6 u i]
    unfold zmv
    rw [← sub_eq_add_neg, ← sum_sub_distrib]
    exact sum_congr rfl fun j _ => by
      change u i j * R j - u i j * (tA6 s L * zmv N (pInvE T) σ j) = u i j * (R j - tA6 s L * zmv N (pInvE T) σ j)
      ring
  -- angular velocities
  have hVP : toM N (accU T T) * toM N (pInvE T) = toM N (pInvE T) * toM N (accU T T) := by
    have h1 := accU_velU_comm T N
    calc toM N (accU T T) * toM N (pInvE T)
        = (toM N (pInvE T) * toM N (velU T T)) * (toM N (accU T T) * toM N (pInvE T)) := by rw [hP', one_mul]
      _ = toM N (pInvE T) * (toM N (velU T T) * toM N (accU T T)) * toM N (pInvE T) := by simp only [mul_assoc]
      _ = toM N (pInvE T) * (toM N (accU T T) * toM N (velU T T)) * toM N (pInvE T) := by rw [h1]
      _ = toM N (pInvE T) * toM N (accU T T) * (toM N (velU T T) * toM N (pInvE T)) := by simp only [mul_assoc]
      _ = _ := by rw [hP, mul_one]
  have hVW := toM_accU_inv hT.ne' N
  have hWV : toM N (vInvE T N) * toM N (accU T T) = 1 := mul_eq_one_comm.1 hVW
  have hVU : toM N (tiltVelU s L) = toM N (velU T T) * toM N (vInvE T N) * toM N (tiltU s L) := by
    have e1 : toM N (tiltVelU s L) = tA1 s L • (toM N (velU T T) * toM N (vInvE T N))
        - tA6 s L • (toM N (velU T T) * toM N (vInvE T N) * toM N (pInvE T)) := by
      ext i j
      rw [← toM_mm, ← toM_mm]
      change mm N (fun i j => tA1 s L * velU T T i j) (vInvE T N) i j
        - mm N (mm N (fun i j => tA6 s L * velU T T i j) (vInvE T N)) (pInvT T) i j
        = tA1 s L * mm N (velU T T) (vInvE T N) i j - tA6 s L * mm N (mm N (velU T T) (vInvE T N)) (pInvE T) i j
      have f1 : ∀ (a : K) (x y : ℕ), mm N (fun i j => a * velU T T i j) (vInvE T N) x y
          = a * mm N (velU T T) (vInvE T N) x y := by
        intro a x y
        unfold mm
        rw [mul_sum]
        exact sum_congr rfl fun _ _ => by ring
      rw [f1]
      congr 1
      unfold mm at f1 ⊢
      rw [mul_sum]
      exact sum_congr rfl fun q _ => by rw [f1, pInvT_eq hT hE]; ring
    rw [e1, hU, mul_sub, mul_smul_comm, mul_smul_comm, mul_one]
  have hnU : toM N n * toM N (tiltVelU s L) = 1 := toM_inverse nl
  have hvel : toV N (zmv N n B) = toV N (zmv N (accU T T) γ) := by
    have hUψ : Matrix.mulVec (toM N (tiltU s L)) (toV N ψ) = toV N B := by
      rw [toV_zmv, Matrix.mulVec_mulVec, hUm, Matrix.one_mulVec]
    have hcomm : toM N (tiltU s L) * (toM N (accU T T) * toM N (pInvE T))
        = (toM N (accU T T) * toM N (pInvE T)) * toM N (tiltU s L) := by
      rw [hU, mul_sub, sub_mul, smul_mul_assoc, mul_smul_comm, one_mul, mul_one, smul_mul_assoc, mul_smul_comm,
        ← mul_assoc, ← hVP]
    have e2 : toM N (tiltVelU s L) * (toM N (accU T T) * toM N (pInvE T)) = toM N (tiltU s L) := by
      rw [hVU, mul_assoc, hcomm]
      calc toM N (velU T T) * toM N (vInvE T N) * (toM N (accU T T) * toM N (pInvE T) * toM N (tiltU s L))
          = toM N (velU T T) * (toM N (vInvE T N) * toM N (accU T T)) * toM N (pInvE T) * toM N (tiltU s L) := by
            simp only [mul_assoc]
        _ = toM N (tiltU s L) := by rw [hWV, mul_one, hP, one_mul]
    have e3 : Matrix.mulVec (toM N (tiltVelU s L)) (toV N (zmv N (accU T T) γ)) = toV N B := by
      rw [toV_zmv, toV_zmv, Matrix.mulVec_mulVec, Matrix.mulVec_mulVec, mul_assoc, e2, hUψ]
    rw [toV_zmv, ← e3, Matrix.mulVec_mulVec, hnU, Matrix.one_mulVec]
  have hzv : ∀ i < N, zTilt s L v qs τ c com base i
      = zmv N v B i - zmv N (accU T T) (zmv N (pInvE T) σ) i + τ.v := by
    intro i hi
    unfold zTilt
    have e1 : mm N (mm N (accU T T) (pInvT T)) (tiltS0 T) i 0 * τ.p
        + mm N (mm N (accU T T) (pInvT T)) (tiltS0 T) i 1 * τ.v = zmv N (accU T T) (zmv N (pInvE T) σ) i := by
      have := hsum fun q => mm N (accU T T) (pInvT T) i q
      unfold mm at this ⊢
      rw [this]
      unfold zmv
      simp only [sum_mul, mul_sum]
      rw [sum_comm]
      exact sum_congr rfl fun _ _ => sum_congr rfl fun _ _ => by rw [pInvT_eq hT hE]; ring
    have e2 : ∑ j ∈ range N, v i j * s.tiltRhs L c (com j) (base j)
        - ∑ k ∈ range N, v i k * (tA6 s L * zmv N (pInvE T) σ k) = zmv N v B i := by
      unfold zmv
      rw [← sum_sub_distrib]
      exact sum_congr rfl fun j _ => by
        change v i j * R j - v i j * (tA6 s L * zmv N (pInvE T) σ j) = v i j * (R j - tA6 s L * zmv N (pInvE T) σ j)
        ring
    rw [hqs i hi 0 (by omega), hqs i hi 1 (by omega), if_neg (by omega), if_pos rfl]
    have e3 := hA6 v i
    linear_combination e2 + e3 - e1
  have hw : ∀ i < N, (s.tiltMotion τ α i).w = zmv N n B i - zmv N (accU T T) (zmv N (pInvE T) σ) i + τ.v := by
    intro i hi
    have h1 := row_acc2_w T N ⟨τ.p, τ.v⟩ α hi
    change (s.tiltMotion τ α i).w = τ.v + _ at h1
    rw [h1, toV_eq hvel hi]
    have h2 : zmv N (accU T T) γ i = zmv N (accU T T) α i + zmv N (accU T T) (zmv N (pInvE T) σ) i := by
      unfold zmv
      rw [← sum_add_distrib]
      exact sum_congr rfl fun j hj => by
        have := hγα j (mem_range.1 hj)
        unfold zmv at this
        rw [← mul_add, ← this]
    rw [h2]; ring
  have hbound : ∑ j ∈ range N, |s.tiltStiffness L * (s.tiltMotion τ α j).q - s.tiltInertia L * γ j|
      = ∑ j ∈ range N, |B j| :=
    sum_congr rfl fun j hj => by
      rw [hψ j (mem_range.1 hj)]
      exact congrArg _ (hB j (mem_range.1 hj))
  refine ⟨α, γ, hcode, huniq, fun i hi => by rw [hγ i hi, hψ i hi], fun i hi => ?_⟩
  rw [hbound]
  constructor
  · rw [hz i hi, hψ i hi]
    exact abs_zmv_thr (hm i hi)
  · rw [hzv i hi, hw i hi]
    have := abs_zmv_thr (B := B) (hn i hi)
    have e : zmv N v B i - zmv N (accU T T) (zmv N (pInvE T) σ) i + τ.v
        - (zmv N n B i - zmv N (accU T T) (zmv N (pInvE T) σ) i + τ.v) = zmv N v B i - zmv N n B i := by ring
    rwa [e]

end MPC
