import Verif.Lemmas.ZebCtr
import Verif.Lemmas.Inverse

/-! # The tilt objectives of `ZebulonWalkgen` -/

set_option linter.unusedSectionVars false
set_option linter.unusedSimpArgs false

namespace MPC

open Finset

variable {K : Type} [Field K] [LinearOrder K] [IsStrictOrderedRing K] [FloorRing K]

/-! ### Triangular matrices and inverses -/

/-- Lower triangular up to `n`. -/
def Lower (n : ℕ) (f : ℕ → ℕ → K) : Prop := ∀ i < n, ∀ j < n, i < j → f i j = 0

/-- `n × n` product of entries. -/
def mm (n : ℕ) (f g : ℕ → ℕ → K) (i j : ℕ) : K := ∑ k ∈ range n, f i k * g k j

/-- Identity entries. -/
def ide (i j : ℕ) : K := if i = j then 1 else 0

theorem Lower.mm {n : ℕ} {f g : ℕ → ℕ → K} (hf : Lower n f) (hg : Lower n g) :
    Lower n (mm n f g) ∧ ∀ i < n, mm n f g i i = f i i * g i i := by
  constructor
  · intro i hi j hj h
    refine sum_eq_zero fun k hk => ?_
    have hk := mem_range.1 hk
    rcases lt_or_ge i k with c | c
    · rw [hf i hi k hk c, zero_mul]
    · rw [hg k hk j hj (by omega), mul_zero]
  · intro i hi
    refine sum_eq_single_of_mem i (mem_range.2 hi) fun k hk hne => ?_
    have hk := mem_range.1 hk
    rcases lt_or_ge i k with c | c
    · rw [hf i hi k hk c, zero_mul]
    · rw [hg k hk i hi (by omega), mul_zero]

theorem mm_assoc (n : ℕ) (f g h : ℕ → ℕ → K) (i j : ℕ) : mm n (mm n f g) h i j = mm n f (mm n g h) i j := by
  unfold mm
  simp only [sum_mul, mul_sum]
  rw [sum_comm]
  exact sum_congr rfl fun _ _ => sum_congr rfl fun _ _ => by ring

theorem mm_ide {n : ℕ} (f : ℕ → ℕ → K) (i : ℕ) {j : ℕ} (hj : j < n) : mm n f ide i j = f i j := by
  unfold mm ide
  rw [sum_eq_single_of_mem j (mem_range.2 hj) fun k _ hk => by rw [if_neg hk, mul_zero], if_pos rfl, mul_one]

theorem ide_mm {n : ℕ} (f : ℕ → ℕ → K) {i : ℕ} (hi : i < n) (j : ℕ) : mm n ide f i j = f i j := by
  unfold mm ide
  rw [sum_eq_single_of_mem i (mem_range.2 hi) fun k _ hk => by rw [if_neg (Ne.symm hk), zero_mul], if_pos rfl,
    one_mul]

/-- What the exact inverse gives. -/
theorem Mat.Is.inverse {A B : Mat K} {n : ℕ} {f : ℕ → ℕ → K} (hA : A.Is n n f) (h : A.inverse = some B) :
    B.Is n n B.get ∧ (∀ i < n, ∀ j < n, mm n f B.get i j = ide i j) ∧
    (∀ i < n, ∀ j < n, mm n B.get f i j = ide i j) := by
  obtain ⟨-, -, h3, h4, ⟨P, h5, h5'⟩, ⟨Q, h6, h6'⟩⟩ := inverse_spec A B (hA.2.1.trans hA.1.symm) h
  rw [Mat.mul?_ok (hA.2.1.trans (hA.1.symm.trans h3.symm))] at h5
  rw [Mat.mul?_ok h4] at h6
  obtain rfl := Except.ok.inj h5
  obtain rfl := Except.ok.inj h6
  rw [hA.1] at h3 h4
  refine ⟨⟨h3, h4, fun _ _ _ _ => rfl⟩, fun i hi j hj => ?_, fun i hi j hj => ?_⟩
  · have := h5'.2.2 i (by change i < A.rows; rw [hA.1]; exact hi) j (by change j < B.cols; rw [h4]; exact hj)
    change ∑ k ∈ range A.cols, A.get i k * B.get k j = if i = j then 1 else 0 at this
    unfold MPC.mm ide
    rw [← this, hA.2.1]
    exact sum_congr rfl fun k hk => by rw [hA.2.2 i hi k (mem_range.1 hk)]
  · have := h6'.2.2 i (by change i < B.rows; rw [h3]; exact hi) j
      (by change j < A.cols; rw [hA.2.1]; exact hj)
    change ∑ k ∈ range B.cols, B.get i k * A.get k j = if i = j then 1 else 0 at this
    unfold MPC.mm ide
    rw [← this, h4]
    exact sum_congr rfl fun k hk => by rw [hA.2.2 k (mem_range.1 hk) j hj]

/-- A right inverse is the inverse. -/
theorem Mat.Is.inverse_unique {A B : Mat K} {n : ℕ} {f g : ℕ → ℕ → K} (hA : A.Is n n f)
    (h : A.inverse = some B) (hg : ∀ i < n, ∀ j < n, mm n f g i j = ide i j) : B.Is n n g := by
  obtain ⟨h1, -, h3⟩ := hA.inverse h
  refine h1.congr fun i hi j hj => ?_
  rw [← mm_ide B.get i hj]
  have : mm n B.get ide i j = mm n B.get (mm n f g) i j :=
    sum_congr rfl fun k hk => by rw [hg k (mem_range.1 hk) j hj]
  rw [this, ← mm_assoc]
  have : mm n (mm n B.get f) g i j = mm n ide g i j :=
    sum_congr rfl fun k hk => by rw [h3 i hi k (mem_range.1 hk)]
  rw [this, ide_mm _ hi]

/-- A lower triangular matrix with a non zero diagonal has an inverse. -/
theorem Mat.Is.inverse_isSome {A : Mat K} {n : ℕ} {f : ℕ → ℕ → K} (hA : A.Is n n f) (hl : Lower n f)
    (hd : ∀ i < n, f i i ≠ 0) : ∃ B, A.inverse = some B := by
  unfold Mat.inverse
  have : Matrix.det (Matrix.of fun i j : Fin A.rows => A.get i j) ≠ 0 := by
    have e : (Matrix.of fun i j : Fin A.rows => A.get i j)
        = Matrix.of fun i j : Fin A.rows => if (i : ℕ) < j then 0 else A.get i j := by
      ext i j
      simp only [Matrix.of_apply]
      split_ifs with c
      · have hi : (i : ℕ) < n := hA.1 ▸ i.2
        have hj : (j : ℕ) < n := hA.1 ▸ j.2
        rw [hA.2.2 _ hi _ hj, hl _ hi _ hj c]
      · rfl
    rw [e, det_lower A.rows (fun i j => if i < j then 0 else A.get i j) (fun i j h => if_pos h)]
    refine Finset.prod_ne_zero_iff.2 fun i _ => ?_
    have hi : (i : ℕ) < n := hA.1 ▸ i.2
    rw [if_neg (lt_irrefl _), hA.2.2 _ hi _ hi]
    exact hd i hi
  simp only [this, if_false]
  exact ⟨_, rfl⟩

/-- Removal of the entries below the precision. -/
def thr (eps x : K) : K := if |x| < eps then 0 else x

theorem thr_zero (eps : K) : thr eps (0 : K) = 0 := by unfold thr; split_ifs <;> rfl

theorem abs_thr_sub_le {eps : K} (h : 0 ≤ eps) (x : K) : |thr eps x - x| ≤ eps := by
  unfold thr
  split_ifs with c
  · rw [zero_sub, abs_neg]; exact c.le
  · rw [sub_self, abs_zero]; exact h

theorem Mat.Is.inverseLU {A B : Mat K} {n : ℕ} {g : ℕ → ℕ → K} {eps : K} (h : A.inverse = some B)
    (hB : B.Is n n g) : ∃ W, MPC.inverseLU A eps = some W ∧ W.Is n n fun i j => thr eps (g i j) :=
  ⟨_, inverseLU_eq A B eps h, hB.1, hB.2.1, fun i hi j hj => by
    change (if |B.get i j| < eps then 0 else B.get i j) = _
    rw [hB.2.2 i hi j hj]; rfl⟩

/-! ### From angles to angular accelerations -/

/-- Coefficients of `(1 - z)² / (1 + z)`. -/
def tc (n : ℕ) : K := if n = 0 then 1 else if n = 1 then -3 else 4 * (-1) ^ n

theorem tc_sum : ∀ n : ℕ, ∑ m ∈ range (n + 2), (tc m : K) = 2 * (-1) ^ (n + 1)
  | 0 => by simp [sum_range_succ, tc]; norm_num
  | n + 1 => by
    rw [sum_range_succ, tc_sum n]
    unfold tc
    rw [if_neg (by omega), if_neg (by omega)]; ring

theorem tc_conv : ∀ n : ℕ, ∑ m ∈ range (n + 1), (1 / 2 + ((n - m : ℕ) : K)) * tc m
    = if n = 0 then 1 / 2 else 0
  | 0 => by simp [tc]
  | n + 1 => by
    rw [sum_range_succ]
    have h1 : ∑ m ∈ range (n + 1), (1 / 2 + ((n + 1 - m : ℕ) : K)) * tc m
        = ∑ m ∈ range (n + 1), (1 / 2 + ((n - m : ℕ) : K)) * tc m + ∑ m ∈ range (n + 1), tc m := by
      rw [← sum_add_distrib]
      refine sum_congr rfl fun m hm => ?_
      have : n + 1 - m = (n - m) + 1 := by have := mem_range.1 hm; omega
      rw [this]; push_cast; ring
    rw [h1, tc_conv n, if_neg (Nat.succ_ne_zero n), Nat.sub_self]
    rcases n with - | n
    · simp [tc]; norm_num
    · rw [if_neg (by omega), tc_sum]
      unfold tc
      rw [if_neg (by omega), if_neg (by omega)]; push_cast; ring

theorem velU_eq (T : K) (i j : ℕ) : velU T T i j = if j ≤ i then T ^ 2 * (1 / 2 + ((i - j : ℕ) : K)) else 0 := by
  unfold velU
  by_cases h : j = 0
  · subst h; simp; ring
  · rw [if_neg h]; split_ifs <;> ring

/-- Inverse of `velU T T`. -/
def pInvE (T : K) (i j : ℕ) : K := if j ≤ i then 2 / T ^ 2 * tc (i - j) else 0

theorem velU_pInvE {T : K} (hT : T ≠ 0) (n : ℕ) : ∀ i < n, ∀ j < n, mm n (velU T T) (pInvE T) i j = ide i j := by
  intro i hi j hj
  unfold mm ide
  rcases lt_or_ge i j with c | c
  · rw [if_neg (by omega)]
    refine sum_eq_zero fun k hk => ?_
    rw [velU_eq]; unfold pInvE
    split_ifs <;> first | omega | simp
  · obtain ⟨d, rfl⟩ := Nat.exists_eq_add_of_le c
    have e : ∑ k ∈ range n, velU T T (j + d) k * pInvE T k j
        = ∑ m ∈ range (d + 1), 2 * ((1 / 2 + ((d - m : ℕ) : K)) * tc m) := by
      have h1 : ∑ k ∈ range n, velU T T (j + d) k * pInvE T k j
          = ∑ k ∈ range (j + (d + 1)), velU T T (j + d) k * pInvE T k j := by
        symm
        apply sum_subset
        · intro k hk; simp only [mem_range] at *; omega
        · intro k _ hk
          simp only [mem_range] at hk
          rw [velU_upper _ _ (by omega), zero_mul]
      rw [h1, sum_range_add]
      have h2 : ∑ k ∈ range j, velU T T (j + d) k * pInvE T k j = 0 := by
        refine sum_eq_zero fun k hk => ?_
        have := mem_range.1 hk
        unfold pInvE; rw [if_neg (by omega), mul_zero]
      rw [h2, zero_add]
      refine sum_congr rfl fun m hm => ?_
      have hm := mem_range.1 hm
      rw [velU_eq, if_pos (by omega)]
      unfold pInvE
      rw [if_pos (by omega), show j + d - (j + m) = d - m by omega, show j + m - j = m by omega]
      field_simp
    rw [e, ← mul_sum, tc_conv]
    by_cases h : d = 0
    · rw [if_pos h, if_pos (by omega)]; norm_num
    · rw [if_neg h, if_neg (by omega), mul_zero]

theorem pInvE_diag (T : K) (i : ℕ) : pInvE T i i = 2 / T ^ 2 := by simp [pInvE, tc]
theorem pInvE_upper (T : K) {i j : ℕ} (h : i < j) : pInvE T i j = 0 := by
  unfold pInvE; rw [if_neg (by omega)]

/-- Entries of the inverse kept by the code. -/
def pInvT (T : K) (i j : ℕ) : K := thr EPS (pInvE T i j)

theorem pInvT_upper (T : K) {i j : ℕ} (h : i < j) : pInvT T i j = 0 := by
  unfold pInvT; rw [pInvE_upper _ h, thr_zero]

theorem pInvT_diag {T : K} (hT : 0 < T) (i : ℕ) : pInvT T i i = Spec.tiltGain T := by
  unfold pInvT thr Spec.tiltGain
  rw [pInvE_diag, abs_of_pos (by positivity)]

/-- For sampling periods below 141 s nothing is cut off. -/
theorem pInvT_eq {T : K} (hT : 0 < T) (h : T ^ 2 * EPS ≤ 2) (i j : ℕ) : pInvT T i j = pInvE T i j := by
  unfold pInvT thr
  split_ifs with c
  · unfold pInvE at c ⊢
    split_ifs at c ⊢ with h1
    · exfalso
      have h2 : (1 : K) ≤ |tc (i - j)| := by
        unfold tc
        split_ifs
        · simp
        · norm_num
        · rw [abs_mul, abs_pow]; norm_num
      have h3 : EPS ≤ 2 / T ^ 2 := by rw [le_div_iff₀ (by positivity)]; linarith
      rw [abs_mul, abs_of_pos (show (0 : K) < 2 / T ^ 2 by positivity)] at c
      have : (2 / T ^ 2) * 1 ≤ 2 / T ^ 2 * |tc (i - j)| :=
        mul_le_mul_of_nonneg_left h2 (by positivity)
      linarith
    · rfl
  · rfl

theorem pos2Dyn_inv {T : K} (hT : 0 < T) (N : ℕ) :
    ∃ P, readInv (pos2Dyn T T N).Uinv = .ok P ∧ P.Is N N (pInvT T) := by
  have hA := Mat.Is.of N N (velU T T)
  obtain ⟨B, hB⟩ := hA.inverse_isSome (fun i _ j _ h => velU_upper _ _ h) (fun i _ => by
    rw [velU_eq, if_pos le_rfl, Nat.sub_self]
    have : (0 : K) < T ^ 2 := by positivity
    simp [hT.ne'])
  obtain ⟨W, hW, hI⟩ := Mat.Is.inverseLU (eps := EPS) hB (hA.inverse_unique hB (velU_pInvE hT.ne' N))
  refine ⟨W, ?_, hI⟩
  change readInv (MPC.inverseLU ⟨N, N, velU T T⟩ EPS) = _
  rw [hW]; rfl

/-! ### The assembly -/

/-- Coefficients of the tilt equation for base height `L`. -/
def tA1 (s : Spec.ZebSettings K) (L : K) : K :=
  GRAVITY_NORM * (s.bodyMass * s.bodyHeight + s.baseMass * L)
def tA6 (s : Spec.ZebSettings K) (L : K) : K :=
  s.bodyMass * s.bodyHeight * s.bodyHeight + s.baseMass * L * L

/-- Right hand side of the equation solved by the code, per unit of jerk and of state. -/
def tiltRC (s : Spec.ZebSettings K) (L : K) (i j : ℕ) : K :=
  -(s.baseMass * L) * accU (Spec.comFirst s.period) s.period i j
    + s.bodyMass * GRAVITY_NORM * posU (Spec.comFirst s.period) s.period i j
def tiltRCS (s : Spec.ZebSettings K) (L : K) (i j : ℕ) : K :=
  -(s.baseMass * L) * accS i j + s.bodyMass * GRAVITY_NORM * posS (Spec.comFirst s.period) s.period i j
def tiltRB (s : Spec.ZebSettings K) (i j : ℕ) : K :=
  -(s.bodyMass * s.bodyHeight) * accU s.period s.period i j
    - s.bodyMass * GRAVITY_NORM * posU s.period s.period i j
def tiltRBS (s : Spec.ZebSettings K) (i j : ℕ) : K :=
  -(s.bodyMass * s.bodyHeight) * accS i j - s.bodyMass * GRAVITY_NORM * posS s.period s.period i j

/-- What is known of an up-to-date tilt objective: `u` is its inverse matrix, `ps` the influence of the
initial angle and angular velocity. -/
structure Tilt.Is (t : Tilt K) (s : Spec.ZebSettings K) (L cx cy : K) (u ps : ℕ → ℕ → K) : Prop where
  uInv : t.uInv.Is s.nbSamples s.nbSamples u
  psiXK : t.psiXK.Is s.nbSamples fun i => ∑ k ∈ range s.nbSamples, -u i k * (s.baseMass * GRAVITY_NORM * cx)
  psiYK : t.psiYK.Is s.nbSamples fun i => ∑ k ∈ range s.nbSamples, -u i k * (s.baseMass * GRAVITY_NORM * cy)
  psiXS : t.psiXS.Is s.nbSamples 2 ps
  psiYS : t.psiYS.Is s.nbSamples 2 ps
  cU : t.cU.Is s.nbSamples s.nbSamples (mm s.nbSamples u (tiltRC s L))
  cUT : t.cUT = t.cU.transpose
  cS : t.cS.Is s.nbSamples 3 (mm s.nbSamples u (tiltRCS s L))
  bU : t.bU.Is s.nbSamples s.nbSamples (mm s.nbSamples u (tiltRB s))
  bUT : t.bUT = t.bU.transpose
  bS : t.bS.Is s.nbSamples 3 (mm s.nbSamples u (tiltRBS s))
  hessian : t.hessian.Is (4 * s.nbSamples) (4 * s.nbSamples) (gram (2 * s.nbSamples)
    (coupledD s.nbSamples (mm s.nbSamples u (tiltRC s L)) (mm s.nbSamples u (tiltRC s L))
      (mm s.nbSamples u (tiltRB s)) (mm s.nbSamples u (tiltRB s))))

theorem tiltContact_ok {b : Base K} {W : Mat K} {u : ℕ → ℕ → K} {N : ℕ} (hb : b.N = N) (hW : W.Is N N u)
    (d : K) : ∃ v, tiltContact b W d = .ok v ∧
      v.Is N fun i => ∑ k ∈ range N, -u i k * (b.mass * GRAVITY_NORM * d) := by
  unfold tiltContact
  rw [hb]
  exact hW.neg.mulVec (Vec.Is.of N fun _ => b.mass * GRAVITY_NORM * d)

theorem Tilt.assemble_ok {s : Spec.ZebSettings K} {l : Lip K} {b : Base K} {L cx cy : K} {W PS : Mat K}
    {u ps : ℕ → ℕ → K} (h : ZModel s l b) (hx : b.dbx = some cx) (hy : b.dby = some cy)
    (hW : W.Is s.nbSamples s.nbSamples u) (hP : PS.Is s.nbSamples 2 ps) :
    ∃ t, Tilt.assemble l { b with comHeight := L } W PS = .ok t ∧ t.Is s L cx cy u ps := by
  have hp := posDyn_is (Spec.comFirst s.period) s.period s.nbSamples
  have ha := accDyn_is (Spec.comFirst s.period) s.period s.nbSamples
  have hbp := posDyn_is s.period s.period s.nbSamples
  have hba := accDyn_is s.period s.period s.nbSamples
  obtain ⟨kx, ekx, hkx⟩ := tiltContact_ok (b := { b with comHeight := L }) h.bN hW cx
  obtain ⟨ky, eky, hky⟩ := tiltContact_ok (b := { b with comHeight := L }) h.bN hW cy
  obtain ⟨a1, e1, h1⟩ := (ha.U.smul (-(s.baseMass * L))).add (hp.U.smul (s.bodyMass * GRAVITY_NORM))
  obtain ⟨cu, ecu, hcu⟩ := hW.mul h1
  obtain ⟨a2, e2, h2⟩ := (ha.S.smul (-(s.baseMass * L))).add (hp.S.smul (s.bodyMass * GRAVITY_NORM))
  obtain ⟨cs, ecs, hcs⟩ := hW.mul h2
  obtain ⟨a3, e3, h3⟩ := (hba.U.smul (-(s.bodyMass * s.bodyHeight))).sub
    (hbp.U.smul (s.bodyMass * GRAVITY_NORM))
  obtain ⟨bu, ebu, hbu⟩ := hW.mul h3
  obtain ⟨a4, e4, h4⟩ := (hba.S.smul (-(s.bodyMass * s.bodyHeight))).sub
    (hbp.S.smul (s.bodyMass * GRAVITY_NORM))
  obtain ⟨bs, ebs, hbs⟩ := hW.mul h4
  obtain ⟨q1, f1, g1⟩ := hcu.transpose.mul hcu
  obtain ⟨q2, f2, g2⟩ := hbu.transpose.mul hbu
  obtain ⟨q3, f3, g3⟩ := hbu.transpose.mul hcu
  obtain ⟨q4, f4, g4⟩ := hcu.transpose.mul hbu
  obtain ⟨H, eH, hH⟩ := hessian8_ok g1 g1 g2 g2 g3 g3 g4 g4
  refine ⟨{ uInv := W, psiXK := kx, psiYK := ky, psiXS := PS, psiYS := PS, cU := cu
            cUT := cu.transpose, cS := cs, bU := bu, bUT := bu.transpose, bS := bs, hessian := H }, ?_, ?_⟩
  · have q1 : ({ b with comHeight := L } : Base K).N = s.nbSamples := h.bN
    have q2 : ({ b with comHeight := L } : Base K).mass = s.baseMass := h.bm
    have q3 : ({ b with comHeight := L } : Base K).comHeight = L := rfl
    have q4 : ({ b with comHeight := L } : Base K).pos = _ := h.pos
    have q5 : ({ b with comHeight := L } : Base K).acc = _ := h.acc
    have q6 : ({ b with comHeight := L } : Base K).dbx = _ := hx
    have q7 : ({ b with comHeight := L } : Base K).dby = _ := hy
    clear hkx hky
    generalize ({ b with comHeight := L } : Base K) = b' at *
    unfold Tilt.assemble
    simp only [q6, q7, readInit, res_pure, ok_bind, h.last_pos, h.last_acc, ekx, eky, q2, q3, h.lm, h.lh,
      q5, q4, q1, e1, e2, e3, e4, ecu, ecs, ebu, ebs, f1, f2, f3, f4, eH]
  · rw [h.bm] at hkx hky
    exact ⟨hW, hkx, hky, hP, hP, hcu, rfl, hcs, hbu, rfl, hbs, hH⟩

/-- Recomputing the contact point of an up-to-date objective. -/
theorem Tilt.updateContact_ok {s : Spec.ZebSettings K} {l : Lip K} {b : Base K} {L cx cy cx' cy' : K}
    {t : Tilt K} {u ps : ℕ → ℕ → K} (h : ZModel s l b) (hx : b.dbx = some cx') (hy : b.dby = some cy')
    (ht : t.Is s L cx cy u ps) :
    ∃ t', t.updateContact l b = .ok t' ∧ t'.Is s L cx' cy' u ps := by
  obtain ⟨kx, ekx, hkx⟩ := tiltContact_ok h.bN ht.uInv cx'
  obtain ⟨ky, eky, hky⟩ := tiltContact_ok h.bN ht.uInv cy'
  unfold Tilt.updateContact
  simp only [h.same, hx, hy, readInit, res_pure, ok_bind, ekx, eky]
  rw [h.bm] at hkx hky
  exact ⟨_, rfl, { ht with psiXK := hkx, psiYK := hky }⟩

/-- The matrix of the equation solved by `TiltMinimizationObjective`. -/
def tiltU (s : Spec.ZebSettings K) (L : K) (i j : ℕ) : K := tA1 s L * ide i j - tA6 s L * pInvT s.period i j

/-- Influence of the initial angle (column 0) and angular velocity (column 1) on the angles. -/
def tiltS0 (T : K) (i k : ℕ) : K := if k = 0 then 1 else (i : K) * T + T

/-- The matrices of `TiltMinimizationObjective`. -/
structure TiltSol (s : Spec.ZebSettings K) (L : K) (u ps : ℕ → ℕ → K) : Prop where
  inv : ∃ v : ℕ → ℕ → K, (∀ i < s.nbSamples, ∀ j < s.nbSamples, u i j = thr tiltEps (v i j)) ∧
    (∀ i < s.nbSamples, ∀ j < s.nbSamples, mm s.nbSamples (tiltU s L) v i j = ide i j) ∧
    (∀ i < s.nbSamples, ∀ j < s.nbSamples, mm s.nbSamples v (tiltU s L) i j = ide i j)
  ps : ∀ i < s.nbSamples, ∀ j < 2, ps i j = ∑ k ∈ range s.nbSamples, tA6 s L * u i k *
    ∑ q ∈ range s.nbSamples, -pInvT s.period k q * tiltS0 s.period q j

theorem Tilt.compute_ok {s : Spec.ZebSettings K} {l : Lip K} {b : Base K} {L cx cy : K}
    (h : ZModel s l b) (hx : b.dbx = some cx) (hy : b.dby = some cy) :
    ((∃ t, Tilt.compute l { b with comHeight := L } = .ok t) →
      ∃ t u ps, Tilt.compute l { b with comHeight := L } = .ok t ∧ t.Is s L cx cy u ps ∧ TiltSol s L u ps) ∧
    (({ s with baseHeight := L } : Spec.ZebSettings K).TiltRegular →
      ∃ t u ps, Tilt.compute l { b with comHeight := L } = .ok t ∧ t.Is s L cx cy u ps ∧
        TiltSol s L u ps) := by
  obtain ⟨P, eP, hP⟩ := pos2Dyn_inv h.T_pos s.nbSamples
  have hS : (pos2Dyn s.period s.period s.nbSamples).S.Is s.nbSamples 2 (tiltS0 s.period) := Mat.Is.of _ _ _
  obtain ⟨aS, eaS, haS⟩ := hP.neg.mul hS
  obtain ⟨U, eU, hU⟩ := ((Mat.Is.of s.nbSamples s.nbSamples ide).smul (tA1 s L)).sub (hP.smul (tA6 s L))
  have hU : U.Is s.nbSamples s.nbSamples (tiltU s L) := hU
  have a1 : tiltA1 l { b with comHeight := L } = tA1 s L := by
    unfold tiltA1 tA1; dsimp only; rw [h.lm, h.lh, h.bm]
  have a6 : tiltA6 l { b with comHeight := L } = tA6 s L := by
    unfold tiltA6 tA6; dsimp only; rw [h.lm, h.lh, h.bm]
  have hsame : requireSame l { b with comHeight := L } = .ok () := h.same
  have e : Tilt.compute l { b with comHeight := L } = (do
      let uInv ← readInv (MPC.inverseLU U tiltEps)
      let psiS ← (uInv.smul (tA6 s L)).mul? aS
      Tilt.assemble l { b with comHeight := L } uInv psiS) := by
    unfold Tilt.compute
    rw [hsame, ok_bind, a1, a6]
    dsimp only
    rw [h.tilt, eP, ok_bind, eaS, ok_bind, h.bN]
    rw [show (Mat.one s.nbSamples : Mat K) = ⟨s.nbSamples, s.nbSamples, ide⟩ from rfl, eU, ok_bind]
  have key : ∀ B, U.inverse = some B → ∃ t u ps, Tilt.compute l { b with comHeight := L } = .ok t ∧
      t.Is s L cx cy u ps ∧ TiltSol s L u ps := by
    intro B hB
    obtain ⟨i1, i2, i3⟩ := hU.inverse hB
    obtain ⟨W, eW, hW⟩ := Mat.Is.inverseLU (eps := tiltEps) hB i1
    obtain ⟨PS, ePS, hPS⟩ := (hW.smul (tA6 s L)).mul haS
    obtain ⟨t, et, ht⟩ := Tilt.assemble_ok (L := L) h hx hy hW hPS
    refine ⟨t, _, _, ?_, ht, ⟨B.get, fun _ _ _ _ => rfl, i2, i3⟩, fun _ _ _ _ => rfl⟩
    rw [e, eW]
    change (do
      let psiS ← (W.smul (tA6 s L)).mul? aS
      Tilt.assemble l { b with comHeight := L } W psiS) = _
    rw [ePS, ok_bind, et]
  constructor
  · rintro ⟨t, ht⟩
    cases hB : U.inverse with
    | some B => exact key B hB
    | none =>
      exfalso
      rw [e] at ht
      unfold MPC.inverseLU at ht
      rw [hB] at ht
      cases ht
  · intro hreg
    obtain ⟨B, hB⟩ := hU.inverse_isSome (fun i _ j _ hij => by
        unfold tiltU ide; rw [if_neg (by omega), pInvT_upper _ hij]; ring) (fun i _ => by
        unfold tiltU ide
        rw [if_pos rfl, pInvT_diag h.T_pos]
        have hreg : tA1 s L ≠ (s.bodyMass * s.bodyHeight ^ 2 + s.baseMass * L ^ 2) * Spec.tiltGain s.period :=
          hreg
        intro h0
        apply hreg
        have : tA6 s L = s.bodyMass * s.bodyHeight ^ 2 + s.baseMass * L ^ 2 := by unfold tA6; ring
        rw [← this]; linarith)
    exact key B hB

/-! ### The velocity variant -/

/-- Exact inverse of the matrix angular acceleration to angular velocity. -/
def vInvE (T : K) (N : ℕ) (i j : ℕ) : K := (bidiagonalInverse T T N).get i j

/-- The matrix of the equation solved by `TiltVelMinimizationObjective`. -/
def tiltVelU (s : Spec.ZebSettings K) (L : K) (i j : ℕ) : K :=
  mm s.nbSamples (fun i j => tA1 s L * velU s.period s.period i j) (vInvE s.period s.nbSamples) i j
  - mm s.nbSamples (mm s.nbSamples (fun i j => tA6 s L * velU s.period s.period i j)
      (vInvE s.period s.nbSamples)) (pInvT s.period) i j

/-- The matrices of `TiltVelMinimizationObjective`. -/
structure TiltVelSol (s : Spec.ZebSettings K) (L : K) (u ps : ℕ → ℕ → K) : Prop where
  inv : ∃ v : ℕ → ℕ → K, (∀ i < s.nbSamples, ∀ j < s.nbSamples, u i j = thr tiltEps (v i j)) ∧
    (∀ i < s.nbSamples, ∀ j < s.nbSamples, mm s.nbSamples (tiltVelU s L) v i j = ide i j) ∧
    (∀ i < s.nbSamples, ∀ j < s.nbSamples, mm s.nbSamples v (tiltVelU s L) i j = ide i j)
  ps : ∀ i < s.nbSamples, ∀ j < 2, ps i j = (∑ k ∈ range s.nbSamples, tA6 s L * u i k *
    ∑ q ∈ range s.nbSamples, -pInvT s.period k q * tiltS0 s.period q j)
    - mm s.nbSamples (mm s.nbSamples (accU s.period s.period) (pInvT s.period)) (tiltS0 s.period) i j
    + if j = 1 then 1 else 0

theorem vInvE_lower (T : K) (N : ℕ) {i j : ℕ} (h : i < j) : vInvE T N i j = 0 := by
  unfold vInvE bidiagonalInverse
  dsimp only
  split_ifs <;> first | omega | rfl

theorem vInvE_diag (T : K) (N : ℕ) (i : ℕ) : vInvE T N i i = 1 / T := by
  unfold vInvE bidiagonalInverse
  dsimp only
  split_ifs <;> first | rfl | omega | skip

theorem Tilt.computeVel_ok {s : Spec.ZebSettings K} {l : Lip K} {b : Base K} {L cx cy : K}
    (h : ZModel s l b) (hx : b.dbx = some cx) (hy : b.dby = some cy) :
    ((∃ t, Tilt.computeVel l { b with comHeight := L } = .ok t) →
      ∃ t u ps, Tilt.computeVel l { b with comHeight := L } = .ok t ∧ t.Is s L cx cy u ps ∧
        TiltVelSol s L u ps) ∧
    (({ s with baseHeight := L } : Spec.ZebSettings K).TiltRegular →
      ∃ t u ps, Tilt.computeVel l { b with comHeight := L } = .ok t ∧ t.Is s L cx cy u ps ∧
        TiltVelSol s L u ps) := by
  obtain ⟨P, eP, hP⟩ := pos2Dyn_inv h.T_pos s.nbSamples
  have hS : (pos2Dyn s.period s.period s.nbSamples).S.Is s.nbSamples 2 (tiltS0 s.period) := Mat.Is.of _ _ _
  have hTU : (pos2Dyn s.period s.period s.nbSamples).U.Is s.nbSamples s.nbSamples (velU s.period s.period) :=
    Mat.Is.of _ _ _
  have hVU : (vel2Dyn s.period s.period s.nbSamples).U.Is s.nbSamples s.nbSamples (accU s.period s.period) :=
    Mat.Is.of _ _ _
  have hVS : (vel2Dyn s.period s.period s.nbSamples).S.Is s.nbSamples 2 (fun _ k => if k = 1 then (1 : K) else 0) :=
    Mat.Is.of _ _ _
  have hV : (bidiagonalInverse s.period s.period s.nbSamples).Is s.nbSamples s.nbSamples
      (vInvE s.period s.nbSamples) := ⟨rfl, rfl, fun _ _ _ _ => rfl⟩
  obtain ⟨aS, eaS, haS⟩ := hP.neg.mul hS
  obtain ⟨c1, ec1, hc1⟩ := (hTU.smul (tA1 s L)).mul hV
  obtain ⟨c2, ec2, hc2⟩ := (hTU.smul (tA6 s L)).mul hV
  obtain ⟨c3, ec3, hc3⟩ := hc2.mul hP
  obtain ⟨U, eU, hU⟩ := hc1.sub hc3
  have hU : U.Is s.nbSamples s.nbSamples (tiltVelU s L) := hU
  obtain ⟨d1, ed1, hd1⟩ := hVU.mul hP
  obtain ⟨d2, ed2, hd2⟩ := hd1.mul hS
  have a1 : tiltA1 l { b with comHeight := L } = tA1 s L := by
    unfold tiltA1 tA1; dsimp only; rw [h.lm, h.lh, h.bm]
  have a6 : tiltA6 l { b with comHeight := L } = tA6 s L := by
    unfold tiltA6 tA6; dsimp only; rw [h.lm, h.lh, h.bm]
  have hsame : requireSame l { b with comHeight := L } = .ok () := h.same
  have e : Tilt.computeVel l { b with comHeight := L } = (do
      let uInv ← readInv (MPC.inverseLU U tiltEps)
      let psiS ← (← (← (uInv.smul (tA6 s L)).mul? aS).sub? d2).add?
        (vel2Dyn s.period s.period s.nbSamples).S
      Tilt.assemble l { b with comHeight := L } uInv psiS) := by
    unfold Tilt.computeVel
    rw [hsame, ok_bind, a1, a6]
    dsimp only
    rw [h.tilt, h.tiltVel, eP, ok_bind]
    rw [show (vel2Dyn s.period s.period s.nbSamples).Uinv
      = some (bidiagonalInverse s.period s.period s.nbSamples) from rfl]
    simp only [readInv, res_pure, ok_bind, eaS, ec1, ec2, ec3, eU, ed1, ed2]
  have key : ∀ B, U.inverse = some B → ∃ t u ps, Tilt.computeVel l { b with comHeight := L } = .ok t ∧
      t.Is s L cx cy u ps ∧ TiltVelSol s L u ps := by
    intro B hB
    obtain ⟨i1, i2, i3⟩ := hU.inverse hB
    obtain ⟨W, eW, hW⟩ := Mat.Is.inverseLU (eps := tiltEps) hB i1
    obtain ⟨p1, ep1, hp1⟩ := (hW.smul (tA6 s L)).mul haS
    obtain ⟨p2, ep2, hp2⟩ := hp1.sub hd2
    obtain ⟨PS, ePS, hPS⟩ := hp2.add hVS
    obtain ⟨t, et, ht⟩ := Tilt.assemble_ok (L := L) h hx hy hW hPS
    refine ⟨t, _, _, ?_, ht, ⟨B.get, fun _ _ _ _ => rfl, i2, i3⟩, fun _ _ _ _ => rfl⟩
    rw [e, eW]
    simp only [readInv, res_pure, ok_bind, ep1, ep2, ePS, et]
  constructor
  · rintro ⟨t, ht⟩
    cases hB : U.inverse with
    | some B => exact key B hB
    | none =>
      exfalso
      rw [e] at ht
      unfold MPC.inverseLU at ht
      rw [hB] at ht
      cases ht
  · intro hreg
    have lv : ∀ a : K, Lower s.nbSamples (fun i j => a * velU s.period s.period i j) :=
      fun a i _ j _ hij => by dsimp only; rw [velU_upper _ _ hij, mul_zero]
    have lw : Lower s.nbSamples (vInvE s.period s.nbSamples) := fun i _ j _ hij => vInvE_lower _ _ hij
    have lp : Lower s.nbSamples (pInvT s.period) := fun i _ j _ hij => pInvT_upper _ hij
    obtain ⟨l1, k1⟩ := (lv (tA1 s L)).mm lw
    obtain ⟨l2, k2⟩ := (lv (tA6 s L)).mm lw
    obtain ⟨l3, k3⟩ := l2.mm lp
    obtain ⟨B, hB⟩ := hU.inverse_isSome (fun i hi j hj hij => by
        unfold tiltVelU; rw [l1 i hi j hj hij, l3 i hi j hj hij, sub_zero]) (fun i hi => by
        unfold tiltVelU
        rw [k1 i hi, k3 i hi, k2 i hi, pInvT_diag h.T_pos, vInvE_diag]
        have hreg : tA1 s L ≠ (s.bodyMass * s.bodyHeight ^ 2 + s.baseMass * L ^ 2) * Spec.tiltGain s.period :=
          hreg
        intro h0
        apply hreg
        have h6 : tA6 s L = s.bodyMass * s.bodyHeight ^ 2 + s.baseMass * L ^ 2 := by unfold tA6; ring
        rw [← h6]
        have hv : velU s.period s.period i i * (1 / s.period) ≠ 0 := by
          rw [velU_eq, if_pos le_rfl, Nat.sub_self]
          have := h.T_pos.ne'
          simp [this]
        have h1 : (velU s.period s.period i i * (1 / s.period)) * (tA1 s L - tA6 s L * Spec.tiltGain s.period) = 0 := by
          rw [← h0]; ring
        rcases mul_eq_zero.1 h1 with h2 | h2
        · exact absurd h2 hv
        · linarith)
    exact key B hB

/-! ### Gradient -/

/-- Offsets of the tilt residuals along one coordinate. -/
def tiltOff (s : Spec.ZebSettings K) (L : K) (u ps : ℕ → ℕ → K) (com base tilt : State3 K) (c : K) (k : ℕ) : K :=
  ∑ i ∈ range 3, mm s.nbSamples u (tiltRCS s L) k i * com.toVec.get i
    + ∑ i ∈ range 3, mm s.nbSamples u (tiltRBS s) k i * base.toVec.get i
    + ∑ i ∈ range 2, ps k i * tilt.toVec.get i
    + ∑ j ∈ range s.nbSamples, -u k j * (s.baseMass * GRAVITY_NORM * c)

theorem Tilt.getGradient_ok {s : Spec.ZebSettings K} {l : Lip K} {b : Base K} {L cx cy : K}
    {t : Tilt K} {u ps : ℕ → ℕ → K} {x0 : Vec K} (h : ZModel s l b) (ht : t.Is s L cx cy u ps)
    (hx : x0.size = 4 * s.nbSamples) :
    ∃ G, t.getGradient l b x0 = .ok G ∧ G.Is (4 * s.nbSamples)
      (LsqGrad (2 * s.nbSamples) (4 * s.nbSamples)
        (coupledD s.nbSamples (mm s.nbSamples u (tiltRC s L)) (mm s.nbSamples u (tiltRC s L))
          (mm s.nbSamples u (tiltRB s)) (mm s.nbSamples u (tiltRB s)))
        (zStack s.nbSamples (tiltOff s L u ps l.x b.x b.roll cx) (tiltOff s L u ps l.y b.y b.pitch cy))
        x0.get) := by
  have off : ∀ {pS : Mat K} {pK : Vec K} {c : K} (com base tilt : State3 K), pS.Is s.nbSamples 2 ps →
      pK.Is s.nbSamples (fun i => ∑ k ∈ range s.nbSamples, -u i k * (s.baseMass * GRAVITY_NORM * c)) →
      ∃ o, t.offset com base tilt pS pK = .ok o ∧ o.Is s.nbSamples (tiltOff s L u ps com base tilt c) := by
    intro pS pK c com base tilt hS hK
    obtain ⟨a1, e1, h1⟩ := ht.cS.mulVec com.is
    obtain ⟨a2, e2, h2⟩ := ht.bS.mulVec base.is
    obtain ⟨a3, e3, h3⟩ := h1.add h2
    obtain ⟨a4, e4, h4⟩ := tilt.is.segment (s := 0) (n := 2) (by omega)
    obtain ⟨a5, e5, h5⟩ := hS.mulVec h4
    obtain ⟨a6, e6, h6⟩ := h3.add h5
    obtain ⟨a7, e7, h7⟩ := h6.add hK
    refine ⟨a7, ?_, h7.congr fun k _ => ?_⟩
    · unfold Tilt.offset
      rw [e1, ok_bind, e2, ok_bind, e3, ok_bind, e4, ok_bind, e5, ok_bind, e6, ok_bind, e7]
    · unfold tiltOff; simp only [zero_add]
  obtain ⟨kx, ekx, hkx⟩ := off l.x b.x b.roll ht.psiXS ht.psiXK
  obtain ⟨ky, eky, hky⟩ := off l.y b.y b.pitch ht.psiYS ht.psiYK
  obtain ⟨g, eg, hg⟩ := ht.hessian.mulVec (x0.is hx)
  obtain ⟨o0, e0, h0⟩ := ht.cU.transpose.mulVec hkx
  obtain ⟨o1, e1, h1⟩ := ht.cU.transpose.mulVec hky
  obtain ⟨o2, e2, h2⟩ := ht.bU.transpose.mulVec hkx
  obtain ⟨o3, e3, h3⟩ := ht.bU.transpose.mulVec hky
  obtain ⟨G, eG, hG⟩ := gradient4_ok _ _ _ _ hg.1 h0 h1 h2 h3
  refine ⟨G, ?_, hG.congr fun r hr => ?_⟩
  · unfold Tilt.getGradient
    rw [require_pos (by rw [h.bN]; omega), ok_bind, require_pos (h.bN.trans h.lN.symm), ok_bind, h.same, ok_bind,
      eg, ok_bind, ekx, ok_bind, eky, ok_bind, ht.cUT, ht.bUT, e0, e1, e2, e3, h.bN, eG]
  · rw [hg.2 r hr]; rfl

end MPC
