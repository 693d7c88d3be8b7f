import Verif.Lemmas.ZebStep
import Verif.Spec.ZebulonQP

/-! # The meaning of the QP of `ZebulonWalkgen` -/

set_option linter.unusedSectionVars false

namespace MPC

open Finset

variable {K : Type} [Field K] [LinearOrder K] [IsStrictOrderedRing K] [FloorRing K]

variable {tr : Trig K} {s : Spec.ZebSettings K} {L : K} {k : K × K} {w : Zeb K}

/-- The states of CoM and base, as returned by the getters of the generator. -/
def Zeb.state (w : Zeb K) : Spec.ZebState K := ⟨w.lip.x, w.lip.y, w.base.x, w.base.y⟩

/-! ### Residuals -/

section rows
variable (X : ℕ → K) {i : ℕ}

theorem zVel_x (h : i < s.nbSamples) (z : Spec.ZebState K) :
    ∑ c ∈ range (2 * s.nbSamples), zVelD s i c * X (2 * s.nbSamples + c)
      + ∑ l ∈ range 3, velS s.period s.period i l * z.bx.toVec.get l = (s.baseX z X i).v := by
  unfold zVelD Spec.ZebSettings.baseX
  rw [blkD_row_x _ (fun c => X (2 * s.nbSamples + c)) h, ← row_vel s.period s.period s.nbSamples _ _ h]
  rfl

theorem zJerkBY_sum (f : ℕ → K) (N : ℕ) :
    ∑ j ∈ range N, f j * X (2 * N + (N + j)) = ∑ j ∈ range N, f j * Spec.jerkBY N X j :=
  sum_congr rfl fun j _ => by unfold Spec.jerkBY; rw [show 2 * N + (N + j) = 3 * N + j by omega]

theorem zVel_y (h : i < s.nbSamples) (z : Spec.ZebState K) :
    ∑ c ∈ range (2 * s.nbSamples), zVelD s (s.nbSamples + i) c * X (2 * s.nbSamples + c)
      + ∑ l ∈ range 3, velS s.period s.period i l * z.by_.toVec.get l = (s.baseY z X i).v := by
  unfold zVelD Spec.ZebSettings.baseY
  rw [blkD_row_y _ (fun c => X (2 * s.nbSamples + c)), ← row_vel s.period s.period s.nbSamples _ _ h, zJerkBY_sum]

theorem zPos_x (h : i < s.nbSamples) (z : Spec.ZebState K) :
    ∑ c ∈ range (2 * s.nbSamples), zPosD s i c * X (2 * s.nbSamples + c)
      + ∑ l ∈ range 3, posS s.period s.period i l * z.bx.toVec.get l = (s.baseX z X i).p := by
  unfold zPosD Spec.ZebSettings.baseX
  rw [blkD_row_x _ (fun c => X (2 * s.nbSamples + c)) h, ← row_pos s.period s.period s.nbSamples _ _ h]
  rfl

theorem zPos_y (h : i < s.nbSamples) (z : Spec.ZebState K) :
    ∑ c ∈ range (2 * s.nbSamples), zPosD s (s.nbSamples + i) c * X (2 * s.nbSamples + c)
      + ∑ l ∈ range 3, posS s.period s.period i l * z.by_.toVec.get l = (s.baseY z X i).p := by
  unfold zPosD Spec.ZebSettings.baseY
  rw [blkD_row_y _ (fun c => X (2 * s.nbSamples + c)), ← row_pos s.period s.period s.nbSamples _ _ h, zJerkBY_sum]

theorem zCom_x (h : i < s.nbSamples) (z : Spec.ZebState K) :
    ∑ c ∈ range (4 * s.nbSamples), zComD s i c * X c + comK s z.cx z.bx i = s.comRelX z X i := by
  unfold zComD comK Spec.ZebSettings.comRelX Spec.ZebSettings.comX Spec.ZebSettings.baseX
  rw [D_row_x _ _ _ _ _ h, ← row_pos _ _ s.nbSamples _ _ h, ← row_pos _ _ s.nbSamples _ _ h]
  simp only [neg_mul, sum_neg_distrib]
  ring

theorem zCom_y (h : i < s.nbSamples) (z : Spec.ZebState K) :
    ∑ c ∈ range (4 * s.nbSamples), zComD s (s.nbSamples + i) c * X c + comK s z.cy z.by_ i = s.comRelY z X i := by
  unfold zComD comK Spec.ZebSettings.comRelY Spec.ZebSettings.comY Spec.ZebSettings.baseY
  rw [D_row_y, ← row_pos _ _ s.nbSamples _ _ h, ← row_pos _ _ s.nbSamples _ _ h]
  simp only [neg_mul, sum_neg_distrib]
  ring

theorem zCop_row (h : i < s.nbSamples) (g : K) (com base : State3 K) (Xc Xb : ℕ → K) :
    ∑ j ∈ range s.nbSamples, copC s i j * Xc j + ∑ j ∈ range s.nbSamples, copB s i j * Xb j + copK s g com base i
      = s.predictedCop g (Spec.jerkTrajectory (Spec.comFirst s.period) s.period com Xc i)
          (Spec.jerkTrajectory s.period s.period base Xb i)
        - (Spec.jerkTrajectory s.period s.period base Xb i).p := by
  unfold copC copB copK Spec.ZebSettings.predictedCop
  rw [← row_cop _ _ _ _ _ _ s.nbSamples _ _ h, ← row_pos _ _ s.nbSamples _ _ h]
  split_ifs
  · rw [← row_cop _ _ _ _ _ _ s.nbSamples _ _ h]
    simp only [sub_mul, sum_sub_distrib]
    ring
  · simp only [zero_sub, neg_mul, sum_neg_distrib]
    ring

theorem zCop_x (h : i < s.nbSamples) (z : Spec.ZebState K) :
    ∑ c ∈ range (4 * s.nbSamples), zCopD s i c * X c + copK s s.gx z.cx z.bx i = s.copRelX z X i := by
  unfold zCopD
  rw [D_row_x _ _ _ _ _ h, zCop_row h]
  rfl

theorem zCop_y (h : i < s.nbSamples) (z : Spec.ZebState K) :
    ∑ c ∈ range (4 * s.nbSamples), zCopD s (s.nbSamples + i) c * X c + copK s s.gy z.cy z.by_ i = s.copRelY z X i := by
  unfold zCopD
  rw [D_row_y, zCop_row h]
  rfl

/-- Prediction of a tilt objective with inverse matrix `u` and influence `ps` of the initial tilt. -/
def zTilt (s : Spec.ZebSettings K) (L : K) (u ps : ℕ → ℕ → K) (tilt : State3 K) (c : K)
    (com base : ℕ → State3 K) (i : ℕ) : K :=
  ∑ j ∈ range s.nbSamples, u i j * s.tiltRhs L c (com j) (base j) + (ps i 0 * tilt.p + ps i 1 * tilt.v)

theorem zTilt_row (u ps : ℕ → ℕ → K) (com base tilt : State3 K) (c : K) (Xc Xb : ℕ → K) :
    ∑ j ∈ range s.nbSamples, mm s.nbSamples u (tiltRC s L) i j * Xc j
      + ∑ j ∈ range s.nbSamples, mm s.nbSamples u (tiltRB s) i j * Xb j + tiltOff s L u ps com base tilt c i
      = zTilt s L u ps tilt c (Spec.jerkTrajectory (Spec.comFirst s.period) s.period com Xc)
          (Spec.jerkTrajectory s.period s.period base Xb) i := by
  have e : ∀ (M : ℕ) (R : ℕ → ℕ → K) (y : ℕ → K), ∑ j ∈ range M, mm s.nbSamples u R i j * y j
      = ∑ q ∈ range s.nbSamples, u i q * ∑ j ∈ range M, R q j * y j := by
    intro M R y
    unfold mm
    simp only [sum_mul, mul_sum]
    rw [sum_comm]
    exact sum_congr rfl fun _ _ => sum_congr rfl fun _ _ => by ring
  unfold zTilt tiltOff
  rw [e, e, e, e]
  have e2 : ∑ i_1 ∈ range 2, ps i i_1 * tilt.toVec.get i_1 = ps i 0 * tilt.p + ps i 1 * tilt.v := by
    simp [sum_range_succ, State3.toVec]
  rw [e2]
  have key : ∀ q < s.nbSamples, s.tiltRhs L c
      (Spec.jerkTrajectory (Spec.comFirst s.period) s.period com Xc q)
      (Spec.jerkTrajectory s.period s.period base Xb q)
      = ∑ j ∈ range s.nbSamples, tiltRC s L q j * Xc j + ∑ j ∈ range s.nbSamples, tiltRB s q j * Xb j
        + ∑ j ∈ range 3, tiltRCS s L q j * com.toVec.get j + ∑ j ∈ range 3, tiltRBS s q j * base.toVec.get j
        - s.baseMass * GRAVITY_NORM * c := by
    intro q hq
    unfold Spec.ZebSettings.tiltRhs tiltRC tiltRB tiltRCS tiltRBS
    rw [← row_pos _ _ s.nbSamples _ _ hq, ← row_pos _ _ s.nbSamples _ _ hq, ← row_acc _ _ s.nbSamples _ _ hq,
      ← row_acc _ _ s.nbSamples _ _ hq]
    simp only [add_mul, sub_mul, sum_add_distrib, sum_sub_distrib, mul_assoc, ← mul_sum, neg_mul, sum_neg_distrib]
    ring
  have e3 : ∑ q ∈ range s.nbSamples, u i q * s.tiltRhs L c
      (Spec.jerkTrajectory (Spec.comFirst s.period) s.period com Xc q)
      (Spec.jerkTrajectory s.period s.period base Xb q) = _ :=
    sum_congr rfl fun q hq => by rw [key q (mem_range.1 hq)]
  rw [e3]
  simp only [mul_sub, mul_add, sum_add_distrib, sum_sub_distrib, neg_mul, sum_neg_distrib]
  ring

theorem zTilt_x (u ps : ℕ → ℕ → K) (h : i < s.nbSamples) (z : Spec.ZebState K) (tilt : State3 K) (c : K) :
    ∑ j ∈ range (4 * s.nbSamples), zTiltD s L u i j * X j + tiltOff s L u ps z.cx z.bx tilt c i
      = zTilt s L u ps tilt c (s.comX z X) (s.baseX z X) i := by
  unfold zTiltD
  rw [D_row_x _ _ _ _ _ h, zTilt_row]
  rfl

theorem zTilt_y (u ps : ℕ → ℕ → K) (z : Spec.ZebState K) (tilt : State3 K) (c : K) :
    ∑ j ∈ range (4 * s.nbSamples), zTiltD s L u (s.nbSamples + i) j * X j + tiltOff s L u ps z.cy z.by_ tilt c i
      = zTilt s L u ps tilt c (s.comY z X) (s.baseY z X) i := by
  unfold zTiltD
  rw [D_row_y, zTilt_row]
  rfl

end rows

/-! ### Costs as sums of squared residuals -/

theorem zSq {N M : ℕ} (D : ℕ → ℕ → K) (a b x : ℕ → K) (f g : ℕ → K)
    (hf : ∀ i < N, ∑ j ∈ range M, D i j * x j + a i = f i)
    (hg : ∀ i < N, ∑ j ∈ range M, D (N + i) j * x j + b i = g i) :
    ∑ i ∈ range (2 * N), (∑ j ∈ range M, D i j * x j + zStack N a b i) ^ 2
      = ∑ i ∈ range N, (f i ^ 2 + g i ^ 2) := by
  rw [sum_range_two, sum_add_distrib]
  congr 1
  · refine sum_congr rfl fun i hi => ?_
    rw [zStack_lo _ _ (mem_range.1 hi), hf i (mem_range.1 hi)]
  · refine sum_congr rfl fun i hi => ?_
    rw [zStack_hi, hg i (mem_range.1 hi)]

theorem zVelCost (z : Spec.ZebState K) (X : ℕ → K) :
    s.velCost z X = ∑ i ∈ range (2 * s.nbSamples), (∑ j ∈ range (2 * s.nbSamples),
      zVelD s i j * X (2 * s.nbSamples + j)
        + trackOff s.nbSamples (velS s.period s.period) z.bx z.by_ s.velRef i) ^ 2 := by
  unfold trackOff
  rw [zSq _ _ _ (fun j => X (2 * s.nbSamples + j)) (fun i => (s.baseX z X i).v - s.velRef.get i)
    (fun i => (s.baseY z X i).v - s.velRef.get (s.nbSamples + i))]
  · rfl
  · intro i hi; rw [← zVel_x X hi]; ring
  · intro i hi; rw [← zVel_y X hi]; ring

theorem zPosCost (z : Spec.ZebState K) (X : ℕ → K) :
    s.posCost z X = ∑ i ∈ range (2 * s.nbSamples), (∑ j ∈ range (2 * s.nbSamples),
      zPosD s i j * X (2 * s.nbSamples + j)
        + trackOff s.nbSamples (posS s.period s.period) z.bx z.by_ s.posRef i) ^ 2 := by
  unfold trackOff
  rw [zSq _ _ _ (fun j => X (2 * s.nbSamples + j)) (fun i => (s.baseX z X i).p - s.posRef.get i)
    (fun i => (s.baseY z X i).p - s.posRef.get (s.nbSamples + i))]
  · rfl
  · intro i hi; rw [← zPos_x X hi]; ring
  · intro i hi; rw [← zPos_y X hi]; ring

theorem zComCost (l : Lip K) (b : Base K) (X : ℕ → K) :
    s.comCost k ⟨l.x, l.y, b.x, b.y⟩ X = ∑ i ∈ range (2 * s.nbSamples), (∑ j ∈ range (4 * s.nbSamples), zComD s i j * X j
        + comOff s l b (zShifted s k) i) ^ 2 := by
  unfold comOff
  rw [zSq _ _ _ X (fun i => s.comRelX ⟨l.x, l.y, b.x, b.y⟩ X i - (s.comRef.get i + k.1))
    (fun i => s.comRelY ⟨l.x, l.y, b.x, b.y⟩ X i - (s.comRef.get (s.nbSamples + i) + k.2))]
  · rfl
  · intro i hi
    rw [← zCom_x X hi]
    unfold comK zShifted
    dsimp only
    rw [zStack_lo _ _ hi]; ring
  · intro i hi
    rw [← zCom_y X hi]
    unfold comK zShifted
    dsimp only
    rw [zStack_hi]; ring

theorem zCopCost (l : Lip K) (b : Base K) (X : ℕ → K) :
    s.copCost ⟨l.x, l.y, b.x, b.y⟩ X = ∑ i ∈ range (2 * s.nbSamples), (∑ j ∈ range (4 * s.nbSamples), zCopD s i j * X j
        + copOff s l b s.copRef i) ^ 2 := by
  unfold copOff
  rw [zSq _ _ _ X (fun i => s.copRelX ⟨l.x, l.y, b.x, b.y⟩ X i - s.copRef.get i)
    (fun i => s.copRelY ⟨l.x, l.y, b.x, b.y⟩ X i - s.copRef.get (s.nbSamples + i))]
  · rfl
  · intro i hi
    rw [← zCop_x X hi]; ring
  · intro i hi
    rw [← zCop_y X hi]; ring

theorem zTiltCost (u ps : ℕ → ℕ → K) (z : Spec.ZebState K) (X : ℕ → K) (roll pitch : State3 K) (cx cy : K) :
    s.tiltCost (zTilt s L u ps roll cx (s.comX z X) (s.baseX z X))
        (zTilt s L u ps pitch cy (s.comY z X) (s.baseY z X))
      = ∑ i ∈ range (2 * s.nbSamples), (∑ j ∈ range (4 * s.nbSamples), zTiltD s L u i j * X j
        + zStack s.nbSamples (tiltOff s L u ps z.cx z.bx roll cx) (tiltOff s L u ps z.cy z.by_ pitch cy) i) ^ 2 := by
  rw [zSq _ _ _ X (zTilt s L u ps roll cx (s.comX z X) (s.baseX z X))
    (zTilt s L u ps pitch cy (s.comY z X) (s.baseY z X))]
  · rfl
  · intro i hi; exact zTilt_x X u ps hi z roll cx
  · intro i hi; exact zTilt_y X u ps z pitch cy

/-! ### The cost of the QP -/

theorem sum_shift (N : ℕ) (f d : ℕ → K) :
    ∑ i ∈ range (4 * N), (if 2 * N ≤ i ∧ i < 2 * N + 2 * N then f (i - 2 * N) else 0) * d i
      = ∑ i ∈ range (2 * N), f i * d (2 * N + i) := by
  rw [show 4 * N = 2 * N + 2 * N by omega, sum_range_add]
  rw [sum_eq_zero (s := range (2 * N)), zero_add]
  · refine sum_congr rfl fun i hi => ?_
    have := mem_range.1 hi
    rw [if_pos (by omega), Nat.add_sub_cancel_left]
  · intro i hi
    have := mem_range.1 hi
    rw [if_neg (by omega), zero_mul]

theorem sum_shift2 (N : ℕ) (f : ℕ → ℕ → K) (d : ℕ → K) :
    ∑ i ∈ range (4 * N), ∑ j ∈ range (4 * N), d i * (if (2 * N ≤ i ∧ i < 2 * N + 2 * N) ∧
        (2 * N ≤ j ∧ j < 2 * N + 2 * N) then f (i - 2 * N) (j - 2 * N) else 0) * d j
      = ∑ i ∈ range (2 * N), ∑ j ∈ range (2 * N), d (2 * N + i) * f i j * d (2 * N + j) := by
  have e : ∀ i, ∑ j ∈ range (4 * N), d i * (if (2 * N ≤ i ∧ i < 2 * N + 2 * N) ∧
        (2 * N ≤ j ∧ j < 2 * N + 2 * N) then f (i - 2 * N) (j - 2 * N) else 0) * d j
      = (if 2 * N ≤ i ∧ i < 2 * N + 2 * N then ∑ j ∈ range (2 * N), f (i - 2 * N) j * d (2 * N + j) else 0) * d i := by
    intro i
    by_cases h : 2 * N ≤ i ∧ i < 2 * N + 2 * N
    · simp only [h, true_and, if_true]
      rw [← sum_shift N (fun j => f (i - 2 * N) j) d, sum_mul]
      exact sum_congr rfl fun j _ => by ring
    · simp only [h, false_and, if_false]
      simp
  rw [sum_congr rfl fun i _ => e i, sum_shift N (fun i => ∑ j ∈ range (2 * N), f i j * d (2 * N + j))]
  refine sum_congr rfl fun i _ => ?_
  rw [sum_mul]
  exact sum_congr rfl fun j _ => by ring

/-- Expansion of half a sum of squared residuals. -/
theorem zExpand (n M : ℕ) (D : ℕ → ℕ → K) (o x d : ℕ → K) :
    ∑ i ∈ range n, (∑ j ∈ range M, D i j * (x j + d j) + o i) ^ 2
      - ∑ i ∈ range n, (∑ j ∈ range M, D i j * x j + o i) ^ 2
      = 2 * ∑ i ∈ range M, LsqGrad n M D o x i * d i
        + ∑ i ∈ range M, ∑ j ∈ range M, d i * gram n D i j * d j := by
  have := lsq_expand n M D o x d
  unfold LsqGrad
  linear_combination 2 * this

theorem zCost {u ps v qs : ℕ → ℕ → K} {qp : QPMatrices K} (hq : ZPrep tr s L k w u ps v qs qp) (d : ℕ → K) :
    Spec.cost qp d = w.invObj *
      (s.totalCost k
          (s.tiltCost (zTilt s L u ps s.roll s.contactX (s.comX w.state fun i => w.X.get i + d i)
              (s.baseX w.state fun i => w.X.get i + d i))
            (zTilt s L u ps s.pitch s.contactY (s.comY w.state fun i => w.X.get i + d i)
              (s.baseY w.state fun i => w.X.get i + d i)))
          (s.tiltCost (zTilt s L v qs s.roll s.contactX (s.comX w.state fun i => w.X.get i + d i)
              (s.baseX w.state fun i => w.X.get i + d i))
            (zTilt s L v qs s.pitch s.contactY (s.comY w.state fun i => w.X.get i + d i)
              (s.baseY w.state fun i => w.X.get i + d i)))
          w.state (fun i => w.X.get i + d i)
        - s.totalCost k
          (s.tiltCost (zTilt s L u ps s.roll s.contactX (s.comX w.state w.X.get) (s.baseX w.state w.X.get))
            (zTilt s L u ps s.pitch s.contactY (s.comY w.state w.X.get) (s.baseY w.state w.X.get)))
          (s.tiltCost (zTilt s L v qs s.roll s.contactX (s.comX w.state w.X.get) (s.baseX w.state w.X.get))
            (zTilt s L v qs s.pitch s.contactY (s.comY w.state w.X.get) (s.baseY w.state w.X.get)))
          w.state w.X.get) := by
  unfold Spec.ZebSettings.totalCost Spec.ZebSettings.jerkCost
  rw [zTiltCost, zTiltCost, zTiltCost, zTiltCost, zVelCost, zVelCost, zPosCost, zPosCost]
  unfold Zeb.state
  rw [zComCost, zComCost, zCopCost, zCopCost]
  dsimp only
  have e1 := zExpand (2 * s.nbSamples) (2 * s.nbSamples) (zVelD s)
    (trackOff s.nbSamples (velS s.period s.period) w.base.x w.base.y s.velRef)
    (fun j => w.X.get (2 * s.nbSamples + j)) (fun j => d (2 * s.nbSamples + j))
  have e2 := zExpand (2 * s.nbSamples) (2 * s.nbSamples) (zPosD s)
    (trackOff s.nbSamples (posS s.period s.period) w.base.x w.base.y s.posRef)
    (fun j => w.X.get (2 * s.nbSamples + j)) (fun j => d (2 * s.nbSamples + j))
  have e3 := zExpand (2 * s.nbSamples) (4 * s.nbSamples) (zCopD s) (copOff s w.lip w.base s.copRef) w.X.get d
  have e4 := zExpand (2 * s.nbSamples) (4 * s.nbSamples) (zComD s) (comOff s w.lip w.base (zShifted s k)) w.X.get d
  have e5 := zExpand (2 * s.nbSamples) (4 * s.nbSamples) (zTiltD s L u)
    (zStack s.nbSamples (tiltOff s L u ps w.lip.x w.base.x s.roll s.contactX)
      (tiltOff s L u ps w.lip.y w.base.y s.pitch s.contactY)) w.X.get d
  have e6 := zExpand (2 * s.nbSamples) (4 * s.nbSamples) (zTiltD s L v)
    (zStack s.nbSamples (tiltOff s L v qs w.lip.x w.base.x s.roll s.contactX)
      (tiltOff s L v qs w.lip.y w.base.y s.pitch s.contactY)) w.X.get d
  have e7 : ∑ i ∈ range (4 * s.nbSamples), (w.X.get i + d i) ^ 2 - ∑ i ∈ range (4 * s.nbSamples), w.X.get i ^ 2
      = 2 * ∑ i ∈ range (4 * s.nbSamples), w.X.get i * d i + ∑ i ∈ range (4 * s.nbSamples), d i ^ 2 := by
    rw [mul_sum, ← sum_add_distrib, ← sum_sub_distrib]
    exact sum_congr rfl fun i _ => by ring
  have e8 : ∑ i ∈ range (4 * s.nbSamples), ∑ j ∈ range (4 * s.nbSamples),
      d i * (if i = j then (1 : K) else 0) * d j = ∑ i ∈ range (4 * s.nbSamples), d i ^ 2 := by
    refine sum_congr rfl fun i hi => ?_
    rw [sum_eq_single i]
    · simp; ring
    · intro j _ hj; simp [Ne.symm hj]
    · intro hh; exact absurd hi hh
  have eQ : ∑ i ∈ range (4 * s.nbSamples), ∑ j ∈ range (4 * s.nbSamples),
      d i * zQ s (zTiltD s L u) (zTiltD s L v) i j * d j
      = max s.weighting.velocityTracking 0 * ∑ i ∈ range (2 * s.nbSamples), ∑ j ∈ range (2 * s.nbSamples),
          d (2 * s.nbSamples + i) * gram (2 * s.nbSamples) (zVelD s) i j * d (2 * s.nbSamples + j)
      + max s.weighting.positionTracking 0 * ∑ i ∈ range (2 * s.nbSamples), ∑ j ∈ range (2 * s.nbSamples),
          d (2 * s.nbSamples + i) * gram (2 * s.nbSamples) (zPosD s) i j * d (2 * s.nbSamples + j)
      + max s.weighting.copCentering 0 * ∑ i ∈ range (4 * s.nbSamples), ∑ j ∈ range (4 * s.nbSamples),
          d i * gram (2 * s.nbSamples) (zCopD s) i j * d j
      + max s.weighting.comCentering 0 * ∑ i ∈ range (4 * s.nbSamples), ∑ j ∈ range (4 * s.nbSamples),
          d i * gram (2 * s.nbSamples) (zComD s) i j * d j
      + max s.weighting.jerkMinimization 0 * ∑ i ∈ range (4 * s.nbSamples), d i ^ 2
      + max s.weighting.tiltMinimization 0 * ∑ i ∈ range (4 * s.nbSamples), ∑ j ∈ range (4 * s.nbSamples),
          d i * gram (2 * s.nbSamples) (zTiltD s L u) i j * d j
      + max s.weighting.tiltVelMinimization 0 * ∑ i ∈ range (4 * s.nbSamples), ∑ j ∈ range (4 * s.nbSamples),
          d i * gram (2 * s.nbSamples) (zTiltD s L v) i j * d j := by
    rw [← e8, ← sum_shift2 s.nbSamples (gram (2 * s.nbSamples) (zVelD s)),
      ← sum_shift2 s.nbSamples (gram (2 * s.nbSamples) (zPosD s))]
    simp only [mul_sum, ← sum_add_distrib]
    refine sum_congr rfl fun i _ => sum_congr rfl fun j _ => ?_
    unfold zQ; ring
  have eP : ∑ i ∈ range (4 * s.nbSamples), zP s L k w u ps v qs i * d i
      = max s.weighting.velocityTracking 0 * ∑ i ∈ range (2 * s.nbSamples),
          LsqGrad (2 * s.nbSamples) (2 * s.nbSamples) (zVelD s)
            (trackOff s.nbSamples (velS s.period s.period) w.base.x w.base.y s.velRef)
            (fun j => w.X.get (2 * s.nbSamples + j)) i * d (2 * s.nbSamples + i)
      + max s.weighting.positionTracking 0 * ∑ i ∈ range (2 * s.nbSamples),
          LsqGrad (2 * s.nbSamples) (2 * s.nbSamples) (zPosD s)
            (trackOff s.nbSamples (posS s.period s.period) w.base.x w.base.y s.posRef)
            (fun j => w.X.get (2 * s.nbSamples + j)) i * d (2 * s.nbSamples + i)
      + max s.weighting.copCentering 0 * ∑ i ∈ range (4 * s.nbSamples),
          LsqGrad (2 * s.nbSamples) (4 * s.nbSamples) (zCopD s) (copOff s w.lip w.base s.copRef) w.X.get i * d i
      + max s.weighting.comCentering 0 * ∑ i ∈ range (4 * s.nbSamples),
          LsqGrad (2 * s.nbSamples) (4 * s.nbSamples) (zComD s) (comOff s w.lip w.base (zShifted s k)) w.X.get i * d i
      + max s.weighting.jerkMinimization 0 * ∑ i ∈ range (4 * s.nbSamples), w.X.get i * d i
      + max s.weighting.tiltMinimization 0 * ∑ i ∈ range (4 * s.nbSamples),
          LsqGrad (2 * s.nbSamples) (4 * s.nbSamples) (zTiltD s L u)
            (zStack s.nbSamples (tiltOff s L u ps w.lip.x w.base.x s.roll s.contactX)
              (tiltOff s L u ps w.lip.y w.base.y s.pitch s.contactY)) w.X.get i * d i
      + max s.weighting.tiltVelMinimization 0 * ∑ i ∈ range (4 * s.nbSamples),
          LsqGrad (2 * s.nbSamples) (4 * s.nbSamples) (zTiltD s L v)
            (zStack s.nbSamples (tiltOff s L v qs w.lip.x w.base.x s.roll s.contactX)
              (tiltOff s L v qs w.lip.y w.base.y s.pitch s.contactY)) w.X.get i * d i := by
    rw [← sum_shift s.nbSamples _ d, ← sum_shift s.nbSamples _ d]
    simp only [mul_sum, ← sum_add_distrib]
    refine sum_congr rfl fun i _ => ?_
    unfold zP; ring
  have eQ' : ∑ i ∈ range qp.Q.rows, ∑ j ∈ range qp.Q.cols, d i * qp.Q.get i j * d j
      = w.invObj * ∑ i ∈ range (4 * s.nbSamples), ∑ j ∈ range (4 * s.nbSamples),
        d i * zQ s (zTiltD s L u) (zTiltD s L v) i j * d j := by
    rw [hq.Q.1, hq.Q.2.1, mul_sum]
    refine sum_congr rfl fun i hi => ?_
    rw [mul_sum]
    refine sum_congr rfl fun j hj => ?_
    rw [hq.Q.2.2 i (mem_range.1 hi) j (mem_range.1 hj)]; ring
  have eP' : ∑ i ∈ range qp.p.size, qp.p.get i * d i
      = w.invObj * ∑ i ∈ range (4 * s.nbSamples), zP s L k w u ps v qs i * d i := by
    rw [hq.p.1, mul_sum]
    refine sum_congr rfl fun i hi => ?_
    rw [hq.p.2 i (mem_range.1 hi)]; ring
  unfold Spec.cost
  rw [eQ', eP', eQ, eP]
  linear_combination (-1 / 2 * w.invObj) * (max s.weighting.velocityTracking 0 * e1
    + max s.weighting.positionTracking 0 * e2 + max s.weighting.copCentering 0 * e3
    + max s.weighting.comCentering 0 * e4 + max s.weighting.jerkMinimization 0 * e7
    + max s.weighting.tiltMinimization 0 * e5 + max s.weighting.tiltVelMinimization 0 * e6)

/-! ### The constraints of the QP -/

section
variable (tr : Trig K) (s : Spec.ZebSettings K) (d : ℕ → K) {q : ℕ}

theorem zA_cop (h : q < zM1 s) : ∑ j ∈ range (4 * s.nbSamples), zA tr s q j * d j
    = ∑ k ∈ range (2 * s.nbSamples), polyA s.nbSamples s.copPolygon q k *
      ∑ c ∈ range (4 * s.nbSamples), zCopD s k c * d c := by
  rw [sum_congr rfl fun j hj => by
    have := mem_range.1 hj
    unfold zA
    rw [if_neg (by omega), if_neg (by omega), if_neg (by omega), if_pos (by omega), Nat.sub_zero, Nat.sub_zero, sum_mul]]
  rw [sum_comm]
  refine sum_congr rfl fun k _ => ?_
  rw [mul_sum]
  exact sum_congr rfl fun j _ => by ring

theorem zA_com (h : q < zM3 s) : ∑ j ∈ range (4 * s.nbSamples), zA tr s (zM1 s + zM2 s + q) j * d j
    = ∑ k ∈ range (2 * s.nbSamples), polyA s.nbSamples s.comPolygon q k *
      ∑ c ∈ range (4 * s.nbSamples), zComD s k c * d c := by
  rw [sum_congr rfl fun j hj => by
    have := mem_range.1 hj
    unfold zA
    rw [if_neg (by omega), if_pos (by omega), Nat.add_sub_cancel_left, Nat.sub_zero, sum_mul]]
  rw [sum_comm]
  refine sum_congr rfl fun k _ => ?_
  rw [mul_sum]
  exact sum_congr rfl fun j _ => by ring

theorem zA_base (h : q < zM2 s) : ∑ j ∈ range (4 * s.nbSamples), zA tr s (zM1 s + q) j * d j
    = ∑ c ∈ range (2 * s.nbSamples), zBaseD s q c * d (2 * s.nbSamples + c) := by
  rw [← sum_shift s.nbSamples (fun c => zBaseD s q c) d]
  refine sum_congr rfl fun j hj => ?_
  have := mem_range.1 hj
  unfold zA
  rw [if_neg (by omega), if_neg (by omega)]
  by_cases hj2 : 2 * s.nbSamples ≤ j ∧ j < 2 * s.nbSamples + 2 * s.nbSamples
  · rw [if_pos ⟨by omega, hj2⟩, if_pos hj2, Nat.add_sub_cancel_left]
  · rw [if_neg (fun hh => hj2 hh.2), if_neg hj2, if_neg (by omega)]

theorem zA_tilt (h : q < zM4 s) : ∑ j ∈ range (4 * s.nbSamples), zA tr s (zM1 s + zM2 s + zM3 s + q) j * d j
    = ∑ c ∈ range (4 * s.nbSamples), zHeadD tr s q c * d c := by
  refine sum_congr rfl fun j hj => ?_
  have := mem_range.1 hj
  unfold zA
  rw [if_pos (by omega), Nat.add_sub_cancel_left, Nat.sub_zero]

end

theorem zBl_cop {q : ℕ} (h : q < zM1 s) : zBl tr s w q = polyF s.nbSamples s.copPolygon (zCopD s)
      (zStack s.nbSamples (copK s s.gx w.lip.x w.base.x) (copK s s.gy w.lip.y w.base.y)) w.X.get q ∧
    zBu tr s w q = MAXBOUND := by
  unfold zBl zBu
  rw [if_neg (by omega), if_neg (by omega), if_neg (by omega), if_pos (by omega), if_neg (by omega), if_neg (by omega)]
  exact ⟨rfl, rfl⟩

theorem zBl_com {q : ℕ} (h : q < zM3 s) : zBl tr s w (zM1 s + zM2 s + q) = polyF s.nbSamples s.comPolygon (zComD s)
      (zStack s.nbSamples (comK s w.lip.x w.base.x) (comK s w.lip.y w.base.y)) w.X.get q ∧
    zBu tr s w (zM1 s + zM2 s + q) = MAXBOUND := by
  unfold zBl zBu
  rw [if_neg (by omega), if_pos (by omega), if_neg (by omega), if_neg (by omega), Nat.add_sub_cancel_left]
  exact ⟨rfl, rfl⟩

theorem zBl_base {q : ℕ} (h : q < zM2 s) :
    zBl tr s w (zM1 s + q) = (if q < 2 * s.nbSamples then -s.velLimit else -s.accLimit)
      - ∑ c ∈ range (2 * s.nbSamples), zBaseD s q c * w.X.get (2 * s.nbSamples + c)
      - motionK s.nbSamples s.period w.base.x w.base.y q ∧
    zBu tr s w (zM1 s + q) = (if q < 2 * s.nbSamples then s.velLimit else s.accLimit)
      - ∑ c ∈ range (2 * s.nbSamples), zBaseD s q c * w.X.get (2 * s.nbSamples + c)
      - motionK s.nbSamples s.period w.base.x w.base.y q := by
  constructor
  · unfold zBl
    rw [if_neg (by omega), if_neg (by omega), if_pos (by omega), Nat.add_sub_cancel_left]
  · unfold zBu
    rw [if_neg (by omega), if_pos (by omega), Nat.add_sub_cancel_left]

theorem zBl_tilt {q : ℕ} (h : q < zM4 s) :
    zBl tr s w (zM1 s + zM2 s + zM3 s + q) = -∑ c ∈ range (4 * s.nbSamples), zHeadD tr s q c * w.X.get c
      - headingK s (tr.sin s.yaw.p) (tr.cos s.yaw.p) w.lip w.base q ∧
    zBu tr s w (zM1 s + zM2 s + zM3 s + q) = -∑ c ∈ range (4 * s.nbSamples), zHeadD tr s q c * w.X.get c
      - headingK s (tr.sin s.yaw.p) (tr.cos s.yaw.p) w.lip w.base q := by
  unfold zBl zBu
  rw [if_pos (by omega), if_pos (by omega), Nat.add_sub_cancel_left]
  exact ⟨rfl, rfl⟩

/-- The rows `r` of the QP hold for `d`. -/
def zRow (tr : Trig K) (s : Spec.ZebSettings K) (w : Zeb K) (d : ℕ → K) (r : ℕ) : Prop :=
  zBl tr s w r ≤ ∑ j ∈ range (4 * s.nbSamples), zA tr s r j * d j ∧
    ∑ j ∈ range (4 * s.nbSamples), zA tr s r j * d j ≤ zBu tr s w r

/-- Polygon rows, for points `z0 + D x`. -/
theorem zPolyRow {N : ℕ} (hN : 0 < N) (p : Vec (Pt K)) (D : ℕ → ℕ → K) (a b x d : ℕ → K) (pt : (ℕ → K) → ℕ → Pt K)
    (hx : ∀ X : ℕ → K, ∀ i < N, ∑ c ∈ range (4 * N), D i c * X c + a i = (pt X i).x)
    (hy : ∀ X : ℕ → K, ∀ i < N, ∑ c ∈ range (4 * N), D (N + i) c * X c + b i = (pt X i).y) :
    (∀ q < p.size * N, polyF N p D (zStack N a b) x q ≤ ∑ k ∈ range (2 * N), polyA N p q k *
        ∑ c ∈ range (4 * N), D k c * d c ∧
      ∑ k ∈ range (2 * N), polyA N p q k * ∑ c ∈ range (4 * N), D k c * d c ≤ MAXBOUND) ↔
    Spec.PolygonRows p N (pt x) (pt fun i => x i + d i) := by
  have key : ∀ q, (polyF N p D (zStack N a b) x q ≤ ∑ k ∈ range (2 * N), polyA N p q k *
        ∑ c ∈ range (4 * N), D k c * d c ∧
      ∑ k ∈ range (2 * N), polyA N p q k * ∑ c ∈ range (4 * N), D k c * d c ≤ MAXBOUND) ↔
      (Spec.InnerSide (p.get (q / N)) (p.get ((q / N + 1) % p.size)) (Spec.Pt.reflect (pt (fun i => x i + d i) (q % N)))
      ∧ Spec.sideOf (p.get (q / N)) (p.get ((q / N + 1) % p.size)) (pt (fun i => x i + d i) (q % N))
        - Spec.sideOf (p.get (q / N)) (p.get ((q / N + 1) % p.size)) (pt x (q % N)) ≤ MAXBOUND) := by
    intro q
    have hi : q % N < N := Nat.mod_lt _ hN
    have hx1 := hx x _ hi
    have hx2 := hx (fun i => x i + d i) _ hi
    have hy1 := hy x _ hi
    have hy2 := hy (fun i => x i + d i) _ hi
    simp only [mul_add, sum_add_distrib] at hx2 hy2
    unfold polyF
    rw [polyA_row p (fun k => ∑ c ∈ range (4 * N), D k c * d c) hN,
      polyA_row p (fun k => ∑ c ∈ range (4 * N), D k c * x c + zStack N a b k) hN]
    rw [zStack_lo _ _ hi, zStack_hi, hx1, hy1]
    have ex : ∑ c ∈ range (4 * N), D (q % N) c * d c = (pt (fun i => x i + d i) (q % N)).x - (pt x (q % N)).x := by
      linear_combination hx2 - hx1
    have ey : ∑ c ∈ range (4 * N), D (N + q % N) c * d c = (pt (fun i => x i + d i) (q % N)).y - (pt x (q % N)).y := by
      linear_combination hy2 - hy1
    rw [ex, ey]
    unfold Spec.InnerSide Spec.sideOf Spec.Pt.reflect polyB
    dsimp only
    constructor
    · rintro ⟨h1, h2⟩
      constructor <;> linarith
    · rintro ⟨h1, h2⟩
      constructor <;> linarith
  constructor
  · intro h e he i hi
    have := (key (e * N + i)).1 (h _ (by nlinarith))
    rw [show (e * N + i) / N = e by rw [mul_comm, Nat.mul_add_div hN, Nat.div_eq_of_lt hi, add_zero],
      show (e * N + i) % N = i by rw [mul_comm, Nat.mul_add_mod, Nat.mod_eq_of_lt hi]] at this
    exact this
  · intro h q hq
    exact (key q).2 (h (q / N) (Nat.div_lt_of_lt_mul (by rwa [mul_comm])) (q % N) (Nat.mod_lt _ hN))

theorem zRow_cop (hN : 0 < s.nbSamples) (hc : s.config.cop = true) (d : ℕ → K) :
    (∀ q < zM1 s, zRow tr s w d q) ↔ Spec.PolygonRows s.copPolygon s.nbSamples (s.copRel w.state w.X.get)
      (s.copRel w.state fun i => w.X.get i + d i) := by
  rw [← zPolyRow hN s.copPolygon (zCopD s) (copK s s.gx w.lip.x w.base.x) (copK s s.gy w.lip.y w.base.y) w.X.get d
    (s.copRel w.state) (fun X i hi => zCop_x X hi w.state) (fun X i hi => zCop_y X hi w.state), ← zM1_true hc]
  refine forall_congr' fun q => imp_congr_right fun h => ?_
  unfold zRow
  rw [zA_cop tr s d h, (zBl_cop h).1, (zBl_cop h).2]

theorem zRow_com (hN : 0 < s.nbSamples) (hc : s.config.com = true) (d : ℕ → K) :
    (∀ q < zM3 s, zRow tr s w d (zM1 s + zM2 s + q)) ↔
      Spec.PolygonRows s.comPolygon s.nbSamples (s.comRel w.state w.X.get)
      (s.comRel w.state fun i => w.X.get i + d i) := by
  rw [← zPolyRow hN s.comPolygon (zComD s) (comK s w.lip.x w.base.x) (comK s w.lip.y w.base.y) w.X.get d
    (s.comRel w.state) (fun X i hi => zCom_x X hi w.state) (fun X i hi => zCom_y X hi w.state), ← zM3_true hc]
  refine forall_congr' fun q => imp_congr_right fun h => ?_
  unfold zRow
  rw [zA_com tr s d h, (zBl_com h).1, (zBl_com h).2]

/-- Limits of the base velocities and accelerations. -/
def zMotion (s : Spec.ZebSettings K) (z : Spec.ZebState K) (X : ℕ → K) : Prop :=
  ∀ i < s.nbSamples, |(s.baseX z X i).v| ≤ s.velLimit ∧ |(s.baseY z X i).v| ≤ s.velLimit ∧
    |(s.baseX z X i).a| ≤ s.accLimit ∧ |(s.baseY z X i).a| ≤ s.accLimit

theorem zRow_base (hc : s.config.base = true) (d : ℕ → K) :
    (∀ q < zM2 s, zRow tr s w d (zM1 s + q)) ↔ zMotion s w.state (fun i => w.X.get i + d i) := by
  have key : ∀ q < 4 * s.nbSamples, ∀ l v : K,
      (if q < 2 * s.nbSamples then s.velLimit else s.accLimit) = l →
      ∑ c ∈ range (2 * s.nbSamples), zBaseD s q c * (w.X.get (2 * s.nbSamples + c) + d (2 * s.nbSamples + c))
        + motionK s.nbSamples s.period w.base.x w.base.y q = v →
      (zRow tr s w d (zM1 s + q) ↔ |v| ≤ l) := by
    intro q hq l v hl hv
    have hq' : q < zM2 s := by rw [zM2_true hc]; exact hq
    unfold zRow
    rw [zA_base tr s d hq', (zBl_base hq').1, (zBl_base hq').2]
    simp only [mul_add, sum_add_distrib] at hv
    have e : (if q < 2 * s.nbSamples then -s.velLimit else -s.accLimit) = -l := by
      rw [← hl]; split_ifs <;> rfl
    rw [e, hl, ← hv, abs_le]
    constructor
    · rintro ⟨h1, h2⟩; constructor <;> linarith
    · rintro ⟨h1, h2⟩; constructor <;> linarith
  have kvx : ∀ i < s.nbSamples, zRow tr s w d (zM1 s + i) ↔
      |(s.baseX w.state (fun i => w.X.get i + d i) i).v| ≤ s.velLimit := fun i hi =>
    key i (by omega) _ _ (if_pos (by omega)) (by
      rw [← zVel_x (fun i => w.X.get i + d i) hi w.state]
      unfold motionK zBaseD
      rw [if_pos (by omega), zStack_lo _ _ hi]
      congr 1
      exact sum_congr rfl fun c _ => by rw [motionD_lo _ _ (by omega)]; rfl)
  have kvy : ∀ i < s.nbSamples, zRow tr s w d (zM1 s + (s.nbSamples + i)) ↔
      |(s.baseY w.state (fun i => w.X.get i + d i) i).v| ≤ s.velLimit := fun i hi =>
    key _ (by omega) _ _ (if_pos (by omega)) (by
      rw [← zVel_y (fun i => w.X.get i + d i) hi w.state]
      unfold motionK zBaseD
      rw [if_pos (by omega), zStack_hi]
      congr 1
      exact sum_congr rfl fun c _ => by rw [motionD_lo _ _ (by omega)]; rfl)
  have kax : ∀ i < s.nbSamples, zRow tr s w d (zM1 s + (2 * s.nbSamples + i)) ↔
      |(s.baseX w.state (fun i => w.X.get i + d i) i).a| ≤ s.accLimit := fun i hi =>
    key _ (by omega) _ _ (if_neg (by omega)) (by
      unfold motionK zBaseD Spec.ZebSettings.baseX
      rw [if_neg (by omega), Nat.add_sub_cancel_left, zStack_lo _ _ hi, ← row_acc s.period s.period s.nbSamples _ _ hi]
      congr 1
      rw [sum_congr rfl fun c _ => by rw [motionD_hi]]
      exact blkD_row_x _ (fun c => w.X.get (2 * s.nbSamples + c) + d (2 * s.nbSamples + c)) hi)
  have kay : ∀ i < s.nbSamples, zRow tr s w d (zM1 s + (2 * s.nbSamples + (s.nbSamples + i))) ↔
      |(s.baseY w.state (fun i => w.X.get i + d i) i).a| ≤ s.accLimit := fun i hi =>
    key _ (by omega) _ _ (if_neg (by omega)) (by
      unfold motionK zBaseD Spec.ZebSettings.baseY
      rw [if_neg (by omega), Nat.add_sub_cancel_left, zStack_hi, ← row_acc s.period s.period s.nbSamples _ _ hi]
      congr 1
      rw [sum_congr rfl fun c _ => by rw [motionD_hi]]
      rw [blkD_row_y _ (fun c => w.X.get (2 * s.nbSamples + c) + d (2 * s.nbSamples + c))]
      exact zJerkBY_sum (fun i => w.X.get i + d i) _ _)
  rw [zM2_true hc]
  constructor
  · intro h i hi
    exact ⟨(kvx i hi).1 (h _ (by omega)), (kvy i hi).1 (h _ (by omega)), (kax i hi).1 (h _ (by omega)),
      (kay i hi).1 (h _ (by omega))⟩
  · intro h q hq
    obtain ⟨i, hi, rfl | rfl | rfl | rfl⟩ := four_cases hq
    · exact (kvx _ hi).2 (h _ hi).1
    · exact (kvy i hi).2 (h i hi).2.1
    · exact (kax i hi).2 (h i hi).2.2.1
    · rw [show 3 * s.nbSamples + i = 2 * s.nbSamples + (s.nbSamples + i) by omega]
      exact (kay i hi).2 (h i hi).2.2.2

theorem headD_row_x {N : ℕ} (sn cs : K) (u v : ℕ → ℕ → K) (X : ℕ → K) {i : ℕ} (hi : i < N) :
    ∑ c ∈ range (4 * N), headingD N sn cs u v i c * X c
      = sn * ∑ j ∈ range N, u i j * Spec.jerkCX N X j - cs * ∑ j ∈ range N, u i j * Spec.jerkCY N X j := by
  rw [sum_range_four]
  have h1 : ∑ j ∈ range N, headingD N sn cs u v i j * X j = sn * ∑ j ∈ range N, u i j * Spec.jerkCX N X j := by
    rw [mul_sum]
    refine sum_congr rfl fun j hj => ?_
    have := mem_range.1 hj
    unfold headingD Spec.jerkCX
    rw [if_pos hi, if_pos this]; ring
  have h2 : ∑ j ∈ range N, headingD N sn cs u v i (N + j) * X (N + j)
      = -(cs * ∑ j ∈ range N, u i j * Spec.jerkCY N X j) := by
    rw [mul_sum, ← sum_neg_distrib]
    refine sum_congr rfl fun j hj => ?_
    have := mem_range.1 hj
    unfold headingD Spec.jerkCY
    rw [if_pos hi, if_neg (by omega), if_pos (by omega), Nat.add_sub_cancel_left]; ring
  have h3 : ∑ j ∈ range N, headingD N sn cs u v i (2 * N + j) * X (2 * N + j) = 0 :=
    sum_eq_zero fun j hj => by
      unfold headingD
      rw [if_pos hi, if_neg (by omega), if_neg (by omega), zero_mul]
  have h4 : ∑ j ∈ range N, headingD N sn cs u v i (3 * N + j) * X (3 * N + j) = 0 :=
    sum_eq_zero fun j hj => by
      unfold headingD
      rw [if_pos hi, if_neg (by omega), if_neg (by omega), zero_mul]
  rw [h1, h2, h3, h4]; ring

theorem headD_row_y {N : ℕ} (sn cs : K) (u v : ℕ → ℕ → K) (X : ℕ → K) {i : ℕ} :
    ∑ c ∈ range (4 * N), headingD N sn cs u v (N + i) c * X c
      = sn * ∑ j ∈ range N, v i j * Spec.jerkBX N X j - cs * ∑ j ∈ range N, v i j * Spec.jerkBY N X j := by
  rw [sum_range_four]
  have h1 : ∑ j ∈ range N, headingD N sn cs u v (N + i) j * X j = 0 := sum_eq_zero fun j hj => by
    have := mem_range.1 hj
    unfold headingD
    rw [if_neg (by omega), if_pos (by omega), zero_mul]
  have h2 : ∑ j ∈ range N, headingD N sn cs u v (N + i) (N + j) * X (N + j) = 0 := sum_eq_zero fun j hj => by
    have := mem_range.1 hj
    unfold headingD
    rw [if_neg (by omega), if_pos (by omega), zero_mul]
  have h3 : ∑ j ∈ range N, headingD N sn cs u v (N + i) (2 * N + j) * X (2 * N + j)
      = sn * ∑ j ∈ range N, v i j * Spec.jerkBX N X j := by
    rw [mul_sum]
    refine sum_congr rfl fun j hj => ?_
    have := mem_range.1 hj
    unfold headingD Spec.jerkBX
    rw [if_neg (by omega), if_neg (by omega), if_pos (by omega), Nat.add_sub_cancel_left, Nat.add_sub_cancel_left]; ring
  have h4 : ∑ j ∈ range N, headingD N sn cs u v (N + i) (3 * N + j) * X (3 * N + j)
      = -(cs * ∑ j ∈ range N, v i j * Spec.jerkBY N X j) := by
    rw [mul_sum, ← sum_neg_distrib]
    refine sum_congr rfl fun j hj => ?_
    have := mem_range.1 hj
    unfold headingD Spec.jerkBY
    rw [if_neg (by omega), if_neg (by omega), if_neg (by omega), Nat.add_sub_cancel_left, Nat.add_sub_cancel_left]; ring
  rw [h1, h2, h3, h4]; ring

theorem zRow_tilt (hc : s.config.tilt = true) (d : ℕ → K) :
    (∀ q < zM4 s, zRow tr s w d (zM1 s + zM2 s + zM3 s + q)) ↔
      s.AlongHeading (tr.cos s.yaw.p) (tr.sin s.yaw.p) w.state (fun i => w.X.get i + d i) := by
  have key : ∀ q < 2 * s.nbSamples, ∀ v : K,
      ∑ c ∈ range (4 * s.nbSamples), zHeadD tr s q c * (w.X.get c + d c)
        + headingK s (tr.sin s.yaw.p) (tr.cos s.yaw.p) w.lip w.base q = v →
      (zRow tr s w d (zM1 s + zM2 s + zM3 s + q) ↔ v = 0) := by
    intro q hq v hv
    have hq' : q < zM4 s := by rw [zM4_true hc]; exact hq
    unfold zRow
    rw [zA_tilt tr s d hq', (zBl_tilt hq').1, (zBl_tilt hq').2]
    simp only [mul_add, sum_add_distrib] at hv
    rw [← hv]
    constructor
    · rintro ⟨h1, h2⟩; linarith
    · intro h; constructor <;> linarith
  have k1 : ∀ i < s.nbSamples, zRow tr s w d (zM1 s + zM2 s + zM3 s + i) ↔
      tr.sin s.yaw.p * (s.comX w.state (fun i => w.X.get i + d i) i).v
        - tr.cos s.yaw.p * (s.comY w.state (fun i => w.X.get i + d i) i).v = 0 := fun i hi =>
    key i (by omega) _ (by
      unfold zHeadD headingK Spec.ZebSettings.comX Spec.ZebSettings.comY
      rw [headD_row_x _ _ _ _ (fun i => w.X.get i + d i) hi, zStack_lo _ _ hi, ← row_vel _ _ s.nbSamples _ _ hi,
        ← row_vel _ _ s.nbSamples _ _ hi]
      unfold Zeb.state; ring)
  have k2 : ∀ i < s.nbSamples, zRow tr s w d (zM1 s + zM2 s + zM3 s + (s.nbSamples + i)) ↔
      tr.sin s.yaw.p * (s.baseX w.state (fun i => w.X.get i + d i) i).v
        - tr.cos s.yaw.p * (s.baseY w.state (fun i => w.X.get i + d i) i).v = 0 := fun i hi =>
    key _ (by omega) _ (by
      unfold zHeadD headingK Spec.ZebSettings.baseX Spec.ZebSettings.baseY
      rw [headD_row_y _ _ _ _ (fun i => w.X.get i + d i), zStack_hi, ← row_vel _ _ s.nbSamples _ _ hi,
        ← row_vel _ _ s.nbSamples _ _ hi]
      unfold Zeb.state; ring)
  rw [zM4_true hc]
  constructor
  · intro h i hi
    exact ⟨(k1 i hi).1 (h _ (by omega)), (k2 i hi).1 (h _ (by omega))⟩
  · intro h q hq
    obtain ⟨i, hi, rfl | rfl⟩ := two_cases hq
    · exact (k1 _ hi).2 (h _ hi).1
    · exact (k2 i hi).2 (h i hi).2

/-- The rows of the QP. -/
theorem zRow_iff {u ps v qs : ℕ → ℕ → K} {qp : QPMatrices K} (hq : ZPrep tr s L k w u ps v qs qp) (d : ℕ → K) {r : ℕ}
    (hr : r < zM s) : (qp.bl.get r ≤ ∑ j ∈ range qp.A.cols, qp.A.get r j * d j ∧
      ∑ j ∈ range qp.A.cols, qp.A.get r j * d j ≤ qp.bu.get r) ↔ zRow tr s w d r := by
  have e : ∑ j ∈ range qp.A.cols, qp.A.get r j * d j
      = w.invCtr * ∑ j ∈ range (4 * s.nbSamples), zA tr s r j * d j := by
    rw [hq.A.2.1, mul_sum]
    exact sum_congr rfl fun j hj => by rw [hq.A.2.2 r hr j (mem_range.1 hj)]; ring
  unfold zRow
  rw [e, hq.bl.2 r hr, hq.bu.2 r hr, mul_le_mul_iff_right₀ hq.invCtr_pos, mul_le_mul_iff_right₀ hq.invCtr_pos]

/-- The bounds of the unknown `i` hold for `d`. -/
theorem zVar_iff {u ps v qs : ℕ → ℕ → K} {qp : QPMatrices K} (hq : ZPrep tr s L k w u ps v qs qp) (d : ℕ → K) {i : ℕ}
    (hi : i < 4 * s.nbSamples) : (qp.xl.get i ≤ d i ∧ d i ≤ qp.xu.get i) ↔
      if s.config.base = true ∧ 2 * s.nbSamples ≤ i then |w.X.get i + d i| ≤ s.jerkLimit else |d i| ≤ MAXBOUND := by
  rw [hq.xl.2 i hi, hq.xu.2 i hi]
  unfold zX
  by_cases h : s.config.base = true ∧ 2 * s.nbSamples ≤ i
  · rw [if_pos ⟨h.1, h.2, by omega⟩, if_pos ⟨h.1, h.2, by omega⟩, if_pos h, abs_shift]
  · rw [if_neg (fun hh => h ⟨hh.1, hh.2.1⟩), if_neg (fun hh => h ⟨hh.1, hh.2.1⟩), if_neg h, abs_le]

theorem zFeasible (hN : 0 < s.nbSamples) {u ps v qs : ℕ → ℕ → K} {qp : QPMatrices K}
    (hq : ZPrep tr s L k w u ps v qs qp) (d : ℕ → K) :
    Spec.Feasible qp d ↔
      (s.config.cop = true → Spec.PolygonRows s.copPolygon s.nbSamples (s.copRel w.state w.X.get)
        (s.copRel w.state fun i => w.X.get i + d i)) ∧
      (s.config.base = true → s.BaseWithinLimits w.state fun i => w.X.get i + d i) ∧
      (s.config.com = true → Spec.PolygonRows s.comPolygon s.nbSamples (s.comRel w.state w.X.get)
        (s.comRel w.state fun i => w.X.get i + d i)) ∧
      (s.config.tilt = true →
        s.AlongHeading (tr.cos s.yaw.p) (tr.sin s.yaw.p) w.state fun i => w.X.get i + d i) ∧
      (∀ i < 4 * s.nbSamples, (s.config.base = true → i < 2 * s.nbSamples) → |d i| ≤ MAXBOUND) := by
  have hrows : (∀ r < zM s, zRow tr s w d r) ↔ (∀ q < zM1 s, zRow tr s w d q) ∧ (∀ q < zM2 s, zRow tr s w d (zM1 s + q)) ∧
      (∀ q < zM3 s, zRow tr s w d (zM1 s + zM2 s + q)) ∧ (∀ q < zM4 s, zRow tr s w d (zM1 s + zM2 s + zM3 s + q)) := by
    unfold zM
    constructor
    · intro h
      exact ⟨fun q hq => h _ (by omega), fun q hq => h _ (by omega), fun q hq => h _ (by omega), fun q hq => h _ (by omega)⟩
    · rintro ⟨h1, h2, h3, h4⟩ r hr
      by_cases c1 : r < zM1 s
      · exact h1 r c1
      by_cases c2 : r < zM1 s + zM2 s
      · have := h2 (r - zM1 s) (by omega); rwa [show zM1 s + (r - zM1 s) = r by omega] at this
      by_cases c3 : r < zM1 s + zM2 s + zM3 s
      · have := h3 (r - (zM1 s + zM2 s)) (by omega)
        rwa [show zM1 s + zM2 s + (r - (zM1 s + zM2 s)) = r by omega] at this
      · have := h4 (r - (zM1 s + zM2 s + zM3 s)) (by omega)
        rwa [show zM1 s + zM2 s + zM3 s + (r - (zM1 s + zM2 s + zM3 s)) = r by omega] at this
  have hfeas : Spec.Feasible qp d ↔ (∀ i < 4 * s.nbSamples, if s.config.base = true ∧ 2 * s.nbSamples ≤ i then
      |w.X.get i + d i| ≤ s.jerkLimit else |d i| ≤ MAXBOUND) ∧ ∀ r < zM s, zRow tr s w d r := by
    unfold Spec.Feasible
    rw [hq.xl.1, hq.xu.1, hq.bl.1, hq.bu.1]
    constructor
    · rintro ⟨h1, h2, h3, h4⟩
      exact ⟨fun i hi => (zVar_iff hq d hi).1 ⟨h1 i hi, h2 i hi⟩, fun r hr => (zRow_iff hq d hr).1 ⟨h3 r hr, h4 r hr⟩⟩
    · rintro ⟨h1, h2⟩
      exact ⟨fun i hi => ((zVar_iff hq d hi).2 (h1 i hi)).1, fun i hi => ((zVar_iff hq d hi).2 (h1 i hi)).2,
        fun r hr => ((zRow_iff hq d hr).2 (h2 r hr)).1, fun r hr => ((zRow_iff hq d hr).2 (h2 r hr)).2⟩
  have b1 : (∀ q < zM1 s, zRow tr s w d q) ↔ (s.config.cop = true → Spec.PolygonRows s.copPolygon s.nbSamples
      (s.copRel w.state w.X.get) (s.copRel w.state fun i => w.X.get i + d i)) := by
    by_cases hc : s.config.cop = true
    · rw [zRow_cop hN hc]; simp [hc]
    · rw [zM1_false (by simpa using hc)]; simp [hc]
  have b3 : (∀ q < zM3 s, zRow tr s w d (zM1 s + zM2 s + q)) ↔ (s.config.com = true →
      Spec.PolygonRows s.comPolygon s.nbSamples
      (s.comRel w.state w.X.get) (s.comRel w.state fun i => w.X.get i + d i)) := by
    by_cases hc : s.config.com = true
    · rw [zRow_com hN hc]; simp [hc]
    · rw [zM3_false (by simpa using hc)]; simp [hc]
  have b4 : (∀ q < zM4 s, zRow tr s w d (zM1 s + zM2 s + zM3 s + q)) ↔ (s.config.tilt = true →
      s.AlongHeading (tr.cos s.yaw.p) (tr.sin s.yaw.p) w.state fun i => w.X.get i + d i) := by
    by_cases hc : s.config.tilt = true
    · rw [zRow_tilt hc]; simp [hc]
    · rw [zM4_false (by simpa using hc)]; simp [hc]
  have b2 : ((∀ i < 4 * s.nbSamples, if s.config.base = true ∧ 2 * s.nbSamples ≤ i then
      |w.X.get i + d i| ≤ s.jerkLimit else |d i| ≤ MAXBOUND) ∧ ∀ q < zM2 s, zRow tr s w d (zM1 s + q)) ↔
      (s.config.base = true → s.BaseWithinLimits w.state fun i => w.X.get i + d i) ∧
      (∀ i < 4 * s.nbSamples, (s.config.base = true → i < 2 * s.nbSamples) → |d i| ≤ MAXBOUND) := by
    by_cases hc : s.config.base = true
    · rw [zRow_base hc]
      simp only [hc, true_and, forall_const]
      constructor
      · rintro ⟨h1, h2⟩
        refine ⟨fun i hi => ?_, fun i hi hi2 => ?_⟩
        · have j1 := h1 (2 * s.nbSamples + i) (by omega)
          have j2 := h1 (3 * s.nbSamples + i) (by omega)
          rw [if_pos (by omega)] at j1 j2
          obtain ⟨a1, a2, a3, a4⟩ := h2 i hi
          exact ⟨a1, a2, a3, a4, j1, j2⟩
        · have := h1 i hi
          rwa [if_neg (by omega)] at this
      · rintro ⟨h1, h2⟩
        refine ⟨fun i hi => ?_, fun i hi => ?_⟩
        · split_ifs with hi2
          · obtain ⟨j, hj, rfl | rfl | rfl | rfl⟩ := four_cases hi
            · omega
            · omega
            · exact (h1 j hj).2.2.2.2.1
            · exact (h1 j hj).2.2.2.2.2
          · exact h2 i hi (by omega)
        · obtain ⟨a1, a2, a3, a4, -, -⟩ := h1 i hi
          exact ⟨a1, a2, a3, a4⟩
    · rw [zM2_false (by simpa using hc)]
      simp [hc]
  rw [hfeas, hrows, b1, b3, b4]
  constructor
  · rintro ⟨h1, h2, h3, h4, h5⟩
    obtain ⟨c1, c2⟩ := b2.1 ⟨h1, h3⟩
    exact ⟨h2, c1, h4, h5, c2⟩
  · rintro ⟨h2, c1, h4, h5, c2⟩
    obtain ⟨h1, h3⟩ := b2.2 ⟨c1, c2⟩
    exact ⟨h1, h2, h3, h4, h5⟩

end MPC
