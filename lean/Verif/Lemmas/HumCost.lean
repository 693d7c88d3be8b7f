import Verif.Lemmas.MatForm
import Verif.Lemmas.HumReach
import Verif.Lemmas.HumFeasible

/-! # The objectives of `HumanoidWalkgen` as sums of squares -/

set_option linter.unusedSectionVars false

namespace MPC

open Finset

variable {K : Type} [Field K] [LinearOrder K]

/-! ### Building blocks -/

theorem sandwich_ok {t m H : Mat K} (h : sandwich t m = .ok H) :
    m.rows = t.rows ∧ m.cols = t.rows ∧ H.rows = t.cols ∧ H.cols = t.cols ∧
      ∀ x z, dot t.cols (mv H x) z = dot t.rows (mv m (mv t x)) (mv t z) := by
  unfold sandwich at h
  obtain ⟨P, hP, h⟩ := bind_eq_ok.1 h
  obtain ⟨p1, p2⟩ := Mat.mul?_eq_ok hP
  obtain ⟨q1, q2⟩ := Mat.mul?_eq_ok h
  have hr : H.rows = t.cols := by rw [q2, p2]; rfl
  refine ⟨p1.symm, by rw [p2] at q1; exact q1, hr, by rw [q2], fun x z => ?_⟩
  rw [← dot_transpose]
  exact dot_congr (fun i _ => by rw [mv_mul h, mv_mul hP]) fun _ _ => rfl

theorem blockDiag_ok {N : ℕ} {A B m : Mat K} (h : blockDiag N A B = .ok m) :
    (A.rows = N ∧ A.cols = N ∧ B.rows = N ∧ B.cols = N) ∧ m.rows = 2 * N ∧ m.cols = 2 * N ∧
      (∀ y, ∀ i < N, mv m y i = mv A y i) ∧
      ∀ y, ∀ i < N, mv m y (N + i) = mv B (fun j => y (N + j)) i := by
  unfold blockDiag at h
  obtain ⟨t, ht, h⟩ := bind_eq_ok.1 h
  obtain ⟨-, -, a1, a2, rfl⟩ := Mat.setBlock?_eq_ok ht
  obtain ⟨-, -, b1, b2, rfl⟩ := Mat.setBlock?_eq_ok h
  refine ⟨⟨a1, a2, b1, b2⟩, rfl, rfl, fun y i hi => ?_, fun y i hi => ?_⟩
  · simp only [mv, Mat.zero]
    rw [two_mul, sum_range_add, a2]
    refine (congrArg₂ (· + ·) (sum_congr rfl fun j hj => ?_) (sum_eq_zero fun j hj => ?_)).trans
      (add_zero _)
    · have := mem_range.1 hj
      rw [if_neg (by omega), if_pos (by omega)]
      simp
    · have := mem_range.1 hj
      rw [if_neg (by omega), if_neg (by omega), zero_mul]
  · simp only [mv, Mat.zero]
    rw [two_mul, sum_range_add, b2]
    refine (congrArg₂ (· + ·) (sum_eq_zero fun j hj => ?_) (sum_congr rfl fun j hj => ?_)).trans
      (zero_add _)
    · have := mem_range.1 hj
      rw [if_neg (by omega), if_neg (by omega), zero_mul]
    · have := mem_range.1 hj
      rw [if_pos (by omega)]
      simp

theorem stack_ok {N : ℕ} {a b v : Vec K} (h : stack N a b = .ok v) :
    a.size = N ∧ b.size = N ∧ v.size = 2 * N ∧ (∀ i < N, v.get i = a.get i) ∧
      ∀ i < N, v.get (N + i) = b.get i := by
  unfold stack at h
  obtain ⟨t, ht, h⟩ := bind_eq_ok.1 h
  obtain ⟨-, a1, rfl⟩ := Vec.setSegment?_eq_ok ht
  obtain ⟨-, b1, rfl⟩ := Vec.setSegment?_eq_ok h
  refine ⟨a1, b1, rfl, fun i hi => ?_, fun i hi => ?_⟩
  · simp only
    rw [if_neg (by omega), if_pos (by omega)]
    simp
  · simp only
    rw [if_pos (by omega)]
    simp

/-- Along one axis: local CoP of the samples (from the variable `o`) plus the footsteps (from the
variable `f`) that support them. -/
def planT (M : ℕ) (V : Mat K) (o f : ℕ) (x : ℕ → K) (i : ℕ) : K :=
  x (o + i) + ∑ c ∈ range M, V.get i c * x (f + c)

theorem planT_add (M : ℕ) (V : Mat K) (o f : ℕ) (x y : ℕ → K) (i : ℕ) :
    planT M V o f (fun k => x k + y k) i = planT M V o f x i + planT M V o f y i := by
  unfold planT
  simp only [mul_add, sum_add_distrib]
  ring

theorem copMap_ok {s : Sup K} {N : ℕ} {t : Mat K} (hN : s.N = N) (h : s.copMap N = .ok t) :
    t.rows = 2 * N ∧ t.cols = 2 * N + 2 * s.M ∧
      (∀ x, ∀ i < N, mv t x i = planT s.M s.V 0 (2 * N) x i) ∧
      (∀ x, ∀ i < N, mv t x (N + i) = planT s.M s.V N (2 * N + s.M) x i) ∧
      ∀ t', s.copMapT N = .ok t' → s.VT = s.V.transpose → t'.rows = 2 * N + 2 * s.M ∧ t'.cols = 2 * N ∧
        ∀ i < 2 * N, ∀ j < 2 * N + 2 * s.M, t'.get j i = t.get i j := by
  unfold Sup.copMap at h
  obtain ⟨t1, h1, h⟩ := bind_eq_ok.1 h
  obtain ⟨t2, h2, h⟩ := bind_eq_ok.1 h
  obtain ⟨-, -, a1, a2, rfl⟩ := Mat.setBlock?_eq_ok h1
  obtain ⟨-, -, b1, b2, rfl⟩ := Mat.setBlock?_eq_ok h2
  obtain ⟨-, -, c1, c2, rfl⟩ := Mat.setBlock?_eq_ok h
  refine ⟨rfl, rfl, fun x i hi => ?_, fun x i hi => ?_, fun t' h' hVT => ?_⟩
  · simp only [mv, Mat.zero, planT, Mat.transpose, Sup.rotation, Mat.one, hN]
    rw [two_mul s.M, ← add_assoc, sum_range_add, sum_range_add]
    have e1 : ∑ j ∈ range (2 * N), (if (N ≤ i ∧ i < N + N) ∧ 2 * N + s.M ≤ j ∧ j < 2 * N + s.M + s.M then
          s.V.get (i - N) (j - (2 * N + s.M))
        else if (0 ≤ i ∧ i < 0 + N) ∧ 2 * N ≤ j ∧ j < 2 * N + s.M then s.V.get (i - 0) (j - 2 * N)
        else if (0 ≤ i ∧ i < 0 + 2 * N) ∧ 0 ≤ j ∧ j < 0 + 2 * N then (if j - 0 = i - 0 then 1 else 0)
        else 0) * x j = x (0 + i) := by
      rw [sum_eq_single i]
      · rw [if_neg (by omega), if_neg (by omega), if_pos (by omega), if_pos rfl, one_mul, zero_add]
      · intro j hj hji
        have := mem_range.1 hj
        rw [if_neg (by omega), if_neg (by omega), if_pos (by omega), if_neg (by omega), zero_mul]
      · intro h; exact absurd (mem_range.2 (by omega)) h
    have e3 : ∑ c ∈ range s.M, (if (N ≤ i ∧ i < N + N) ∧ 2 * N + s.M ≤ 2 * N + s.M + c ∧ 2 * N + s.M + c < 2 * N + s.M + s.M then
          s.V.get (i - N) (2 * N + s.M + c - (2 * N + s.M))
        else if (0 ≤ i ∧ i < 0 + N) ∧ 2 * N ≤ 2 * N + s.M + c ∧ 2 * N + s.M + c < 2 * N + s.M then s.V.get (i - 0) (2 * N + s.M + c - 2 * N)
        else if (0 ≤ i ∧ i < 0 + 2 * N) ∧ 0 ≤ 2 * N + s.M + c ∧ 2 * N + s.M + c < 0 + 2 * N then (if 2 * N + s.M + c - 0 = i - 0 then 1 else 0)
        else 0) * x (2 * N + s.M + c) = 0 := by
      refine sum_eq_zero fun c hc => ?_
      have := mem_range.1 hc
      rw [if_neg (by omega), if_neg (by omega), if_neg (by omega), zero_mul]
    rw [e1, e3, add_zero]
    congr 1
    refine sum_congr rfl fun c hc => ?_
    have := mem_range.1 hc
    rw [if_neg (by omega), if_pos (by omega)]
    simp
  · simp only [mv, Mat.zero, planT, Mat.transpose, Sup.rotation, Mat.one, hN]
    rw [two_mul s.M, ← add_assoc, sum_range_add, sum_range_add]
    have e1 : ∑ j ∈ range (2 * N), (if (N ≤ N + i ∧ N + i < N + N) ∧ 2 * N + s.M ≤ j ∧ j < 2 * N + s.M + s.M then
          s.V.get (N + i - N) (j - (2 * N + s.M))
        else if (0 ≤ N + i ∧ N + i < 0 + N) ∧ 2 * N ≤ j ∧ j < 2 * N + s.M then s.V.get (N + i - 0) (j - 2 * N)
        else if (0 ≤ N + i ∧ N + i < 0 + 2 * N) ∧ 0 ≤ j ∧ j < 0 + 2 * N then (if j - 0 = N + i - 0 then 1 else 0)
        else 0) * x j = x (N + i) := by
      rw [sum_eq_single (N + i)]
      · rw [if_neg (by omega), if_neg (by omega), if_pos (by omega), if_pos rfl, one_mul]
      · intro j hj hji
        have := mem_range.1 hj
        rw [if_neg (by omega), if_neg (by omega), if_pos (by omega), if_neg (by omega), zero_mul]
      · intro h; exact absurd (mem_range.2 (by omega)) h
    have e2 : ∑ c ∈ range s.M, (if (N ≤ N + i ∧ N + i < N + N) ∧ 2 * N + s.M ≤ 2 * N + c ∧ 2 * N + c < 2 * N + s.M + s.M then
          s.V.get (N + i - N) (2 * N + c - (2 * N + s.M))
        else if (0 ≤ N + i ∧ N + i < 0 + N) ∧ 2 * N ≤ 2 * N + c ∧ 2 * N + c < 2 * N + s.M then s.V.get (N + i - 0) (2 * N + c - 2 * N)
        else if (0 ≤ N + i ∧ N + i < 0 + 2 * N) ∧ 0 ≤ 2 * N + c ∧ 2 * N + c < 0 + 2 * N then (if 2 * N + c - 0 = N + i - 0 then 1 else 0)
        else 0) * x (2 * N + c) = 0 := by
      refine sum_eq_zero fun c hc => ?_
      have := mem_range.1 hc
      rw [if_neg (by omega), if_neg (by omega), if_neg (by omega), zero_mul]
    rw [e1, e2, add_zero]
    congr 1
    refine sum_congr rfl fun c hc => ?_
    have := mem_range.1 hc
    rw [if_pos (by omega)]
    simp
  · unfold Sup.copMapT at h'
    obtain ⟨u1, k1, h'⟩ := bind_eq_ok.1 h'
    obtain ⟨u2, k2, h'⟩ := bind_eq_ok.1 h'
    obtain ⟨-, -, -, -, rfl⟩ := Mat.setBlock?_eq_ok k1
    obtain ⟨-, -, -, -, rfl⟩ := Mat.setBlock?_eq_ok k2
    obtain ⟨-, -, -, -, rfl⟩ := Mat.setBlock?_eq_ok h'
    refine ⟨rfl, rfl, fun i hi j hj => ?_⟩
    simp only [hVT, Mat.transpose, Mat.zero, Sup.rotation]
    by_cases g1 : (N ≤ i ∧ i < N + N) ∧ (2 * N + s.M ≤ j ∧ j < 2 * N + s.M + s.M)
    · rw [if_pos ⟨g1.2, g1.1⟩, if_pos g1]
    · rw [if_neg (fun h => g1 ⟨h.2, h.1⟩), if_neg g1]
      by_cases g2 : (0 ≤ i ∧ i < 0 + N) ∧ (2 * N ≤ j ∧ j < 2 * N + s.M)
      · rw [if_pos ⟨g2.2, g2.1⟩, if_pos g2]
      · rw [if_neg (fun h => g2 ⟨h.2, h.1⟩), if_neg g2]
        by_cases g3 : (0 ≤ i ∧ i < 0 + 2 * N) ∧ (0 ≤ j ∧ j < 0 + 2 * N)
        · rw [if_pos ⟨g3.2, g3.1⟩, if_pos g3]
        · rw [if_neg (fun h => g3 ⟨h.2, h.1⟩), if_neg g3]

/-! ### One axis -/

theorem dot_transpose_n {A : Mat K} {N : ℕ} (hr : A.rows = N) (hc : A.cols = N) (x y : ℕ → K) :
    dot N (mv A.transpose y) x = dot N y (mv A x) := by
  have := dot_transpose A x y
  rwa [hr, hc] at this

/-- A CoP dynamics whose stored inverse is `B`. -/
structure AxisDyn (N : ℕ) (d : LinearDynamic K) (B : Mat K) : Prop where
  inv : d.Uinv = some B
  invT : d.UTinv = some B.transpose
  rows : B.rows = N
  cols : B.cols = N
  Sr : d.S.rows = N
  Sc : d.S.cols = 3
  C : d.C.size = N

/-- The position of the support foot where the selection matrix `V0` has ones, relatively to the CoP
without jerk. -/
def axisOff (d : LinearDynamic K) (V0 : Mat K) (s0 : K) (st : State3 K) (i : ℕ) : K :=
  s0 * V0.get i 0 - (mv d.S st.toVec.get i + d.C.get i)

theorem jerkBlock_ok {N : ℕ} {d : LinearDynamic K} {B W Q : Mat K} (hd : AxisDyn N d B)
    (hWc : W.cols = N) (hWd : ∀ i j, i ≠ j → W.get i j = 0) (h : jerkBlock d W = .ok Q) :
    Q.rows = N ∧ Q.cols = N ∧
      ∀ y z, dot N (mv Q y) z = ∑ k ∈ range N, W.get k k * mv B y k * mv B z k := by
  unfold jerkBlock at h
  rw [hd.inv, hd.invT] at h
  simp only [getInv, ok_bind] at h
  obtain ⟨P, hP, h⟩ := bind_eq_ok.1 h
  obtain ⟨p1, p2⟩ := Mat.mul?_eq_ok hP
  obtain ⟨q1, q2⟩ := Mat.mul?_eq_ok h
  refine ⟨by rw [q2, p2]; exact hd.cols, by rw [q2]; exact hd.cols, fun y z => ?_⟩
  have e : dot N (mv Q y) z = dot B.cols (mv B.transpose (mv W (mv B y))) z := by
    rw [hd.cols]
    exact dot_congr (fun i _ => by rw [mv_mul h, mv_mul hP]) fun _ _ => rfl
  rw [e, dot_transpose, hd.rows]
  exact sum_congr rfl fun k hk => by rw [mv_diag hWc hWd _ (mem_range.1 hk)]

theorem jerkSegment_ok {N : ℕ} {d : LinearDynamic K} {B W V0 : Mat K} {s0 : K} {st : State3 K}
    {v : Vec K} (hd : AxisDyn N d B) (hWc : W.cols = N) (hWd : ∀ i j, i ≠ j → W.get i j = 0)
    (h : jerkSegment d W V0 s0 st = .ok v) :
    ∀ z, dot N v.get z = ∑ k ∈ range N, W.get k k * mv B (axisOff d V0 s0 st) k * mv B z k := by
  unfold jerkSegment at h
  obtain ⟨Q, hQ, h⟩ := bind_eq_ok.1 h
  obtain ⟨q1, q2, q3⟩ := jerkBlock_ok hd hWc hWd hQ
  obtain ⟨P, hP, h⟩ := bind_eq_ok.1 h
  obtain ⟨p1, p2⟩ := Mat.mul?_eq_ok hP
  obtain ⟨a, ha, h⟩ := bind_eq_ok.1 h
  unfold Mat.toVec? at ha
  obtain ⟨_, -, ha⟩ := bind_eq_ok.1 ha
  have ha := Except.ok.inj ha
  obtain ⟨m, hm, h⟩ := bind_eq_ok.1 h
  obtain ⟨-, m2⟩ := Mat.mulVec?_eq_ok hm
  obtain ⟨b, hb, h⟩ := bind_eq_ok.1 h
  obtain ⟨-, b2⟩ := Vec.add?_eq_ok hb
  obtain ⟨c, hc, h⟩ := bind_eq_ok.1 h
  obtain ⟨-, c2⟩ := Mat.mulVec?_eq_ok hc
  obtain ⟨-, v2⟩ := Vec.sub?_eq_ok h
  intro z
  rw [← q3]
  refine dot_congr (fun i _ => ?_) fun _ _ => rfl
  have e : mv Q (axisOff d V0 s0 st) i = s0 * mv Q (fun j => V0.get j 0) i
      - mv Q (fun j => mv d.S st.toVec.get j + d.C.get j) i := by
    rw [← mv_smul, ← mv_sub]
    rfl
  rw [e, v2, c2, b2, m2, ← ha, p2]
  rfl

/-- The dynamics of the velocity, as used with the CoP dynamics. -/
structure VelDyn (N : ℕ) (dv : LinearDynamic K) : Prop where
  rows : dv.U.rows = N
  cols : dv.U.cols = N
  UT : dv.UT = dv.U.transpose

theorem velBlock_ok {N : ℕ} {d dv : LinearDynamic K} {B W Q : Mat K} (hd : AxisDyn N d B)
    (hv : VelDyn N dv) (hWc : W.cols = N) (hWd : ∀ i j, i ≠ j → W.get i j = 0)
    (h : velBlock d dv W = .ok Q) :
    Q.rows = N ∧ Q.cols = N ∧ ∀ y z, dot N (mv Q y) z
      = ∑ k ∈ range N, W.get k k * mv dv.U (mv B y) k * mv dv.U (mv B z) k := by
  unfold velBlock at h
  rw [hd.inv, hd.invT, hv.UT] at h
  simp only [getInv, ok_bind] at h
  obtain ⟨P1, h1, h⟩ := bind_eq_ok.1 h
  obtain ⟨P2, h2, h⟩ := bind_eq_ok.1 h
  obtain ⟨P3, h3, h⟩ := bind_eq_ok.1 h
  obtain ⟨-, p1⟩ := Mat.mul?_eq_ok h1
  obtain ⟨-, p2⟩ := Mat.mul?_eq_ok h2
  obtain ⟨-, p3⟩ := Mat.mul?_eq_ok h3
  obtain ⟨-, q⟩ := Mat.mul?_eq_ok h
  refine ⟨by rw [q, p3, p2, p1]; exact hd.cols, by rw [q]; exact hd.cols, fun y z => ?_⟩
  have e : dot N (mv Q y) z
      = dot B.cols (mv B.transpose (mv dv.U.transpose (mv W (mv dv.U (mv B y))))) z := by
    rw [hd.cols]
    exact dot_congr (fun i _ => by rw [mv_mul h, mv_mul h3, mv_mul h2, mv_mul h1]) fun _ _ => rfl
  rw [e, dot_transpose, hd.rows, dot_transpose_n hv.rows hv.cols]
  refine sum_congr rfl fun k hk => ?_
  rw [mv_diag hWc hWd _ (mem_range.1 hk)]

theorem velSegment_ok {N : ℕ} {d dv : LinearDynamic K} {B W V0 : Mat K} {s0 : K} {st : State3 K}
    {ref v : Vec K} (hd : AxisDyn N d B) (hv : VelDyn N dv) (hWc : W.cols = N)
    (hWd : ∀ i j, i ≠ j → W.get i j = 0) (h : velSegment d dv W V0 s0 st ref = .ok v) :
    ∀ z, dot N v.get z = ∑ k ∈ range N, W.get k k * (mv dv.U (mv B (axisOff d V0 s0 st)) k
      + (mv dv.S st.toVec.get k - ref.get k)) * mv dv.U (mv B z) k := by
  unfold velSegment at h
  rw [hd.inv, hd.invT, hv.UT] at h
  simp only [getInv, ok_bind] at h
  obtain ⟨P, hP, h⟩ := bind_eq_ok.1 h
  obtain ⟨m, hm, h⟩ := bind_eq_ok.1 h
  obtain ⟨-, m2⟩ := Mat.mulVec?_eq_ok hm
  obtain ⟨c, hc, h⟩ := bind_eq_ok.1 h
  obtain ⟨-, c2⟩ := Vec.add?_eq_ok hc
  obtain ⟨g, hg, h⟩ := bind_eq_ok.1 h
  obtain ⟨-, g2⟩ := Mat.mulVec?_eq_ok hg
  obtain ⟨f, hf, h⟩ := bind_eq_ok.1 h
  obtain ⟨-, f2⟩ := Mat.mulVec?_eq_ok hf
  obtain ⟨e1, he1, h⟩ := bind_eq_ok.1 h
  obtain ⟨-, e1'⟩ := Vec.sub?_eq_ok he1
  obtain ⟨R, hR, h⟩ := bind_eq_ok.1 h
  obtain ⟨-, R2⟩ := Mat.mul?_eq_ok hR
  obtain ⟨a, ha, h⟩ := bind_eq_ok.1 h
  unfold Mat.toVec? at ha
  obtain ⟨_, -, ha⟩ := bind_eq_ok.1 ha
  have ha := Except.ok.inj ha
  obtain ⟨e2, he2, h⟩ := bind_eq_ok.1 h
  obtain ⟨-, e2'⟩ := Vec.add?_eq_ok he2
  obtain ⟨e3, he3, h⟩ := bind_eq_ok.1 h
  obtain ⟨-, e3'⟩ := Vec.sub?_eq_ok he3
  obtain ⟨e4, he4, h⟩ := bind_eq_ok.1 h
  obtain ⟨-, e4'⟩ := Mat.mulVec?_eq_ok he4
  obtain ⟨P', hP', h⟩ := bind_eq_ok.1 h
  obtain ⟨-, v'⟩ := Mat.mulVec?_eq_ok h
  intro z
  have e : dot N v.get z = dot B.cols (mv B.transpose (mv dv.U.transpose e4.get)) z := by
    rw [hd.cols]
    exact dot_congr (fun i _ => by rw [v', ← mv_mul hP']; rfl) fun _ _ => rfl
  rw [e, dot_transpose, hd.rows, dot_transpose_n hv.rows hv.cols]
  refine sum_congr rfl fun k hk => ?_
  have hk := mem_range.1 hk
  have a1 : e4.get k = mv W e3.get k := by rw [e4']; rfl
  rw [a1, mv_diag hWc hWd _ hk]
  congr 2
  have a2 : e3.get k = mv dv.S st.toVec.get k - mv P c.get k + s0 * mv P (fun j => V0.get j 0) k
      - ref.get k := by
    rw [e3', e2', e1', g2, f2, ← ha, R2]
    rfl
  have a3 : mv P (axisOff d V0 s0 st) k = s0 * mv P (fun j => V0.get j 0) k - mv P c.get k := by
    rw [← mv_smul, ← mv_sub, c2, m2]
    rfl
  have a4 : mv P (axisOff d V0 s0 st) k = mv dv.U (mv B (axisOff d V0 s0 st)) k := mv_mul hP _ _
  rw [a2, ← a4, a3]
  ring

/-! ### Both axes -/

theorem humHessian_ok {s : Sup K} {N : ℕ} {A B t m H : Mat K} {W : ℕ → K} {fa fb : (ℕ → K) → ℕ → K}
    (hN : s.N = N) (ht : s.copMap N = .ok t) (hm : blockDiag N A B = .ok m) (hH : sandwich t m = .ok H)
    (hA : ∀ y z, dot N (mv A y) z = ∑ k ∈ range N, W k * fa y k * fa z k)
    (hB : ∀ y z, dot N (mv B y) z = ∑ k ∈ range N, W k * fb y k * fb z k)
    (ca : ∀ y y', (∀ i < N, y i = y' i) → ∀ k, fa y k = fa y' k)
    (cb : ∀ y y', (∀ i < N, y i = y' i) → ∀ k, fb y k = fb y' k) :
    H.rows = 2 * N + 2 * s.M ∧ H.cols = 2 * N + 2 * s.M ∧ ∀ x z, dot (2 * N + 2 * s.M) (mv H x) z
      = ∑ k ∈ range N, W k * fa (planT s.M s.V 0 (2 * N) x) k * fa (planT s.M s.V 0 (2 * N) z) k
        + ∑ k ∈ range N, W k * fb (planT s.M s.V N (2 * N + s.M) x) k
          * fb (planT s.M s.V N (2 * N + s.M) z) k := by
  obtain ⟨t1, t2, t3, t4, -⟩ := copMap_ok hN ht
  obtain ⟨-, -, -, m3, m4⟩ := blockDiag_ok hm
  obtain ⟨-, -, H1, H2, H3⟩ := sandwich_ok hH
  refine ⟨H1.trans t2, H2.trans t2, fun x z => ?_⟩
  rw [← t2, H3, t1, dot_two]
  congr 1
  · rw [dot_congr (m3 _) fun _ _ => rfl, hA]
    exact sum_congr rfl fun k _ => by rw [ca _ _ (t3 x), ca _ _ (t3 z)]
  · rw [dot_congr (m4 _) fun _ _ => rfl, hB]
    exact sum_congr rfl fun k _ => by rw [cb _ _ (t4 x), cb _ _ (t4 z)]

theorem humGradient_ok {s : Sup K} {N : ℕ} {t t' : Mat K} {a b st g : Vec K}
    (hN : s.N = N) (hVT : s.VT = s.V.transpose) (ht : s.copMap N = .ok t) (ht' : s.copMapT N = .ok t')
    (hs : stack N a b = .ok st) (hg : t'.mulVec? st = .ok g) :
    g.size = 2 * N + 2 * s.M ∧ ∀ z, dot (2 * N + 2 * s.M) g.get z
      = dot N a.get (planT s.M s.V 0 (2 * N) z) + dot N b.get (planT s.M s.V N (2 * N + s.M) z) := by
  obtain ⟨t1, t2, t3, t4, t5⟩ := copMap_ok hN ht
  obtain ⟨u1, u2, u3⟩ := t5 t' ht' hVT
  obtain ⟨-, -, -, s1, s2⟩ := stack_ok hs
  obtain ⟨-, g2⟩ := Mat.mulVec?_eq_ok hg
  refine ⟨by rw [g2]; exact u1, fun z => ?_⟩
  have e : dot (2 * N + 2 * s.M) g.get z = dot t.cols (mv t.transpose st.get) z := by
    rw [t2]
    refine dot_congr (fun i hi => ?_) fun _ _ => rfl
    rw [g2]
    simp only [mv, Mat.transpose, u2, t1]
    exact sum_congr rfl fun k hk => by rw [u3 k (mem_range.1 hk) i hi]
  rw [e, dot_transpose, t1, dot_two]
  congr 1
  · exact dot_congr s1 (t3 z)
  · exact dot_congr s2 (t4 z)

theorem lsq_axis [IsStrictOrderedRing K] (N : ℕ) (W L0 L e : ℕ → K) :
    1 / 2 * (∑ k ∈ range N, W k * L k * L k) + ∑ k ∈ range N, W k * e k * L k
      + ∑ k ∈ range N, W k * L0 k * L k
      = 1 / 2 * ∑ k ∈ range N, W k * (L0 k + L k + e k) ^ 2
        - 1 / 2 * ∑ k ∈ range N, W k * (L0 k + e k) ^ 2 := by
  simp only [mul_sum]
  rw [← sum_add_distrib, ← sum_add_distrib, ← sum_sub_distrib]
  exact sum_congr rfl fun k _ => by ring

/-- What the objectives read: index of the dynamics, CoP dynamics of both axes with their inverses,
state of the support foot. -/
structure HumData [FloorRing K] (l : Lip K) (s : Sup K) (nb : ℤ) (dx dy : LinearDynamic K) (Bx By : Mat K)
    (px py : State3 K) : Prop where
  hnb : s.nb = .ok nb
  hdx : l.dyn l.copX nb = .ok dx
  hdy : l.dyn l.copY nb = .ok dy
  hBx : AxisDyn l.N dx Bx
  hBy : AxisDyn l.N dy By
  hpx : s.supportX = .ok px
  hpy : s.supportY = .ok py

/-- CoP along one axis of the plan `X`. -/
def planned (M : ℕ) (V V0 : Mat K) (s0 : K) (o f : ℕ) (X : ℕ → K) (i : ℕ) : K :=
  planT M V o f X i + s0 * V0.get i 0

/-- Jerk along one axis of the plan `X`. -/
def axisJerk (B V0 : Mat K) (d : LinearDynamic K) (s0 : K) (st : State3 K) (P : ℕ → K) (k : ℕ) : K :=
  mv B (fun i => P i + axisOff d V0 s0 st i) k

theorem axisJerk_add (B V0 : Mat K) (d : LinearDynamic K) (s0 : K) (st : State3 K) (P P' : ℕ → K)
    (k : ℕ) : axisJerk B V0 d s0 st (fun i => P i + P' i) k
      = mv B P k + mv B P' k + mv B (axisOff d V0 s0 st) k := by
  unfold axisJerk
  rw [mv_add, mv_add]

theorem axisJerk_eq (B V0 : Mat K) (d : LinearDynamic K) (s0 : K) (st : State3 K) (P : ℕ → K)
    (k : ℕ) : axisJerk B V0 d s0 st P k = mv B P k + mv B (axisOff d V0 s0 st) k := mv_add _ _ _ _

/-- Jerks along both axes. -/
def jerkX (l : Lip K) (s : Sup K) (dx : LinearDynamic K) (Bx : Mat K) (px : State3 K) (X : ℕ → K) :
    ℕ → K := axisJerk Bx s.V0 dx px.p l.x (planT s.M s.V 0 (2 * l.N) X)

def jerkY (l : Lip K) (s : Sup K) (dy : LinearDynamic K) (By : Mat K) (py : State3 K) (X : ℕ → K) :
    ℕ → K := axisJerk By s.V0 dy py.p l.y (planT s.M s.V l.N (2 * l.N + s.M) X)

section Objectives
variable [IsStrictOrderedRing K] [FloorRing K] {l : Lip K} {s : Sup K} {nb : ℤ} {dx dy : LinearDynamic K}
  {Bx By : Mat K} {px py : State3 K}

theorem jerkHessian_ok (hD : HumData l s nb dx dy Bx By px py) (hs : s.Shaped)
    {H : Mat K} (hH : jerkHessian l s = .ok H) :
    s.N = l.N ∧ ∃ t, s.copMap l.N = .ok t ∧ H.rows = 2 * l.N + 2 * s.M ∧ H.cols = 2 * l.N + 2 * s.M ∧
    ∀ x z, dot (2 * l.N + 2 * s.M) (mv H x) z
      = ∑ k ∈ range l.N, s.weight.get k k * mv Bx (planT s.M s.V 0 (2 * l.N) x) k
          * mv Bx (planT s.M s.V 0 (2 * l.N) z) k
        + ∑ k ∈ range l.N, s.weight.get k k * mv By (planT s.M s.V l.N (2 * l.N + s.M) x) k
          * mv By (planT s.M s.V l.N (2 * l.N + s.M) z) k := by
  unfold jerkHessian at hH
  obtain ⟨_, hN, hH⟩ := bind_eq_ok.1 hH
  have hN := require_eq_ok.1 hN
  rw [hD.hnb, ok_bind, hD.hdx, ok_bind, hD.hdy, ok_bind] at hH
  obtain ⟨t, ht, hH⟩ := bind_eq_ok.1 hH
  obtain ⟨A, hA, hH⟩ := bind_eq_ok.1 hH
  obtain ⟨B, hB, hH⟩ := bind_eq_ok.1 hH
  obtain ⟨m, hm, hH⟩ := bind_eq_ok.1 hH
  obtain ⟨-, -, hA⟩ := jerkBlock_ok hD.hBx (hs.Wc.trans hN) hs.Wd hA
  obtain ⟨-, -, hB⟩ := jerkBlock_ok hD.hBy (hs.Wc.trans hN) hs.Wd hB
  exact ⟨hN, t, ht, humHessian_ok hN ht hm hH hA hB
    (fun y y' h k => mv_congr (fun j hj => h j (by rwa [hD.hBx.cols] at hj)) k)
    (fun y y' h k => mv_congr (fun j hj => h j (by rwa [hD.hBy.cols] at hj)) k)⟩

/-- Sums of squares along the two axes. -/
theorem lsq_axes (N n : ℕ) (W : ℕ → K) (H : Mat K) (g x0 G : ℕ → K) (La Lb : (ℕ → K) → ℕ → K)
    (ea eb : ℕ → K)
    (hH : ∀ x z, dot n (mv H x) z = ∑ k ∈ range N, W k * La x k * La z k
      + ∑ k ∈ range N, W k * Lb x k * Lb z k)
    (hg : ∀ z, dot n g z = ∑ k ∈ range N, W k * ea k * La z k + ∑ k ∈ range N, W k * eb k * Lb z k)
    (hG : ∀ i < n, G i = g i + mv H x0 i) (x : ℕ → K) :
    1 / 2 * dot n (mv H x) x + dot n G x
      = 1 / 2 * (∑ k ∈ range N, W k * (La x0 k + La x k + ea k) ^ 2
          + ∑ k ∈ range N, W k * (Lb x0 k + Lb x k + eb k) ^ 2)
        - 1 / 2 * (∑ k ∈ range N, W k * (La x0 k + ea k) ^ 2
          + ∑ k ∈ range N, W k * (Lb x0 k + eb k) ^ 2) := by
  have e : dot n G x = dot n g x + dot n (mv H x0) x := by
    unfold dot
    rw [← sum_add_distrib]
    exact sum_congr rfl fun i hi => by rw [hG i (mem_range.1 hi)]; ring
  rw [e, hH, hg, hH]
  linear_combination lsq_axis N W (La x0) (La x) ea + lsq_axis N W (Lb x0) (Lb x) eb

theorem jerkGradient_ok (hD : HumData l s nb dx dy Bx By px py) (hs : s.Shaped)
    {H : Mat K} {x0 G : Vec K} (hH : jerkHessian l s = .ok H) (hG : jerkGradient l s x0 = .ok G) :
    x0.size = 2 * l.N + 2 * s.M ∧ G.size = 2 * l.N + 2 * s.M ∧ ∀ x : ℕ → K,
      1 / 2 * dot (2 * l.N + 2 * s.M) (mv H x) x + dot (2 * l.N + 2 * s.M) G.get x
      = 1 / 2 * (∑ k ∈ range l.N, s.weight.get k k * jerkX l s dx Bx px (fun i => x0.get i + x i) k ^ 2
          + ∑ k ∈ range l.N, s.weight.get k k * jerkY l s dy By py (fun i => x0.get i + x i) k ^ 2)
        - 1 / 2 * (∑ k ∈ range l.N, s.weight.get k k * jerkX l s dx Bx px x0.get k ^ 2
          + ∑ k ∈ range l.N, s.weight.get k k * jerkY l s dy By py x0.get k ^ 2) := by
  obtain ⟨hN, t, ht, H1, H2, H3⟩ := jerkHessian_ok hD hs hH
  unfold jerkGradient at hG
  obtain ⟨_, hx0, hG⟩ := bind_eq_ok.1 hG
  have hx0 := require_eq_ok.1 hx0
  rw [hD.hnb, ok_bind, hD.hdx, ok_bind, hD.hdy, ok_bind] at hG
  obtain ⟨t', ht', hG⟩ := bind_eq_ok.1 hG
  rw [hD.hpx, ok_bind] at hG
  obtain ⟨a, ha, hG⟩ := bind_eq_ok.1 hG
  rw [hD.hpy, ok_bind] at hG
  obtain ⟨b, hb, hG⟩ := bind_eq_ok.1 hG
  obtain ⟨u, hu, hG⟩ := bind_eq_ok.1 hG
  obtain ⟨g, hg, hG⟩ := bind_eq_ok.1 hG
  rw [hH, ok_bind] at hG
  obtain ⟨r, hr, hG⟩ := bind_eq_ok.1 hG
  obtain ⟨-, r2⟩ := Mat.mulVec?_eq_ok hr
  obtain ⟨-, G2⟩ := Vec.add?_eq_ok hG
  obtain ⟨g1, g2⟩ := humGradient_ok hN hs.VT ht ht' hu hg
  have ha := jerkSegment_ok hD.hBx (hs.Wc.trans hN) hs.Wd ha
  have hb := jerkSegment_ok hD.hBy (hs.Wc.trans hN) hs.Wd hb
  refine ⟨hx0, by rw [G2]; exact g1, fun x => ?_⟩
  rw [lsq_axes l.N _ (fun k => s.weight.get k k) H g.get x0.get G.get _ _ _ _ H3
    (fun z => by rw [g2, ha, hb]) (fun i _ => by rw [G2, r2]; rfl) x]
  have e1 : ∀ X k, jerkX l s dx Bx px X k = mv Bx (planT s.M s.V 0 (2 * l.N) X) k
      + mv Bx (axisOff dx s.V0 px.p l.x) k := fun X k => axisJerk_eq _ _ _ _ _ _ _
  have e2 : ∀ X k, jerkY l s dy By py X k = mv By (planT s.M s.V l.N (2 * l.N + s.M) X) k
      + mv By (axisOff dy s.V0 py.p l.y) k := fun X k => axisJerk_eq _ _ _ _ _ _ _
  simp only [e1, e2, ← mv_add]
  simp only [← planT_add]

/-- Velocity along one axis given by the jerks `J`. -/
def axisVel (dv : LinearDynamic K) (st : State3 K) (J : ℕ → K) (k : ℕ) : K :=
  mv dv.U J k + mv dv.S st.toVec.get k

theorem velHessian_ok (hD : HumData l s nb dx dy Bx By px py) (hs : s.Shaped) {dv : LinearDynamic K}
    (hdv : l.dyn l.vel nb = .ok dv) (hv : VelDyn l.N dv)
    {H : Mat K} (hH : velHessian l s = .ok H) :
    s.N = l.N ∧ ∃ t, s.copMap l.N = .ok t ∧ H.rows = 2 * l.N + 2 * s.M ∧ H.cols = 2 * l.N + 2 * s.M ∧
    ∀ x z, dot (2 * l.N + 2 * s.M) (mv H x) z
      = ∑ k ∈ range l.N, s.weight.get k k * mv dv.U (mv Bx (planT s.M s.V 0 (2 * l.N) x)) k
          * mv dv.U (mv Bx (planT s.M s.V 0 (2 * l.N) z)) k
        + ∑ k ∈ range l.N, s.weight.get k k * mv dv.U (mv By (planT s.M s.V l.N (2 * l.N + s.M) x)) k
          * mv dv.U (mv By (planT s.M s.V l.N (2 * l.N + s.M) z)) k := by
  unfold velHessian at hH
  obtain ⟨_, hN, hH⟩ := bind_eq_ok.1 hH
  have hN := require_eq_ok.1 hN
  rw [hD.hnb, ok_bind, hD.hdx, ok_bind, hD.hdy, ok_bind, hdv, ok_bind] at hH
  obtain ⟨t, ht, hH⟩ := bind_eq_ok.1 hH
  obtain ⟨A, hA, hH⟩ := bind_eq_ok.1 hH
  obtain ⟨B, hB, hH⟩ := bind_eq_ok.1 hH
  obtain ⟨m, hm, hH⟩ := bind_eq_ok.1 hH
  obtain ⟨-, -, hA⟩ := velBlock_ok hD.hBx hv (hs.Wc.trans hN) hs.Wd hA
  obtain ⟨-, -, hB⟩ := velBlock_ok hD.hBy hv (hs.Wc.trans hN) hs.Wd hB
  exact ⟨hN, t, ht, humHessian_ok hN ht hm hH hA hB
    (fun y y' h k => mv_congr (fun i _ => mv_congr (fun j hj => h j (by rwa [hD.hBx.cols] at hj)) i) k)
    (fun y y' h k => mv_congr (fun i _ => mv_congr (fun j hj => h j (by rwa [hD.hBy.cols] at hj)) i) k)⟩

theorem velGradient_ok (hD : HumData l s nb dx dy Bx By px py) (hs : s.Shaped) {dv : LinearDynamic K}
    (hdv : l.dyn l.vel nb = .ok dv) (hv : VelDyn l.N dv)
    {H : Mat K} {x0 G ref : Vec K} (hH : velHessian l s = .ok H) (hG : velGradient l s ref x0 = .ok G) :
    ref.size = 2 * l.N ∧ x0.size = 2 * l.N + 2 * s.M ∧ G.size = 2 * l.N + 2 * s.M ∧ ∀ x : ℕ → K,
      1 / 2 * dot (2 * l.N + 2 * s.M) (mv H x) x + dot (2 * l.N + 2 * s.M) G.get x
      = 1 / 2 * (∑ k ∈ range l.N, s.weight.get k k *
            (axisVel dv l.x (jerkX l s dx Bx px (fun i => x0.get i + x i)) k - ref.get k) ^ 2
          + ∑ k ∈ range l.N, s.weight.get k k *
            (axisVel dv l.y (jerkY l s dy By py (fun i => x0.get i + x i)) k - ref.get (l.N + k)) ^ 2)
        - 1 / 2 * (∑ k ∈ range l.N, s.weight.get k k *
            (axisVel dv l.x (jerkX l s dx Bx px x0.get) k - ref.get k) ^ 2
          + ∑ k ∈ range l.N, s.weight.get k k *
            (axisVel dv l.y (jerkY l s dy By py x0.get) k - ref.get (l.N + k)) ^ 2) := by
  obtain ⟨hN, t, ht, H1, H2, H3⟩ := velHessian_ok hD hs hdv hv hH
  unfold velGradient at hG
  obtain ⟨_, hr0, hG⟩ := bind_eq_ok.1 hG
  have hr0 := require_eq_ok.1 hr0
  obtain ⟨_, hx0, hG⟩ := bind_eq_ok.1 hG
  have hx0 := require_eq_ok.1 hx0
  rw [hN] at hx0
  rw [hD.hnb, ok_bind, hD.hdx, ok_bind, hD.hdy, ok_bind, hdv, ok_bind, hD.hpx, ok_bind] at hG
  obtain ⟨r1, hr1, hG⟩ := bind_eq_ok.1 hG
  obtain ⟨-, rfl⟩ := Vec.segment?_eq_ok hr1
  obtain ⟨a, ha, hG⟩ := bind_eq_ok.1 hG
  rw [hD.hpy, ok_bind] at hG
  obtain ⟨r2, hr2, hG⟩ := bind_eq_ok.1 hG
  obtain ⟨-, rfl⟩ := Vec.segment?_eq_ok hr2
  obtain ⟨b, hb, hG⟩ := bind_eq_ok.1 hG
  obtain ⟨t', ht', hG⟩ := bind_eq_ok.1 hG
  obtain ⟨u, hu, hG⟩ := bind_eq_ok.1 hG
  obtain ⟨g, hg, hG⟩ := bind_eq_ok.1 hG
  rw [hH, ok_bind] at hG
  obtain ⟨r, hr, hG⟩ := bind_eq_ok.1 hG
  obtain ⟨-, r2⟩ := Mat.mulVec?_eq_ok hr
  obtain ⟨-, G2⟩ := Vec.add?_eq_ok hG
  obtain ⟨g1, g2⟩ := humGradient_ok hN hs.VT ht ht' hu hg
  have ha := velSegment_ok hD.hBx hv (hs.Wc.trans hN) hs.Wd ha
  have hb := velSegment_ok hD.hBy hv (hs.Wc.trans hN) hs.Wd hb
  refine ⟨hr0, hx0, by rw [G2]; exact g1, fun x => ?_⟩
  rw [lsq_axes l.N _ (fun k => s.weight.get k k) H g.get x0.get G.get _ _ _ _ H3
    (fun z => by rw [g2, ha, hb]) (fun i _ => by rw [G2, r2]; rfl) x]
  have e1 : ∀ X k, axisVel dv l.x (jerkX l s dx Bx px X) k - ref.get k
      = mv dv.U (mv Bx (planT s.M s.V 0 (2 * l.N) X)) k
      + (mv dv.U (mv Bx (axisOff dx s.V0 px.p l.x)) k + (mv dv.S l.x.toVec.get k - ref.get (0 + k))) := by
    intro X k
    unfold axisVel jerkX
    rw [mv_congr (fun j _ => axisJerk_eq _ _ _ _ _ _ j), mv_add, zero_add]
    ring
  have e2 : ∀ X k, axisVel dv l.y (jerkY l s dy By py X) k - ref.get (l.N + k)
      = mv dv.U (mv By (planT s.M s.V l.N (2 * l.N + s.M) X)) k
      + (mv dv.U (mv By (axisOff dy s.V0 py.p l.y)) k
        + (mv dv.S l.y.toVec.get k - ref.get (l.N + k))) := by
    intro X k
    unfold axisVel jerkY
    rw [mv_congr (fun j _ => axisJerk_eq _ _ _ _ _ _ j), mv_add]
    ring
  have e3 : ∀ (B : Mat K) o f (x y : ℕ → K) k, mv dv.U (mv B (planT s.M s.V o f fun i => x i + y i)) k
      = mv dv.U (mv B (planT s.M s.V o f x)) k + mv dv.U (mv B (planT s.M s.V o f y)) k := by
    intro B o f x y k
    rw [← mv_add]
    refine mv_congr (fun j _ => ?_) k
    rw [← mv_add]
    exact mv_congr (fun i _ => planT_add _ _ _ _ _ _ _) j
  simp only [e1, e2, e3]

theorem centering_ok {H : Mat K} {x0 G : Vec K} (hH : centeringHessian l s = .ok H)
    (hG : centeringGradient l s x0 = .ok G) :
    x0.size = 2 * l.N + 2 * s.M ∧ H.rows = 2 * l.N + 2 * s.M ∧ H.cols = 2 * l.N + 2 * s.M ∧
      G.size = 2 * l.N + 2 * s.M ∧ ∀ x : ℕ → K,
      1 / 2 * dot (2 * l.N + 2 * s.M) (mv H x) x + dot (2 * l.N + 2 * s.M) G.get x
      = 1 / 2 * ∑ k ∈ range (2 * l.N), (x0.get k + x k) ^ 2
        - 1 / 2 * ∑ k ∈ range (2 * l.N), x0.get k ^ 2 := by
  unfold centeringGradient at hG
  obtain ⟨_, -, hG⟩ := bind_eq_ok.1 hG
  obtain ⟨_, hx0, hG⟩ := bind_eq_ok.1 hG
  have hx0 := require_eq_ok.1 hx0
  rw [hH, ok_bind] at hG
  obtain ⟨-, G2⟩ := Mat.mulVec?_eq_ok hG
  unfold centeringHessian at hH
  obtain ⟨-, -, -, -, rfl⟩ := Mat.setBlock?_eq_ok hH
  refine ⟨hx0, rfl, rfl, by rw [G2]; rfl, fun x => ?_⟩
  have key : ∀ (y : ℕ → K) i, i < 2 * l.N + 2 * s.M →
      mv { rows := (Mat.one (2 * l.N + 2 * s.M) : Mat K).rows
           cols := (Mat.one (2 * l.N + 2 * s.M) : Mat K).cols
           get := fun i j => if (2 * l.N ≤ i ∧ i < 2 * l.N + 2 * s.M) ∧
            (2 * l.N ≤ j ∧ j < 2 * l.N + 2 * s.M) then
            (Mat.zero (2 * s.M) (2 * s.M) : Mat K).get (i - 2 * l.N) (j - 2 * l.N)
            else (Mat.one (2 * l.N + 2 * s.M) : Mat K).get i j } y i
        = if i < 2 * l.N then y i else 0 := by
    intro y i hi
    simp only [mv, Mat.one, Mat.zero]
    rw [sum_eq_single i]
    · by_cases h : i < 2 * l.N
      · rw [if_neg (by omega), if_pos rfl, one_mul, if_pos h]
      · rw [if_pos (by omega), if_neg h, zero_mul]
    · intro j hj hji
      have := mem_range.1 hj
      split
      · exact zero_mul _
      · rw [if_neg (Ne.symm hji), zero_mul]
    · intro h; exact absurd (mem_range.2 hi) h
  have e : ∀ (y z : ℕ → K), ∑ i ∈ range (2 * l.N + 2 * s.M), (if i < 2 * l.N then y i else 0) * z i
      = ∑ i ∈ range (2 * l.N), y i * z i := by
    intro y z
    rw [sum_range_add]
    refine (congrArg₂ (· + ·) (sum_congr rfl fun j hj => ?_) (sum_eq_zero fun j hj => ?_)).trans
      (add_zero _)
    · rw [if_pos (mem_range.1 hj)]
    · rw [if_neg (by omega), zero_mul]
  have e1 : ∀ z, dot (2 * l.N + 2 * s.M) G.get z = ∑ i ∈ range (2 * l.N), x0.get i * z i := by
    intro z
    rw [← e]
    refine sum_congr rfl fun i hi => ?_
    rw [← key _ _ (mem_range.1 hi), G2]
    rfl
  rw [e1]
  have e2 := e x x
  rw [dot_congr (key x) (fun _ _ => rfl), dot, e2, mul_sum, mul_sum, mul_sum, ← sum_add_distrib,
    ← sum_sub_distrib]
  exact sum_congr rfl fun k _ => by ring

end Objectives

end MPC
