import Verif.Lemmas.Inverse
import Verif.Lemmas.Deriv

/-!
# Properties C01–C09: prediction matrices and state update (`/repo/src/tools.cpp`)
-/

set_option linter.unusedSectionVars false

namespace MPC

open Finset

variable {K : Type} [Field K] [LinearOrder K] [IsStrictOrderedRing K]

/-- Simulating the horizon with the code's own `updateState`: jerk `X 0` for `S`, then `X 1, …`
for `T` each. -/
def simulate (S T : K) (x : State3 K) (X : ℕ → K) : ℕ → Res (State3 K)
  | 0 => updateState (X 0) S x
  | i + 1 => do updateState (X (i + 1)) T (← simulate S T x X i)

/-- The code's `updateState` is the exact solution of `p''' = jerk`. -/
theorem C06_updateState_exact (j t : K) (ht : 0 < t) (s : State3 K) :
    updateState j t s = .ok (Spec.cubic s j t) := by
  unfold updateState
  rw [require_pos ht]
  simp only [ok_bind, res_pure, stateStep, Spec.cubic, Except.ok.injEq, State3.mk.injEq]
  refine ⟨by ring, by ring, trivial⟩

theorem simulate_eq (S T : K) (hS : 0 < S) (hT : 0 < T) (x : State3 K) (X : ℕ → K) (i : ℕ) :
    simulate S T x X i = .ok (Spec.jerkTrajectory S T x X i) := by
  induction i with
  | zero => exact C06_updateState_exact _ _ hS _
  | succ i ih =>
    simp only [simulate, ih, ok_bind, Spec.jerkTrajectory]
    exact C06_updateState_exact _ _ hT _

/-! ### C01–C03 -/

/-- **C01.** Predicted positions are the positions reached by `updateState`. -/
theorem C01_position_prediction (S T : K) (hS : 0 < S) (hT : 0 < T) (N : ℕ) (hN : 0 < N)
    (x : State3 K) (X : Vec K) (hX : X.size = N) :
    ∃ d y, computePosDynamic S T N = .ok d ∧ d.predict X x.toVec = .ok y ∧ y.size = N ∧
      ∀ i < N, ∃ s, simulate S T x X.get i = .ok s ∧ y.get i = s.p := by
  refine ⟨_, _, computePosDynamic_ok hS hT hN, predict_ok hX.symm rfl rfl rfl, rfl, ?_⟩
  intro i hi
  refine ⟨_, simulate_eq S T hS hT x X.get i, ?_⟩
  simp only [posDyn, hX, State3.toVec]
  rw [traj_p, sum_lower hi (posU S T i) X.get (fun j hj => posU_upper S T hj)]
  simp [posS, sum_range_succ (n := 2), sum_range_succ (n := 1)]
  ring

/-- **C02.** Predicted velocities are the velocities reached by `updateState`. -/
theorem C02_velocity_prediction (S T : K) (hS : 0 < S) (hT : 0 < T) (N : ℕ) (hN : 0 < N)
    (x : State3 K) (X : Vec K) (hX : X.size = N) :
    ∃ d y, computeVelDynamic S T N = .ok d ∧ d.predict X x.toVec = .ok y ∧ y.size = N ∧
      ∀ i < N, ∃ s, simulate S T x X.get i = .ok s ∧ y.get i = s.v := by
  refine ⟨_, _, computeVelDynamic_ok hS hT hN, predict_ok hX.symm rfl rfl rfl, rfl, ?_⟩
  intro i hi
  refine ⟨_, simulate_eq S T hS hT x X.get i, ?_⟩
  simp only [velDyn, hX, State3.toVec]
  rw [traj_v, sum_lower hi (velU S T i) X.get (fun j hj => velU_upper S T hj)]
  simp [velS, sum_range_succ (n := 2), sum_range_succ (n := 1)]
  ring

/-- **C03.** Predicted accelerations are the accelerations reached by `updateState`. -/
theorem C03_acceleration_prediction (S T : K) (hS : 0 < S) (hT : 0 < T) (N : ℕ) (hN : 0 < N)
    (x : State3 K) (X : Vec K) (hX : X.size = N) :
    ∃ d y, computeAccDynamic S T N = .ok d ∧ d.predict X x.toVec = .ok y ∧ y.size = N ∧
      ∀ i < N, ∃ s, simulate S T x X.get i = .ok s ∧ y.get i = s.a := by
  refine ⟨_, _, computeAccDynamic_ok hS.ne' hT hN, predict_ok hX.symm rfl rfl rfl, rfl, ?_⟩
  intro i hi
  refine ⟨_, simulate_eq S T hS hT x X.get i, ?_⟩
  simp only [accDyn, hX, State3.toVec]
  rw [traj_a, sum_lower hi (accU S T i) X.get (fun j hj => accU_upper S T hj)]
  simp [accS, sum_range_succ (n := 2), sum_range_succ (n := 1)]
  ring

/-! ### C04 -/

/-- **C04.** Predicted CoP obeys the inverted pendulum law on the simulated CoM motion. -/
theorem C04_cop_prediction (S T : K) (hS : 0 < S) (hT : 0 < T) (N : ℕ) (hN : 0 < N)
    (h gx gz mass total : K) (hg : EPS < |gz|) (hm : mass ≤ total) (ht : EPS < total)
    (hm0 : 0 ≤ mass) (x : State3 K) (X : Vec K) (hX : X.size = N) :
    ∃ d y, computeCopDynamic S T N h gx gz mass total = .ok d ∧
      d.predict X x.toVec = .ok y ∧ y.size = N ∧
      ∀ i < N, ∃ s, simulate S T x X.get i = .ok s ∧
        y.get i = Spec.copOf (mass / total) h gx gz s := by
  refine ⟨_, _, computeCopDynamic_ok hS hT hN hg hm ht hm0, predict_ok hX.symm rfl rfl rfl,
    rfl, ?_⟩
  intro i hi
  refine ⟨_, simulate_eq S T hS hT x X.get i, ?_⟩
  generalize mass / total = m
  simp only [copDyn, hX, State3.toVec]
  rw [sum_lower hi (copU S T h gz m i) X.get (fun j hj => copU_upper S T h gz m hj)]
  have e2 : ∑ j ∈ range (i + 1), copU S T h gz m i j * X.get j
      = m * (∑ j ∈ range (i + 1), posU S T i j * X.get j
          - h / gz * ∑ j ∈ range (i + 1), accU S T i j * X.get j) := by
    rw [mul_sum (a := h / gz), ← sum_sub_distrib, mul_sum]
    exact sum_congr rfl fun j _ => by unfold copU; ring
  rw [e2]
  simp only [Spec.copOf, traj_p, traj_a]
  simp [copS, sum_range_succ (n := 2), sum_range_succ (n := 1)]
  ring

/-! ### C05 -/

/-- The state vector `(angle, angular velocity)`. -/
def state2Vec (s : Spec.State2 K) : Vec K := ⟨2, fun i => if i = 0 then s.q else s.w⟩

/-- **C05.** Second order predictions are exact. -/
theorem C05_order2_prediction (S T : K) (hS : 0 < S) (hT : 0 < T) (N : ℕ) (hN : 0 < N)
    (x : Spec.State2 K) (X : Vec K) (hX : X.size = N) :
    (∃ d y, computeOrder2PosDynamic S T N = .ok d ∧ d.predict X (state2Vec x) = .ok y ∧
      y.size = N ∧ ∀ i < N, y.get i = (Spec.accTrajectory S T x X.get i).q) ∧
    (∃ d y, computeOrder2VelDynamic S T N = .ok d ∧ d.predict X (state2Vec x) = .ok y ∧
      y.size = N ∧ ∀ i < N, y.get i = (Spec.accTrajectory S T x X.get i).w) := by
  constructor
  · refine ⟨_, _, computeOrder2PosDynamic_ok hS hT hN, predict_ok hX.symm rfl rfl rfl, rfl, ?_⟩
    intro i hi
    simp only [pos2Dyn, hX, state2Vec]
    rw [traj2_q, sum_lower hi (velU S T i) X.get (fun j hj => velU_upper S T hj)]
    simp [sum_range_succ (n := 1)]
    ring
  · refine ⟨_, _, computeOrder2VelDynamic_ok hS.ne' hT hN, predict_ok hX.symm rfl rfl rfl, rfl, ?_⟩
    intro i hi
    simp only [vel2Dyn, hX, state2Vec]
    rw [traj2_w, sum_lower hi (accU S T i) X.get (fun j hj => accU_upper S T hj)]
    simp [sum_range_succ (n := 1)]
    ring

/-! Non-vacuity of C01–C05: a horizon of 10 samples of 0.1 s, first interval 0.05 s. -/

example : ∃ d y, computePosDynamic (1 / 20 : ℚ) (1 / 10) 10 = .ok d ∧
    d.predict ⟨10, fun i => (i : ℚ)⟩ (State3.toVec ⟨1, 2, 3⟩) = .ok y ∧ y.size = 10 ∧
      ∀ i < 10, ∃ s, simulate (1 / 20) (1 / 10) ⟨1, 2, 3⟩ (fun i => (i : ℚ)) i = .ok s ∧
        y.get i = s.p :=
  C01_position_prediction _ _ (by norm_num) (by norm_num) 10 (by norm_num) _ ⟨10, fun i => (i : ℚ)⟩ rfl

/-- A robot of 40 kg whose base weighs 30 kg, CoM at 0.8 m, gravity with a horizontal part. -/
example : ∃ d y, computeCopDynamic (1 / 20 : ℚ) (1 / 10) 10 (4 / 5) 1 (981 / 100) 30 40 = .ok d ∧
    d.predict ⟨10, fun i => (i : ℚ)⟩ (State3.toVec ⟨1, 2, 3⟩) = .ok y ∧ y.size = 10 ∧
      ∀ i < 10, ∃ s, simulate (1 / 20) (1 / 10) ⟨1, 2, 3⟩ (fun i => (i : ℚ)) i = .ok s ∧
        y.get i = Spec.copOf (30 / 40) (4 / 5) 1 (981 / 100) s :=
  C04_cop_prediction _ _ (by norm_num) (by norm_num) 10 (by norm_num) _ _ _ _ _
    (by unfold EPS; norm_num [abs_of_pos]) (by norm_num) (by unfold EPS; norm_num) (by norm_num)
    _ ⟨10, fun i => (i : ℚ)⟩ rfl

/-- The simulated trajectory is a genuine computation: three samples of unit jerk from rest. -/
example : simulate (1 : ℚ) 1 ⟨0, 0, 0⟩ (fun _ => 1) 2 = .ok ⟨9 / 2, 9 / 2, 3⟩ := by
  norm_num [simulate, updateState, require, stateStep]

/-! ### C06 -/

/-- **C06.** Cutting an interval in two does not change the result. -/
theorem C06_updateState_split (j a b : K) (ha : 0 < a) (hb : 0 < b) (s : State3 K) :
    (do updateState j b (← updateState j a s)) = updateState j (a + b) s := by
  rw [C06_updateState_exact j a ha, C06_updateState_exact j (a + b) (by positivity)]
  simp only [ok_bind]
  rw [C06_updateState_exact j b hb]
  simp only [Spec.cubic, Except.ok.injEq, State3.mk.injEq]
  refine ⟨by ring, by ring, by ring⟩

/-- `n` successive updates of duration `dt`. -/
def updateTimes (j dt : K) : ℕ → State3 K → Res (State3 K)
  | 0, s => .ok s
  | n + 1, s => do updateState j dt (← updateTimes j dt n s)

/-- **C06.** `n` updates of period `T/n` give the state of one update of period `T`. -/
theorem C06_updateState_subdivide (j T : K) (hT : 0 < T) (n : ℕ) (hn : 0 < n) (s : State3 K) :
    updateTimes j (T / n) n s = updateState j T s := by
  have hn' : (0 : K) < n := by exact_mod_cast hn
  have key : ∀ k : ℕ, 0 < k → updateTimes j (T / n) k s = updateState j (k * (T / n)) s := by
    intro k hk
    induction k with
    | zero => omega
    | succ k ih =>
      rcases Nat.eq_zero_or_pos k with rfl | hk'
      · simp [updateTimes]
      · have hk'' : (0 : K) < k := by exact_mod_cast hk'
        rw [updateTimes, ih hk', C06_updateState_split _ _ _ (by positivity) (by positivity)]
        congr 1; push_cast; ring
  rw [key n hn]
  congr 1
  field_simp

/-- **C06.** The components of the updated state are a cubic and its derivatives in time. -/
theorem C06_updateState_derivatives (j : ℝ) (s : State3 ℝ) (t : ℝ) :
    HasDerivAt (fun t => (stateStep j t s).p) (stateStep j t s).v t ∧
    HasDerivAt (fun t => (stateStep j t s).v) (stateStep j t s).a t ∧
    HasDerivAt (fun t => (stateStep j t s).a) j t := by
  refine ⟨?_, ?_, ?_⟩
  · exact hasDerivAt_of_cubic s.p s.v (1 / 2 * s.a) (j / 6)
      (fun x => by simp [stateStep]; ring) (by simp [stateStep]; ring)
  · exact hasDerivAt_of_cubic s.v s.a (1 / 2 * j) 0
      (fun x => by simp [stateStep]; ring) (by simp [stateStep])
  · exact hasDerivAt_of_cubic s.a j 0 0 (fun x => by simp [stateStep]) (by simp)

example : updateTimes (2 : ℚ) (3 / 4) 4 ⟨1, 0, 0⟩ = updateState 2 3 ⟨1, 0, 0⟩ := by
  have := C06_updateState_subdivide (2 : ℚ) 3 (by norm_num) 4 (by norm_num) ⟨1, 0, 0⟩
  simpa using this

/-! ### C07 -/

/-- **C07 is violated** when the first interval is shorter than the sampling period: the entry
`(1,0)` of the stored inverse is `-1/S` instead of `-1/T` (`/repo/src/tools.cpp:179`). For every
admissible `S ≠ T` and every horizon of two samples or more the stored matrix is not an inverse. -/
theorem C07_acc_inverse_wrong (S T : K) (hS : 0 < S) (hT : 0 < T) (hne : S ≠ T) (N : ℕ)
    (hN : 2 ≤ N) :
    ∃ d B, computeAccDynamic S T N = .ok d ∧ d.Uinv = some B ∧ ¬ Spec.IsInverse N d.U B := by
  refine ⟨_, _, computeAccDynamic_ok hS.ne' hT (by omega), rfl, ?_⟩
  rintro ⟨-, -, -, -, ⟨P, hP, hs⟩, -⟩
  rw [Mat.mul?_ok rfl] at hP
  simp only [Except.ok.injEq] at hP
  subst hP
  have h : ∑ k ∈ range N, accU S T 1 k * (bidiagonalInverse S T N).get k 0 = _ :=
    hs.2.2 1 (show 1 < N by omega) 0 (show 0 < N by omega)
  rw [sum_two (j := 0) _ (by omega) (by
    intro k h1 h2
    have h2' : k ≠ 1 := h2
    simp [bidiagonalInverse, h1, h2'])] at h
  have hN' : 0 + 1 < N := by omega
  simp [accU, bidiagonalInverse, Mat.one, hN', hS.ne'] at h
  apply hne
  field_simp at h
  linarith

/-- The witness is not vacuous: half a sampling period left, horizon of two samples. -/
example : ∃ d B, computeAccDynamic (1 : ℚ) 2 2 = .ok d ∧ d.Uinv = some B ∧
    ¬ Spec.IsInverse 2 d.U B :=
  C07_acc_inverse_wrong 1 2 (by norm_num) (by norm_num) (by norm_num) 2 le_rfl

/-- **C07 (partial: `S = T`).** The stored inverses of the acceleration and of the angular
velocity dynamics are two-sided inverses of `U`, for every horizon, when the first interval is a
full sampling period. Missing: the general `S`, for which the claim is false
(`C07_acc_inverse_wrong`). -/
theorem C07_acc_inverse_partial (T : K) (hT : 0 < T) (N : ℕ) (hN : 0 < N) :
    (∃ d B BT, computeAccDynamic T T N = .ok d ∧ d.Uinv = some B ∧ Spec.IsInverse N d.U B ∧
      d.UTinv = some BT ∧ BT.Same B.transpose ∧ Spec.IsInverse N d.UT BT) ∧
    (∃ d B BT, computeOrder2VelDynamic T T N = .ok d ∧ d.Uinv = some B ∧ Spec.IsInverse N d.U B ∧
      d.UTinv = some BT ∧ BT.Same B.transpose ∧ Spec.IsInverse N d.UT BT) := by
  have hI := bidiagonal_isInverse T hT.ne' N
  have hIT : Spec.IsInverse N (Mat.transpose ⟨N, N, accU T T⟩) (bidiagonalInverse T T N).transpose := by
    obtain ⟨-, -, -, -, ⟨P, hP, h1⟩, ⟨Q, hQ, h2⟩⟩ := hI
    refine ⟨rfl, rfl, rfl, rfl, ?_, ?_⟩
    · refine ⟨_, Mat.mul?_ok rfl, rfl, rfl, ?_⟩
      intro i hi j hj
      rw [Mat.mul?_ok rfl] at hQ
      simp only [Except.ok.injEq] at hQ
      subst hQ
      have := h2.2.2 j hj i hi
      simp only [Mat.one] at this ⊢
      rw [show (if i = j then (1 : K) else 0) = if j = i then 1 else 0 by simp [eq_comm]]
      rw [← this]
      simp only [Mat.transpose]
      exact sum_congr rfl fun k _ => mul_comm _ _
    · refine ⟨_, Mat.mul?_ok rfl, rfl, rfl, ?_⟩
      intro i hi j hj
      rw [Mat.mul?_ok rfl] at hP
      simp only [Except.ok.injEq] at hP
      subst hP
      have := h1.2.2 j hj i hi
      simp only [Mat.one] at this ⊢
      rw [show (if i = j then (1 : K) else 0) = if j = i then 1 else 0 by simp [eq_comm]]
      rw [← this]
      simp only [Mat.transpose]
      exact sum_congr rfl fun k _ => mul_comm _ _
  constructor
  · exact ⟨_, _, _, computeAccDynamic_ok hT.ne' hT hN, rfl, hI, rfl,
      ⟨rfl, rfl, fun _ _ _ _ => rfl⟩, hIT⟩
  · exact ⟨_, _, _, computeOrder2VelDynamic_ok hT.ne' hT hN, rfl, hI, rfl,
      ⟨rfl, rfl, fun _ _ _ _ => rfl⟩, hIT⟩

/-- Hypotheses of the partial theorem are met by the library's default horizon. -/
example : ∃ d B BT, computeAccDynamic (1 / 10 : ℚ) (1 / 10) 10 = .ok d ∧ d.Uinv = some B ∧
    Spec.IsInverse 10 d.U B ∧ d.UTinv = some BT ∧ BT.Same B.transpose ∧
    Spec.IsInverse 10 d.UT BT :=
  (C07_acc_inverse_partial (1 / 10) (by norm_num) 10 (by norm_num)).1

/-! ### C08 -/

/-- The predicted value at sample `i` only depends on the jerks of the samples `0..i`. -/
def Causal (N : ℕ) (d : LinearDynamic K) : Prop :=
  ∀ (X X' x y y' : Vec K), X.size = N → X'.size = N →
    d.predict X x = .ok y → d.predict X' x = .ok y' →
    ∀ i < N, (∀ j ≤ i, X.get j = X'.get j) → y.get i = y'.get i

theorem causal_of_lower {N : ℕ} {d : LinearDynamic K} (hc : d.U.cols = N)
    (h : ∀ i j, i < j → d.U.get i j = 0) : Causal N d := by
  intro X X' x y y' hX hX' hy hy' i hi hij
  simp only [LinearDynamic.predict, Mat.mulVec?, Vec.add?, bind_eq_ok, requireSize_eq_ok,
    res_pure, Except.ok.injEq] at hy hy'
  obtain ⟨a, ⟨-, -, rfl⟩, b, ⟨-, -, rfl⟩, c, ⟨-, -, rfl⟩, -, -, rfl⟩ := hy
  obtain ⟨a, ⟨-, -, rfl⟩, b, ⟨-, -, rfl⟩, c, ⟨-, -, rfl⟩, -, -, rfl⟩ := hy'
  simp only [hc]
  rw [sum_lower hi (d.U.get i) X.get (h i), sum_lower hi (d.U.get i) X'.get (h i)]
  have : ∑ j ∈ range (i + 1), d.U.get i j * X.get j = ∑ j ∈ range (i + 1), d.U.get i j * X'.get j :=
    sum_congr rfl fun j hj => by rw [hij j (by simp at hj; omega)]
  rw [this]

/-- **C08.** Every dynamic that the library computes is causal, and its stored `UT` is the
transpose of its stored `U`. No hypothesis on the parameters: whenever the call returns. -/
theorem C08_causal_transpose (S T : K) (N : ℕ) (h gx gz mass total : K) (d : LinearDynamic K)
    (hd : computePosDynamic S T N = .ok d ∨ computeVelDynamic S T N = .ok d ∨
      computeAccDynamic S T N = .ok d ∨ computeCopDynamic S T N h gx gz mass total = .ok d ∨
      computeOrder2PosDynamic S T N = .ok d ∨ computeOrder2VelDynamic S T N = .ok d ∨
      computeJerkDynamic N = d) :
    Causal N d ∧ d.UT.Same d.U.transpose := by
  rcases hd with hd | hd | hd | hd | hd | hd | hd
  · simp only [computePosDynamic, bind_eq_ok, require_eq_ok, res_pure, Except.ok.injEq] at hd
    obtain ⟨_, h1, _, h2, _, h3, rfl⟩ := hd
    exact ⟨causal_of_lower rfl fun i j hij => posU_upper S T hij, rfl, rfl, fun _ _ _ _ => rfl⟩
  · simp only [computeVelDynamic, bind_eq_ok, require_eq_ok, res_pure, Except.ok.injEq] at hd
    obtain ⟨_, h1, _, h2, _, h3, rfl⟩ := hd
    exact ⟨causal_of_lower rfl fun i j hij => velU_upper S T hij, rfl, rfl, fun _ _ _ _ => rfl⟩
  · simp only [computeAccDynamic, bind_eq_ok, require_eq_ok, res_pure, Except.ok.injEq] at hd
    obtain ⟨_, h1, _, h2, _, h3, rfl⟩ := hd
    exact ⟨causal_of_lower rfl fun i j hij => accU_upper S T hij, rfl, rfl, fun _ _ _ _ => rfl⟩
  · have hd' := hd
    simp only [computeCopDynamic, bind_eq_ok, require_eq_ok, res_pure, Except.ok.injEq] at hd'
    obtain ⟨_, h1, _, h2, _, h3, _, h4, _, h5, _, h6, _, h7, -⟩ := hd'
    rw [computeCopDynamic_ok h1 h2 h3 h4 h5 h6 h7] at hd
    simp only [Except.ok.injEq] at hd
    subst hd
    exact ⟨causal_of_lower rfl fun i j hij => copU_upper S T _ _ _ hij, rfl, rfl,
      fun _ _ _ _ => rfl⟩
  · simp only [computeOrder2PosDynamic, bind_eq_ok, require_eq_ok, res_pure, Except.ok.injEq] at hd
    obtain ⟨_, h1, _, h2, _, h3, rfl⟩ := hd
    exact ⟨causal_of_lower rfl fun i j hij => velU_upper S T hij, rfl, rfl, fun _ _ _ _ => rfl⟩
  · simp only [computeOrder2VelDynamic, bind_eq_ok, require_eq_ok, res_pure, Except.ok.injEq] at hd
    obtain ⟨_, h1, _, h2, _, h3, rfl⟩ := hd
    exact ⟨causal_of_lower rfl fun i j hij => accU_upper S T hij, rfl, rfl, fun _ _ _ _ => rfl⟩
  · subst hd
    refine ⟨causal_of_lower rfl fun i j hij => ?_, rfl, rfl, fun i _ j _ => ?_⟩
    · have : i ≠ j := by omega
      simp [computeJerkDynamic, Mat.one, this]
    · simp [computeJerkDynamic, Mat.one, Mat.transpose, eq_comm]

/-- The hypothesis of C08 holds for concrete parameters. -/
example : ∃ d, computeCopDynamic (1 / 20 : ℚ) (1 / 10) 10 (4 / 5) 0 (981 / 100) 30 40 = .ok d ∧
    Causal 10 d ∧ d.UT.Same d.U.transpose := by
  have h := computeCopDynamic_ok (S := (1 / 20 : ℚ)) (T := 1 / 10) (N := 10) (h := 4 / 5) (gx := 0)
    (gz := 981 / 100) (mass := 30) (total := 40) (by norm_num) (by norm_num) (by norm_num)
    (by unfold EPS; norm_num [abs_of_pos]) (by norm_num) (by unfold EPS; norm_num) (by norm_num)
  exact ⟨_, h, C08_causal_transpose (1 / 20) (1 / 10) 10 (4 / 5) 0 (981 / 100) 30 40 _
    (.inr (.inr (.inr (.inl h))))⟩

/-! ### C09 -/

/-- **C09 is violated**: with a sampling period of 100 (accepted by the asserts) the inverse of
the position matrix is `6e-6` and is erased, so the stored "inverse" is the zero matrix. -/
theorem C09_position_inverse_erased :
    ∃ (S T : ℚ) (N : ℕ) (d : LinearDynamic ℚ) (B : Mat ℚ), 0 < S ∧ S ≤ T ∧ 0 < N ∧
      computePosDynamic S T N = .ok d ∧ d.Uinv = some B ∧
      (∀ i < N, ∀ j < N, B.get i j = 0) ∧ ¬ Spec.IsInverse N d.U B := by
  obtain ⟨B, hB⟩ := inverse_isSome (⟨1, 1, posU 100 100⟩ : Mat ℚ)
    (fun i j h => posU_upper _ _ h) (by intro i hi; have : i = 0 := by simpa using hi
                                        subst this; norm_num [posU])
  have hI := inverse_spec _ B rfl hB
  obtain ⟨-, -, hBr, hBc, ⟨P, hP, hPs⟩, -⟩ := hI
  rw [Mat.mul?_ok (by rw [hBr])] at hP
  simp only [Except.ok.injEq] at hP
  subst hP
  have h0 := hPs.2.2 0 (by norm_num) 0 (by simp [hBc])
  simp [Mat.one, posU] at h0
  have hval : |B.get 0 0| < EPS := by
    have : B.get 0 0 = 6 / 1000000 := by linarith
    rw [this]; unfold EPS; norm_num [abs_of_pos]
  have hz := inverseLU_eq _ B EPS hB
  refine ⟨100, 100, 1, _, _, by norm_num, le_rfl, by norm_num,
    computePosDynamic_ok (by norm_num) (by norm_num) (by norm_num), hz, ?_, ?_⟩
  · intro i hi j hj
    obtain rfl : i = 0 := by omega
    obtain rfl : j = 0 := by omega
    simp [hval]
  · rintro ⟨-, -, hr, hc, ⟨P, hP, hs⟩, -⟩
    simp only at hr hc
    rw [Mat.mul?_ok (by simp [posDyn, hr])] at hP
    simp only [Except.ok.injEq] at hP
    subst hP
    have := hs.2.2 0 (by simp [posDyn]) 0 (by simp [hc])
    simp [hval, Mat.one, posDyn] at this

/-- **C09 is violated**: the CoP matrix is singular when `S² g_z = 6 h`, so its stored inverse is
unspecified (division by zero), although every assertion holds. -/
theorem C09_cop_inverse_singular (S T : K) (hS : 0 < S) (hT : 0 < T) (N : ℕ) (hN : 0 < N)
    (h gx gz mass total : K) (hg : EPS < |gz|) (hm : mass ≤ total) (ht : EPS < total)
    (hm0 : 0 ≤ mass) (hsing : S ^ 2 * gz = 6 * h) :
    ∃ d, computeCopDynamic S T N h gx gz mass total = .ok d ∧ d.Uinv = none := by
  refine ⟨_, computeCopDynamic_ok hS hT hN hg hm ht hm0, ?_⟩
  have hgz : gz ≠ 0 := by
    rintro rfl
    simp at hg
    exact absurd (EPS_pos (K := K)) (not_lt.2 hg.le)
  simp only [copDyn, inverseLU, Mat.inverse]
  rw [if_pos]
  · rfl
  · rw [det_lower _ _ (fun i j hij => copU_upper _ _ _ _ _ hij)]
    apply Finset.prod_eq_zero (Finset.mem_univ (⟨0, hN⟩ : Fin N))
    simp [copU, posU, accU]
    right
    field_simp
    rw [hsing]
    ring

/-- The singular case with Earth gravity: height `0.1635`, sampling `T = √0.1 …` is replaced by the
rational `S = 1/10`, height `0.01635`. -/
example : ∃ d, computeCopDynamic (1 / 10 : ℚ) (1 / 10) 10 (1635 / 100000) 0 (981 / 100) 30 40 = .ok d
    ∧ d.Uinv = none :=
  C09_cop_inverse_singular _ _ (by norm_num) (by norm_num) 10 (by norm_num) _ _ _ _ _
    (by unfold EPS; norm_num [abs_of_pos]) (by norm_num) (by unfold EPS; norm_num) (by norm_num)
    (by norm_num)

/-- What the code guarantees about a stored inverse: `U` has a true inverse `B`; the stored matrix
is `B` up to `EPS` per entry, and equals `B` wherever `|B| ≥ EPS`; `UTinv` is its transpose. -/
def StoredInverse (N : ℕ) (d : LinearDynamic K) : Prop :=
  ∃ B Bs, Spec.IsInverse N d.U B ∧ d.Uinv = some Bs ∧ Bs.rows = N ∧ Bs.cols = N ∧
    (∀ i j, |Bs.get i j - B.get i j| < EPS) ∧
    (∀ i j, EPS ≤ |B.get i j| → Bs.get i j = B.get i j) ∧
    (∀ i j, |B.get i j| < EPS → Bs.get i j = 0) ∧
    (∃ BT, d.UTinv = some BT ∧ BT.Same Bs.transpose)

theorem storedInverse_of_lower {N : ℕ} {d : LinearDynamic K} (hr : d.U.rows = N)
    (hc : d.U.cols = N) (h : ∀ i j, i < j → d.U.get i j = 0) (hd : ∀ i < N, d.U.get i i ≠ 0)
    (h1 : d.Uinv = inverseLU d.U EPS) (h2 : d.UTinv = (inverseLU d.U EPS).map Mat.transpose) :
    StoredInverse N d := by
  obtain ⟨B, hB⟩ := inverse_isSome d.U h (by rw [hr]; exact hd)
  have hI := inverse_spec d.U B (by rw [hr, hc]) hB
  rw [hr] at hI
  have hLU := inverseLU_eq _ B EPS hB
  refine ⟨B, _, hI, h1.trans hLU, hI.2.2.1, hI.2.2.2.1, ?_, ?_, ?_, _, ?_,
    rfl, rfl, fun _ _ _ _ => rfl⟩
  · intro i j
    dsimp only
    split_ifs with h'
    · simpa using h'
    · simpa using EPS_pos
  · intro i j h'
    dsimp only
    rw [if_neg (not_lt.2 h')]
  · intro i j h'
    dsimp only
    rw [if_pos h']
  · rw [h2, hLU]; rfl

/-- **C09 (partial).** The position and velocity dynamics always have a stored inverse in the sense
of `StoredInverse`; the CoP dynamics has one as soon as the robot has a mass and no sampling
interval is singular. Missing: exactness, which is false (`C09_position_inverse_erased`). -/
theorem C09_stored_inverse_partial (S T : K) (hS : 0 < S) (hT : 0 < T) (N : ℕ) (hN : 0 < N) :
    (∃ d, computePosDynamic S T N = .ok d ∧ StoredInverse N d) ∧
    (∃ d, computeVelDynamic S T N = .ok d ∧ StoredInverse N d) ∧
    (∃ d, computeOrder2PosDynamic S T N = .ok d ∧ StoredInverse N d) ∧
    (∀ h gx gz mass total : K, EPS < |gz| → mass ≤ total → EPS < total → 0 < mass →
      S ^ 2 * gz ≠ 6 * h → T ^ 2 * gz ≠ 6 * h →
      ∃ d, computeCopDynamic S T N h gx gz mass total = .ok d ∧ StoredInverse N d) := by
  refine ⟨⟨_, computePosDynamic_ok hS hT hN, ?_⟩, ⟨_, computeVelDynamic_ok hS hT hN, ?_⟩,
    ⟨_, computeOrder2PosDynamic_ok hS hT hN, ?_⟩, ?_⟩
  · refine storedInverse_of_lower rfl rfl (fun i j hij => posU_upper S T hij) ?_ rfl rfl
    intro i _
    rcases i with _ | i
    · simp [posDyn, posU]; exact hS.ne'
    · simp only [posDyn]; rw [posU_diag]; positivity
  · refine storedInverse_of_lower rfl rfl (fun i j hij => velU_upper S T hij) ?_ rfl rfl
    intro i _
    rcases i with _ | i
    · simp [velDyn, velU]; exact hS.ne'
    · simp only [velDyn]; rw [velU_diag]; positivity
  · refine storedInverse_of_lower rfl rfl (fun i j hij => velU_upper S T hij) ?_ rfl rfl
    intro i _
    rcases i with _ | i
    · simp [pos2Dyn, velU]; exact hS.ne'
    · simp only [pos2Dyn]; rw [velU_diag]; positivity
  · intro h gx gz mass total hg hm ht hm0 hs1 hs2
    have hgz : gz ≠ 0 := by
      rintro rfl
      simp at hg
      exact absurd (EPS_pos (K := K)) (not_lt.2 hg.le)
    have hmm : mass / total ≠ 0 := (div_pos hm0 (lt_of_lt_of_le hm0 hm)).ne'
    refine ⟨_, computeCopDynamic_ok hS hT hN hg hm ht hm0.le, ?_⟩
    refine storedInverse_of_lower rfl rfl (fun i j hij => copU_upper _ _ _ _ _ hij) ?_ rfl rfl
    intro i _
    rcases i with _ | i
    · simp only [copDyn, copU]
      refine mul_ne_zero hmm ?_
      simp [posU, accU]
      intro h0
      apply hs1
      have := hS.ne'
      field_simp at h0
      rw [mul_zero] at h0
      have := (mul_eq_zero.1 h0).resolve_left this
      linarith
    · simp only [copDyn, copU]
      rw [posU_diag, accU_diag]
      refine mul_ne_zero hmm ?_
      intro h0
      apply hs2
      have := hT.ne'
      field_simp at h0
      rw [mul_zero] at h0
      have := (mul_eq_zero.1 h0).resolve_left this
      linarith

/-- **C09 (partial), consequence for the user.** Take any requested trajectory `Y`, solve for the
jerk with the stored inverse and predict again: the result is off by at most `EPS` times the sums of
the absolute values of `U` (row) and of the right-hand side; it is exactly `Y` when no entry of the
inverse was erased. -/
theorem C09_roundtrip_partial (N : ℕ) (d : LinearDynamic K) (hd : StoredInverse N d)
    (r : Vec K) (hr : r.size = N) :
    ∃ Bs X y, d.Uinv = some Bs ∧ Bs.mulVec? r = .ok X ∧ d.U.mulVec? X = .ok y ∧ y.size = N ∧
      ∀ i < N, |y.get i - r.get i| ≤
        EPS * (∑ k ∈ range N, |d.U.get i k|) * ∑ j ∈ range N, |r.get j| := by
  obtain ⟨B, Bs, ⟨hUr, hUc, hBr, hBc, ⟨P, hP, hPs⟩, -⟩, hBs, hsr, hsc, hclose, -, -, -⟩ := hd
  refine ⟨Bs, _, _, hBs, Mat.mulVec?_ok (by rw [hsc, hr]), Mat.mulVec?_ok (by rw [hUc, hsr]),
    hUr, ?_⟩
  intro i hi
  rw [Mat.mul?_ok (by rw [hUc, hBr])] at hP
  simp only [Except.ok.injEq] at hP
  subst hP
  have hPs' : ∀ j < N, ∑ k ∈ range N, d.U.get i k * B.get k j = if i = j then 1 else 0 := by
    intro j hj
    have := hPs.2.2 i (by simpa [hUr] using hi) j (by simpa [hBc] using hj)
    simpa [Mat.one, hUc] using this
  simp only [hUc, hsc]
  have e1 : r.get i = ∑ k ∈ range N, d.U.get i k * ∑ j ∈ range N, B.get k j * r.get j := by
    simp_rw [mul_sum]
    rw [sum_comm]
    have : ∀ j ∈ range N, ∑ k ∈ range N, d.U.get i k * (B.get k j * r.get j)
        = if i = j then r.get j else 0 := by
      intro j hj
      have h := hPs' j (by simpa using hj)
      calc ∑ k ∈ range N, d.U.get i k * (B.get k j * r.get j)
          = (∑ k ∈ range N, d.U.get i k * B.get k j) * r.get j := by
            rw [sum_mul]; exact sum_congr rfl fun k _ => by ring
        _ = _ := by rw [h]; split_ifs <;> simp
    rw [sum_congr rfl this]
    simp [hi]
  rw [e1, ← sum_sub_distrib]
  calc |∑ k ∈ range N, (d.U.get i k * ∑ j ∈ range N, Bs.get k j * r.get j
        - d.U.get i k * ∑ j ∈ range N, B.get k j * r.get j)|
      ≤ ∑ k ∈ range N, |d.U.get i k| * (EPS * ∑ j ∈ range N, |r.get j|) := by
        refine (abs_sum_le_sum_abs _ _).trans (sum_le_sum fun k _ => ?_)
        rw [← mul_sub, abs_mul, ← sum_sub_distrib]
        refine mul_le_mul_of_nonneg_left ?_ (abs_nonneg _)
        rw [mul_sum]
        refine (abs_sum_le_sum_abs _ _).trans (sum_le_sum fun j _ => ?_)
        rw [← sub_mul, abs_mul]
        exact mul_le_mul_of_nonneg_right (hclose k j).le (abs_nonneg _)
    _ = _ := by rw [← sum_mul]; ring

/-- **C09 (partial), exact case.** If no nonzero entry of the inverse is smaller than `EPS`, the
stored matrix is the inverse of `U`. -/
theorem C09_exact_partial (N : ℕ) (d : LinearDynamic K) (hd : StoredInverse N d)
    (hbig : ∀ B, Spec.IsInverse N d.U B → ∀ i < N, ∀ j < N, B.get i j = 0 ∨ EPS ≤ |B.get i j|) :
    ∃ Bs, d.Uinv = some Bs ∧ Spec.IsInverse N d.U Bs := by
  obtain ⟨B, Bs, hI, hBs, hsr, hsc, -, hexact, hzero, -⟩ := hd
  refine ⟨Bs, hBs, ?_⟩
  have hsame : ∀ i < N, ∀ j < N, Bs.get i j = B.get i j := by
    intro i hi j hj
    rcases hbig B hI i hi j hj with h0 | h0
    · rw [hzero i j (by rw [h0]; simpa using EPS_pos), h0]
    · exact hexact i j h0
  obtain ⟨hUr, hUc, hBr, hBc, ⟨P, hP, hPs⟩, ⟨Q, hQ, hQs⟩⟩ := hI
  rw [Mat.mul?_ok (by rw [hUc, hBr])] at hP
  rw [Mat.mul?_ok (by rw [hUr, hBc])] at hQ
  simp only [Except.ok.injEq] at hP hQ
  subst hP hQ
  refine ⟨hUr, hUc, hsr, hsc, ⟨_, Mat.mul?_ok (by rw [hUc, hsr]), hUr, hsc, ?_⟩,
    ⟨_, Mat.mul?_ok (by rw [hUr, hsc]), hsr, hUc, ?_⟩⟩
  · intro i hi j hj
    simp only [hUr, hsc] at hi hj
    rw [← hPs.2.2 i (by simpa [hUr] using hi) j (by simpa [hBc] using hj)]
    simp only [hUc]
    exact sum_congr rfl fun k hk => by rw [hsame k (by simpa using hk) j hj]
  · intro i hi j hj
    simp only [hsr, hUc] at hi hj
    rw [← hQs.2.2 i (by simpa [hBr] using hi) j (by simpa [hUc] using hj)]
    simp only [hsc, hBc]
    exact sum_congr rfl fun k hk => by rw [hsame i hi k (by simpa using hk)]

/-- Concrete CoP parameters satisfy the hypotheses of `C09_stored_inverse_partial`. -/
example : ∃ d, computeCopDynamic (1 / 20 : ℚ) (1 / 10) 10 (4 / 5) 0 (981 / 100) 30 40 = .ok d ∧
    StoredInverse 10 d :=
  (C09_stored_inverse_partial (1 / 20) (1 / 10) (by norm_num) (by norm_num) 10
    (by norm_num)).2.2.2 _ _ _ _ _ (by unfold EPS; norm_num [abs_of_pos]) (by norm_num)
    (by unfold EPS; norm_num) (by norm_num) (by norm_num) (by norm_num)

/-- Concrete case of the exact inverse: position dynamics, one sample of 1 s (`U = 1/6`). -/
example : ∃ d Bs, computePosDynamic (1 : ℚ) 1 1 = .ok d ∧ d.Uinv = some Bs ∧
    Spec.IsInverse 1 d.U Bs := by
  obtain ⟨d, hd, hs⟩ := (C09_stored_inverse_partial (1 : ℚ) 1 (by norm_num) (by norm_num) 1
    (by norm_num)).1
  have hd' := hd
  rw [computePosDynamic_ok (by norm_num) (by norm_num) (by norm_num)] at hd'
  simp only [Except.ok.injEq] at hd'
  obtain ⟨Bs, h1, h2⟩ := C09_exact_partial 1 d hs (by
    rintro B ⟨-, -, hr, hc, ⟨P, hP, hPs⟩, -⟩ i hi j hj
    obtain rfl : i = 0 := by omega
    obtain rfl : j = 0 := by omega
    subst hd'
    rw [Mat.mul?_ok (by simp [posDyn, hr])] at hP
    simp only [Except.ok.injEq] at hP
    subst hP
    have h0 := hPs.2.2 0 (by simp [posDyn]) 0 (by simp [hc])
    simp [Mat.one, posU, posDyn] at h0
    right
    have : B.get 0 0 = 6 := by linarith
    rw [this]; unfold EPS; norm_num [abs_of_pos])
  exact ⟨d, Bs, hd, h1, h2⟩

end MPC
