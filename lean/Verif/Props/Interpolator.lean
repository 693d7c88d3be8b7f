import Verif.Lemmas.Interpolator
import Verif.Lemmas.Deriv

/-!
# Properties C10–C12: foot trajectories
-/

set_option linter.unusedSectionVars false

namespace MPC

variable {K : Type} [Field K] [LinearOrder K] [IsStrictOrderedRing K]

/-- **C10.** At `t = 0` the foot keeps its position, velocity and acceleration; at `t = T` it has
those of the target. For every state, target, duration. -/
theorem C10_endpoints (foot : FootAxis K) (hf : foot.factor.size = 12) (obj : State3 K) (T : K)
    (hT : 0 < T) :
    (∃ f', interpolateTrajectory foot obj T 0 = .ok f' ∧ f'.state = foot.state) ∧
    (∃ f', interpolateTrajectory foot obj T T = .ok f' ∧ f'.state = obj) := by
  constructor
  · obtain ⟨f', h1, -, h2⟩ := interpolateTrajectory_ok foot hf obj T hT.ne' 0
    refine ⟨f', h1, ?_⟩
    rw [h2]
    have : pieceOf T 0 = 0 := if_pos (by positivity)
    rw [this]
    exact piece_start _ _ _ hT.ne'
  · obtain ⟨f', h1, -, h2⟩ := interpolateTrajectory_ok foot hf obj T hT.ne' T
    refine ⟨f', h1, ?_⟩
    rw [h2]
    have : pieceOf T T = 2 := by
      unfold pieceOf
      rw [if_neg (by linarith), if_neg (by linarith)]
    rw [this]
    exact piece_end _ _ _ hT.ne'

/-- A foot at (0.1, 0, 0) going to 0.3 in 0.8 s. -/
example : ∃ f', interpolateTrajectory (⟨⟨1 / 10, 0, 0⟩, Vec.const 12 0⟩ : FootAxis ℚ) ⟨3 / 10, 0, 0⟩
    (4 / 5) (4 / 5) = .ok f' ∧ f'.state = ⟨3 / 10, 0, 0⟩ :=
  (C10_endpoints _ rfl _ _ (by norm_num)).2

/-- The interpolated position, as a function of time. -/
private noncomputable def posAt (s f : State3 ℝ) (T t : ℝ) : ℝ :=
  if t ≤ T / 3 then (pieceState s f T 0 t).p
  else if t ≤ 2 * T / 3 then (pieceState s f T 1 t).p else (pieceState s f T 2 t).p

private noncomputable def velAt (s f : State3 ℝ) (T t : ℝ) : ℝ :=
  if t ≤ T / 3 then (pieceState s f T 0 t).v
  else if t ≤ 2 * T / 3 then (pieceState s f T 1 t).v else (pieceState s f T 2 t).v

private noncomputable def accAt (s f : State3 ℝ) (T t : ℝ) : ℝ :=
  if t ≤ T / 3 then (pieceState s f T 0 t).a
  else if t ≤ 2 * T / 3 then (pieceState s f T 1 t).a else (pieceState s f T 2 t).a

private theorem piece_deriv (s f : State3 ℝ) (T : ℝ) (hT : T ≠ 0) (q : ℕ) (t : ℝ) :
    HasDerivAt (fun t => (pieceState s f T q t).p) (pieceState s f T q t).v t ∧
    HasDerivAt (fun t => (pieceState s f T q t).v) (pieceState s f T q t).a t := by
  constructor
  · refine hasDerivAt_of_cubic (factorOf s f T (4 * q + 3)) (factorOf s f T (4 * q + 2) / T)
      (factorOf s f T (4 * q + 1) / T ^ 2) (factorOf s f T (4 * q) / T ^ 3) ?_ ?_
    · intro x; simp only [pieceState, piecePos]; field_simp; ring
    · simp only [pieceState, pieceVel]; field_simp; ring
  · refine hasDerivAt_of_cubic (factorOf s f T (4 * q + 2) / T)
      (2 * factorOf s f T (4 * q + 1) / T ^ 2) (3 * factorOf s f T (4 * q) / T ^ 3) 0 ?_ ?_
    · intro x; simp only [pieceState, pieceVel]; field_simp; ring
    · simp only [pieceState, pieceAcc]; field_simp; ring

private theorem piece_cont (s f : State3 ℝ) (T : ℝ) (q : ℕ) :
    Continuous (fun t => (pieceState s f T q t).a) := by
  simp only [pieceState, pieceAcc]
  fun_prop

/-- **C11.** The state returned by the foot update, seen as a function of the elapsed time `t`, is a
twice continuously differentiable curve with its velocity and acceleration: the velocity is the
derivative of the position at every time (knots included), the acceleration is the derivative of the
velocity, and the acceleration is continuous. -/
theorem C11_smooth (foot : FootAxis ℝ) (hf : foot.factor.size = 12) (obj : State3 ℝ) (T : ℝ)
    (hT : 0 < T) :
    ∃ p v a : ℝ → ℝ,
      (∀ t, ∃ f', interpolateTrajectory foot obj T t = .ok f' ∧ f'.state = ⟨p t, v t, a t⟩) ∧
      (∀ t, HasDerivAt p (v t) t ∧ HasDerivAt v (a t) t) ∧ Continuous a := by
  have hT' := hT.ne'
  have k1 := piece_knot1 foot.state obj T hT'
  have k2 := piece_knot2 foot.state obj T hT'
  have hlt : T / 3 ≤ 2 * T / 3 := by linarith
  refine ⟨posAt foot.state obj T, velAt foot.state obj T, accAt foot.state obj T, ?_, ?_, ?_⟩
  · intro t
    obtain ⟨f', h1, -, h2⟩ := interpolateTrajectory_ok foot hf obj T hT' t
    refine ⟨f', h1, ?_⟩
    rw [h2]
    unfold pieceOf posAt velAt accAt
    split_ifs <;> rfl
  · intro t
    constructor
    · refine hasDerivAt_glue (fun t => (piece_deriv foot.state obj T hT' 0 t).1)
        (fun t => hasDerivAt_glue (fun t => (piece_deriv foot.state obj T hT' 1 t).1)
          (fun t => (piece_deriv foot.state obj T hT' 2 t).1) ?_ ?_ t) ?_ ?_ t
      · rw [k2]
      · rw [k2]
      · simp only [hlt, if_true]; rw [k1]
      · simp only [hlt, if_true]; rw [k1]
    · refine hasDerivAt_glue (fun t => (piece_deriv foot.state obj T hT' 0 t).2)
        (fun t => hasDerivAt_glue (fun t => (piece_deriv foot.state obj T hT' 1 t).2)
          (fun t => (piece_deriv foot.state obj T hT' 2 t).2) ?_ ?_ t) ?_ ?_ t
      · rw [k2]
      · rw [k2]
      · simp only [hlt, if_true]; rw [k1]
      · simp only [hlt, if_true]; rw [k1]
  · unfold accAt
    refine Continuous.if_le (piece_cont _ _ _ 0) (Continuous.if_le (piece_cont _ _ _ 1)
      (piece_cont _ _ _ 2) continuous_id continuous_const ?_) continuous_id continuous_const ?_
    · intro t ht
      rw [ht, k2]
    · intro t ht
      simp only [ht, hlt, if_true, k1]

/-- A history of foot updates: targets and control periods; the remaining flight time given to the
interpolation is what is left of `D`. -/
def flight (D : K) : FootAxis K → List (State3 K × K) → Res (FootAxis K)
  | foot, [] => .ok foot
  | foot, (obj, dt) :: rest => do
    let foot' ← interpolateTrajectory foot obj D dt
    flight (D - dt) foot' rest

/-- **C12.** Whatever the targets given on the way and the way the flight time `D` is cut into
control periods (their sum is `D`), the whole flight succeeds and the foot ends with the position,
velocity and acceleration of the last target. -/
theorem C12_lands (foot : FootAxis K) (hf : foot.factor.size = 12) (D : K)
    (hist : List (State3 K × K)) (hpos : ∀ u ∈ hist, 0 < u.2)
    (last : State3 K) (dt : K) (hdt : 0 < dt) (hsum : (hist.map Prod.snd).sum + dt = D) :
    ∃ f', flight D foot (hist ++ [(last, dt)]) = .ok f' ∧ f'.state = last := by
  induction hist generalizing foot D with
  | nil =>
    simp only [List.map_nil, List.sum_nil, zero_add] at hsum
    subst hsum
    obtain ⟨f', h1, h2⟩ := (C10_endpoints foot hf last dt hdt).2
    refine ⟨f', ?_, h2⟩
    simp [flight, h1]
  | cons u rest ih =>
    obtain ⟨obj, d⟩ := u
    have hrest : 0 ≤ (rest.map Prod.snd).sum := by
      apply List.sum_nonneg
      intro x hx
      obtain ⟨w, hw, rfl⟩ := List.mem_map.1 hx
      exact (hpos w (List.mem_cons_of_mem _ hw)).le
    have hd : 0 < d := hpos (obj, d) List.mem_cons_self
    have hD : 0 < D := by
      rw [← hsum]; simp only [List.map_cons, List.sum_cons]; linarith
    obtain ⟨f1, h1, hs, -⟩ := interpolateTrajectory_ok foot hf obj D hD.ne' d
    obtain ⟨f', h2, h3⟩ := ih f1 hs (D - d) (fun w hw => hpos w (List.mem_cons_of_mem _ hw))
      (by rw [← hsum]; simp only [List.map_cons, List.sum_cons]; ring)
    refine ⟨f', ?_, h3⟩
    simp only [List.cons_append, flight, h1, ok_bind, h2]

/-- A flight of 0.8 s replanned twice. -/
example : ∃ f', flight (4 / 5 : ℚ) FootAxis.init
    ([(⟨1, 0, 0⟩, 1 / 5), (⟨1 / 2, 1, 0⟩, 1 / 10)] ++ [(⟨1 / 3, 0, 0⟩, 1 / 2)]) = .ok f' ∧
    f'.state = ⟨1 / 3, 0, 0⟩ :=
  C12_lands _ rfl _ _ (by simp) _ _ (by norm_num) (by norm_num)

/-- The code does not guard a zero remaining time: the update is then unspecified. -/
theorem C12_zero_remaining_unspecified (foot : FootAxis K) (hf : foot.factor.size = 12)
    (obj : State3 K) (t : K) : interpolateTrajectory foot obj 0 t = .error .unspecified := by
  obtain ⟨F, hF, hs, -⟩ := computeFactors_ok foot.factor hf foot.state obj 0
  unfold interpolateTrajectory
  rw [hF]
  simp only [ok_bind]
  rw [selectFactors_ok F hs]
  simp

end MPC
