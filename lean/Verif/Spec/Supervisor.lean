import Verif.Model.Supervisor

/-!
# Vocabulary for the feet supervisor properties
-/

namespace MPC

variable {K : Type} [Field K] [LinearOrder K]

/-- `c` is the centre of the bounding box of the points `p`. -/
def IsBoxCenter (p : Vec (Pt K)) (c : Pt K) : Prop :=
  ∃ i₁ < p.size, ∃ i₂ < p.size, ∃ i₃ < p.size, ∃ i₄ < p.size,
    (∀ k < p.size, (p.get i₁).x ≤ (p.get k).x ∧ (p.get k).x ≤ (p.get i₂).x ∧
      (p.get i₃).y ≤ (p.get k).y ∧ (p.get k).y ≤ (p.get i₄).y) ∧
    c = ⟨((p.get i₂).x + (p.get i₁).x) / 2, ((p.get i₃).y + (p.get i₄).y) / 2⟩

/-- `b k` is the sampling instant (multiple of `T` from now) at which the phase `k` of the timeline
starts: the current phase (which lasts `R` more) starts at `0`, every other phase starts at the
first instant at which less than `EPS` of the previous one remains, and the timeline stops at the
phase that runs at the instant `N`. -/
structure Covers (T R : K) (tl : List (Phase K)) (N : ℕ) (b : ℕ → ℕ) : Prop where
  nonempty : tl ≠ []
  start : b 0 = 0
  order : ∀ k, k + 1 < tl.length → b k < b (k + 1)
  inside : ∀ k, k < tl.length → b k ≤ N
  /-- a phase that is left is over -/
  over : ∀ k (h : k + 1 < tl.length),
    (if k = 0 then R else (tl[k]'(by omega)).duration) - ((b (k + 1) - b k : ℕ) : K) * T < EPS
  /-- and it was not over one instant earlier -/
  running : ∀ k (h : k < tl.length) i, b k < i → i ≤ N → (k + 1 < tl.length → i < b (k + 1)) →
    EPS ≤ (if k = 0 then R else (tl[k]'h).duration) - ((i - b k : ℕ) : K) * T

/-- The phase `k` runs at the sampling instant `i`. -/
def RunsAt (tl : List (Phase K)) (b : ℕ → ℕ) (k i : ℕ) : Prop :=
  k < tl.length ∧ b k ≤ i ∧ (k + 1 < tl.length → i < b (k + 1))

/-- Number of single supports among the first `k` phases: the footsteps made before the phase
`k`. -/
def stepsBefore (tl : List (Phase K)) (k : ℕ) : ℕ :=
  ((tl.take k).filter fun p => p.type ≠ .DS).length

/-- Row `r` of `[V0 V]` is the unit vector number `q`: the sample `r` is attached to the current
support foot (`q = 0`) or to the previewed footstep `q - 1`. -/
def RowIsUnit (s : Sup K) (r q : ℕ) : Prop :=
  q ≤ s.V.cols ∧ s.V0.get r 0 = (if q = 0 then 1 else 0) ∧
    ∀ c < s.V.cols, s.V.get r c = if q = c + 1 then 1 else 0

/-- The phase that runs when `updateTimeline` previews the horizon, and the time it still lasts:
a phase with less than `EPS` left is over. -/
def Running (s : Sup K) (f : Phase K) (R : K) : Prop :=
  (EPS ≤ s.ttnp ∧ s.timeline[0]? = some f ∧ R = s.ttnp) ∨
    (s.ttnp < EPS ∧ s.timeline[1]? = some f ∧ R = f.duration)

/-- `q` may follow `p` in the walk: single supports alternate, a walk starts on the left foot, and
no single support follows when walking is not requested. -/
def MayFollow (move : Bool) (p q : PhaseType) : Prop :=
  (p ≠ .DS → q ≠ .DS → q ≠ p) ∧ (p = .DS → q ≠ .DS → q = .leftSS) ∧ (q ≠ .DS ↔ move = true)

/-- Both feet have a kinematic polygon. -/
def HasKin (s : Sup K) : Prop := 0 < s.left.kin.vertices.size ∧ 0 < s.right.kin.vertices.size

/-- No phase ends exactly `EPS` after a sampling instant: `R` is the remaining time of the running
phase. -/
structure Untied (s : Sup K) (R : K) : Prop where
  step_pos : EPS < s.stepPeriod
  ds_pos : EPS < s.dsPeriod
  cur : ∀ i : ℕ, 1 ≤ i → i ≤ s.N → R ≠ i * s.T + EPS
  step : ∀ i : ℕ, 1 ≤ i → i ≤ s.N → s.stepPeriod ≠ i * s.T + EPS
  ds : ∀ i : ℕ, 1 ≤ i → i ≤ s.N → s.dsPeriod ≠ i * s.T + EPS

/-- The phase at the front of the timeline is a single support that is over. -/
def EndsStep (s : Sup K) : Prop :=
  s.ttnp < EPS ∧ ∃ f, s.timeline[0]? = some f ∧ f.type ≠ .DS

/-- The flying foot is in the air: the phase `f` is a single support whose first sampling period is
over. -/
def InFlight (s : Sup K) (f : Phase K) : Prop :=
  f.type ≠ .DS ∧ s.ttnp < f.duration - s.T + EPS

/-- The scratch vectors of the feet have their constructed size,
`/repo/src/model/humanoid_foot_model.cpp:137-138`. -/
def Foot.HasFactors (f : Foot K) : Prop :=
  f.x.factor.size = 12 ∧ f.y.factor.size = 12 ∧ f.z.factor.size = 12

/-- All times are multiples of the feedback period, and a step fits in the horizon. -/
structure Grid (fb : K) (s : Sup K) : Prop where
  pos : EPS < fb
  T : ∃ n : ℕ, 0 < n ∧ s.T = n * fb
  step : ∃ p : ℕ, 0 < p ∧ s.stepPeriod = p * fb
  ds : ∃ d : ℕ, 0 < d ∧ s.dsPeriod = d * fb
  horizon : s.stepPeriod ≤ s.N * s.T

/-! ### Histories

A control cycle of `HumanoidWalkgen::solve`, `/repo/src/humanoid_walkgen.cpp:316-447`, as seen by
the supervisor: the timeline is updated, the solver writes any values into the decision vector
(lines 433-435), the feet are updated with its footsteps (lines 443-447). -/

/-- One control cycle between two pairs (supervisor, decision vector). -/
def Cycle (fb : K) (a b : Sup K × Vec K) : Prop :=
  ∃ s₁ v₁, a.1.updateTimeline a.2 fb = .ok (s₁, v₁) ∧ b.2.size = v₁.size ∧
    s₁.updateFeetStates ⟨2 * s₁.M, fun i => b.2.get (2 * s₁.N + i)⟩ fb = .ok b.1

/-- A supervisor ready for its first cycle: usable parameters, initial double support, empty plan. -/
structure Ready (a : Sup K × Vec K) : Prop where
  N : 0 < a.1.N
  T : EPS ≤ a.1.T
  step : EPS ≤ a.1.stepPeriod
  ds : EPS ≤ a.1.dsPeriod
  kin : HasKin a.1
  timeline : a.1.timeline = [⟨.DS, a.1.dsPeriod⟩]
  ttnp : a.1.ttnp = a.1.dsPeriod
  M : a.1.M = 0
  move : a.1.move = false
  var : a.2.size = 2 * a.1.N
  left : a.1.left.HasFactors
  right : a.1.right.HasFactors

/-- Walking may be requested at any time; the stop may be requested at any time but during the
initial double support when footsteps are already previewed. -/
def CanStop (s : Sup K) (m : Bool) : Prop :=
  m = true ∨ (∃ f, s.timeline[0]? = some f ∧ f.type ≠ .DS) ∨ s.M = 0 ∨ s.ttnp < EPS

/-- States reached by control cycles with periods `fb` such that `okfb fb`, and calls of
`setMove` allowed by `ok`. -/
inductive Reach (okfb : K → Prop) (ok : Sup K → Bool → Prop) : Sup K × Vec K → Prop
  | start {a} : Ready a → Reach okfb ok a
  | cycle {a b fb} : Reach okfb ok a → okfb fb → Cycle fb a b → Reach okfb ok b
  | setMove {s v m} : Reach okfb ok (s, v) → ok s m → Reach okfb ok (s.setMove m, v)

/-- A run of control cycles: cycle `i` leads from `a i` to `a (i + 1)` with the period `fb i`, after
a possible change of the walking request. -/
def Run (fb : ℕ → K) (a : ℕ → Sup K × Vec K) (n : ℕ) : Prop :=
  ∀ i < n, ∃ m, Cycle (fb i) ((a i).1.setMove m, (a i).2) (a (i + 1))

/-- A run of control cycles during which walking is not requested. -/
def StoppedRun (fb : ℕ → K) (a : ℕ → Sup K × Vec K) (n : ℕ) : Prop :=
  (a 0).1.move = false ∧ ∀ i < n, Cycle (fb i) (a i) (a (i + 1))

end MPC
