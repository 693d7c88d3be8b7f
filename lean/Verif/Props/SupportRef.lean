import Verif.Lemmas.SupportRef
import Verif.Lemmas.Eval
import Verif.Props.Timeline
/-!
# C82: the foot on which the robot stands
-/
set_option linter.unusedSectionVars false
namespace MPC
variable {K : Type} [Field K] [LinearOrder K]

/-- `m` is the middle of `a` and `b`, in position, velocity and acceleration. -/
def Spec.Middle (a b m : State3 K) : Prop := m.p + m.p = a.p + b.p ∧ m.v + m.v = a.v + b.v ∧ m.a + m.a = a.a + b.a

/-- `q` is the state on which a robot stands whose feet have the states `left` and `right`, in a phase of type `t`. -/
def Spec.StandsOn (t : PhaseType) (move : Bool) (left right q : State3 K) : Prop :=
  match t, move with
  | .leftSS, _ => q = left
  | .rightSS, _ => q = right
  | .DS, true => q = left
  | .DS, false => Spec.Middle left right q

section
variable [IsStrictOrderedRing K]

/-- **C82.** In every state with a running phase, the getters give the state on which the robot stands. -/
theorem C82_support (s : Sup K) (f : Phase K) (h : s.timeline[0]? = some f) :
    ∃ qx qy, s.supportX = .ok qx ∧ s.supportY = .ok qy ∧
      Spec.StandsOn f.type s.move s.left.x.state s.right.x.state qx ∧
      Spec.StandsOn f.type s.move s.left.y.state s.right.y.state qy := by
  unfold Sup.supportX Sup.supportY
  rw [listAt_of_get? h, Sup.isInDS_ok h]
  simp only [ok_bind]
  cases ht : f.type <;> cases hm : s.move <;>
    simp [Spec.StandsOn, Spec.Middle, add_comm]

/-- It moves with the left foot while the robot walks in double support. -/
example : ∃ s : Sup ℚ, ∃ f, s.timeline[0]? = some f ∧ f.type = .DS ∧ s.move = true :=
  ⟨{ (demo 2 1 1 1 0).1 with move := true }, _, rfl, rfl, rfl⟩

end

/-- **C82, standing.** After `updateTimeline`, from any state, a robot that stands still previews no footstep. -/
theorem C82_standing (s s' : Sup K) (v v' : Vec K) (fb : K) (h : s.updateTimeline v fb = .ok (s', v'))
    (f : Phase K) (h0 : s'.timeline[0]? = some f) (hf : f.type = .DS) (hm : s'.move = false) : s'.M = 0 :=
  Sup.stand_no_step h h0 hf hm

/-- The initial state of the supervisor meets the hypotheses. -/
example : okAnd (fun r => r.1.move == false && (r.1.timeline.map fun p => p.type) == [.DS, .DS, .DS])
    ((demo 4 1 1 2 0).1.updateTimeline (demo 4 1 1 2 0).2 1) = true := by decide +kernel

/-- **C82, order.** The foot constraint does not depend on the order in which the two references are read. -/
theorem C82_order (late : Bool) (l : Lip K) (s : Sup K) (x0 : Vec K) :
    footConstraintOrder late l s x0 = footConstraint l s x0 :=
  footOrder_eq late l s x0

/-- Supervisor of a robot at `x = 1`, `y = 2`. -/
def demoAt12 (N : ℕ) : Sup ℚ :=
  let s := (demo N 1 1 1 0).1
  { s with left := { s.left with x := { s.left.x with state := ⟨1, 0, 0⟩ }, y := { s.left.y with state := ⟨2, 0, 0⟩ } },
           right := { s.right with x := { s.right.x with state := ⟨1, 0, 0⟩ }, y := { s.right.y with state := ⟨2, 0, 0⟩ } } }

/-- **The references are not independent**: a caller who holds the reference given for X while calling the getter of Y reads
the value of Y. -/
theorem C82_shared : ∃ s : Sup ℚ, okAnd (fun q => q.p == 1) s.supportX = true ∧
    okAnd (fun q => q.p == 2) s.supportXLate = true := ⟨demoAt12 2, by decide +kernel, by decide +kernel⟩

/-- **A request to stop after the timeline was computed**, while the first double support runs with previewed footsteps: the
evaluation of the constraint aborts the program. -/
theorem C82_stop_aborts (l : Lip K) (s : Sup K) (x0 : Vec K) (f : Phase K) (h0 : s.timeline[0]? = some f)
    (hf : f.type = .DS) (hM : 0 < s.M) (hN : s.N = l.N) (hx : x0.size = 2 * l.N + 2 * s.M) :
    footConstraint l (s.setMove false) x0 = .error .aborted := by
  have hk : (s.setMove false).kinPolygons = .error .aborted := by
    have : ∀ n, 0 < n → n ≤ s.M → buildVec Polygon.none (s.setMove false).kinPolygon n = .error .aborted := by
      intro n
      induction n with
      | zero => intro h; exact absurd h (lt_irrefl 0)
      | succ n ih =>
        intro _ hn
        by_cases h : n = 0
        · subst h
          have h0' : (s.setMove false).timeline[0]? = some f := h0
          have h1 : 0 < (s.setMove false).M := hM
          unfold buildVec buildVec Sup.kinPolygon
          simp only [pure_bind]
          rw [require_pos h1, ok_bind, Sup.isInDS_ok h0', ok_bind]
          rw [if_neg (fun hc => by cases hc.2), listAt_of_get? h0', ok_bind, hf]
          rfl
        · unfold buildVec
          rw [ih (by omega) (by omega)]
          rfl
    exact this s.M hM le_rfl
  unfold footConstraint
  have h1 : (s.setMove false).N = l.N := hN
  have h2 : x0.size = 2 * l.N + 2 * (s.setMove false).M := hx
  rw [require_pos h1, require_pos h2, hk]
  rfl

/-- After one update of a robot that walks, two footsteps are previewed in the initial double support. -/
example : okAnd (fun r => r.1.M == 2 && (r.1.timeline.map fun p => p.type) == [.DS, .leftSS, .rightSS, .leftSS])
    (((demo 3 1 1 1 0).1.setMove true).updateTimeline (demo 3 1 1 1 0).2 1) = true := by decide +kernel

end MPC
