import Verif.Lemmas.ZebStep
import Verif.Lemmas.ZebMeaning
import Verif.Lemmas.Eval

/-! # Evaluation of `ZebulonWalkgen` on histories without `solve` -/

set_option linter.unusedSectionVars false

namespace MPC

variable {K : Type} [Field K] [LinearOrder K] [IsStrictOrderedRing K] [FloorRing K]

/-- `sin` and `cos` at `0`. -/
def trigZero : Trig ℚ := ⟨fun _ => 0, fun _ => 1⟩

/-- The call does not use the QP solver. -/
def ZebCall.isSetter : ZebCall K → Bool
  | .solve _ => false
  | _ => true

theorem zStep_setter (tr : Trig K) (w : Zeb K) {c : ZebCall K} (h : c.isSetter = true) (o o' : Oracle K) :
    w.step o tr c = w.step o' tr c := by
  cases c <;> first | rfl | cases h

theorem zRun_setters (tr : Trig K) (w : Zeb K) {cs : List (ZebCall K)} (h : ∀ c ∈ cs, c.isSetter = true) (o o' : Oracle K) :
    w.run o tr cs = w.run o' tr cs := by
  induction cs generalizing w with
  | nil => rfl
  | cons c cs ih =>
    unfold Zeb.run
    rw [zStep_setter tr w (h c (by simp)) o o']
    congr 1
    funext r
    exact ih r.2 fun c hc => h c (by simp [hc])

theorem zReaches_setters (tr : Trig K) (m : Res (Zeb K)) {cs : List (ZebCall K)} (h : ∀ c ∈ cs, c.isSetter = true)
    (o o' : Oracle K) : (do Zeb.run o' tr (← m) cs) = (do Zeb.run o tr (← m) cs) := by
  congr 1
  funext w
  exact zRun_setters tr w h o' o

/-- All states are zero. -/
def zAtRest (w : Zeb ℚ) : Bool :=
  decide (w.lip.x.p = 0) && decide (w.lip.x.v = 0) && decide (w.lip.x.a = 0)
    && decide (w.lip.y.p = 0) && decide (w.lip.y.v = 0) && decide (w.lip.y.a = 0)
    && decide (w.base.x.p = 0) && decide (w.base.x.v = 0) && decide (w.base.x.a = 0)
    && decide (w.base.y.p = 0) && decide (w.base.y.v = 0) && decide (w.base.y.a = 0)

/-- The four jerks of a horizon of one sample are zero. -/
def zNoJerk (w : Zeb ℚ) : Bool :=
  decide (w.X.get 0 = 0) && decide (w.X.get 1 = 0) && decide (w.X.get 2 = 0) && decide (w.X.get 3 = 0)

theorem zNoJerk_get {w : Zeb ℚ} (h : zNoJerk w = true) : ∀ i < 4, w.X.get i = 0 := by
  simp only [zNoJerk, Bool.and_eq_true, decide_eq_true_eq] at h
  obtain ⟨⟨⟨h1, h2⟩, h3⟩, h4⟩ := h
  intro i hi
  match i, hi with
  | 0, _ => exact h1
  | 1, _ => exact h2
  | 2, _ => exact h3
  | 3, _ => exact h4

theorem zAtRest_state {w : Zeb ℚ} (h : zAtRest w = true) :
    w.state = ⟨⟨0, 0, 0⟩, ⟨0, 0, 0⟩, ⟨0, 0, 0⟩, ⟨0, 0, 0⟩⟩ := by
  simp only [zAtRest, Bool.and_eq_true, decide_eq_true_eq] at h
  obtain ⟨⟨⟨⟨⟨⟨⟨⟨⟨⟨⟨h1, h2⟩, h3⟩, h4⟩, h5⟩, h6⟩, h7⟩, h8⟩, h9⟩, ha⟩, hb⟩, hc⟩ := h
  unfold Zeb.state
  have e : ∀ {z : State3 ℚ}, z.p = 0 → z.v = 0 → z.a = 0 → z = ⟨0, 0, 0⟩ := by
    rintro ⟨p, v, a⟩ rfl rfl rfl; rfl
  rw [e h1 h2 h3, e h4 h5 h6, e h7 h8 h9, e ha hb hc]

end MPC
