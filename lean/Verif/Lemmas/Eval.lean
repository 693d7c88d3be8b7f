import Verif.Spec.QP

/-! # Evaluation of concrete runs by the kernel -/

namespace MPC

/-- The computation succeeds with a result such that `p`. -/
def okAnd {α : Type} (p : α → Bool) : Res α → Bool
  | .ok a => p a
  | .error _ => false

theorem okAnd_true {α : Type} {p : α → Bool} {r : Res α} (h : okAnd p r = true) :
    ∃ a, r = .ok a ∧ p a = true := by
  cases r with
  | ok a => exact ⟨a, rfl, h⟩
  | error e => cases h

/-- The fault of a computation. -/
def faultOf {α : Type} : Res α → Option Fault
  | .ok _ => none
  | .error e => some e

theorem faultOf_some {α : Type} {r : Res α} {e : Fault} (h : faultOf r = some e) : r = .error e := by
  cases r with
  | ok a => cases h
  | error e' => cases h; rfl

instance {K : Type} [Field K] [LinearOrder K] (m : QPMatrices K) (x : ℕ → K) :
    Decidable (Spec.Feasible m x) := by
  unfold Spec.Feasible; infer_instance

end MPC
