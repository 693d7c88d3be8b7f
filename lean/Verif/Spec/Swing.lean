import Verif.Spec.Supervisor

/-! # The way of a flying foot -/

namespace MPC

variable {K : Type} [Field K] [LinearOrder K]

/-- The displacements of the target of an axis that is at `p` first: one for every update `(target, period)`. -/
def Spec.targetMoves : K → List (State3 K × K) → List K
  | _, [] => []
  | p, (obj, _) :: rest => (obj.p - p) :: Spec.targetMoves obj.p rest

/-- Sum of the products of the terms of two lists. -/
def Spec.combine (ω δ : List K) : K := (List.zipWith (· * ·) ω δ).sum

/-- A walk from the state `a₀`: control cycles of the period `fb`, and allowed calls of `setMove`. -/
inductive WalksFrom (fb : K) (a₀ : Sup K × Vec K) : Sup K × Vec K → Prop
  | refl : WalksFrom fb a₀ a₀
  | cycle {a b} : WalksFrom fb a₀ a → Cycle fb a b → WalksFrom fb a₀ b
  | setMove {s v m} : WalksFrom fb a₀ (s, v) → CanStop s m → WalksFrom fb a₀ (s.setMove m, v)

/-- The foot is on the ground, at rest. -/
def Spec.OnGround (f : Foot K) : Prop := f.z.state = ⟨0, 0, 0⟩

end MPC
