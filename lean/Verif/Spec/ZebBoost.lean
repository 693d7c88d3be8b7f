import Verif.Spec.Boost
import Verif.Spec.ZebRecede

/-! # A frame that moves at a constant velocity: what C101 states -/

namespace MPC.Spec

variable {K : Type} [Field K] [LinearOrder K]

/-- CoM and base seen from a frame that is `(a, b)` behind and moves at the velocity `(-ux, -uy)`. -/
def ZebState.boost (z : ZebState K) (ux uy a b : K) : ZebState K :=
  ⟨State3.boost ux a z.cx, State3.boost uy b z.cy, State3.boost ux a z.bx, State3.boost uy b z.by_⟩

/-- The velocity reference seen from this frame: `N` samples along X, then `N` samples along Y. -/
def zBoostVel (ux uy : K) (N : ℕ) (v : Vec K) : Vec K := ⟨v.size, fun i => v.get i + if i < N then ux else uy⟩

/-- The position reference seen from this frame, for samples at `T`, `2T`, … from now. -/
def zBoostPos (ux uy a b T : K) (N : ℕ) (p : Vec K) : Vec K :=
  ⟨p.size, fun i => p.get i + if i < N then a + ux * ((i + 1) * T) else b + uy * (((i - N : ℕ) + 1) * T)⟩

/-- The calls made in periods of the control: new references of the base, then `solve`. -/
def zRoundCalls : List (Round K) → List (ZebCall K)
  | [] => []
  | r :: rs => [.setVelRef r.velRef, .setPosRef r.posRef, .solve r.period] ++ zRoundCalls rs

/-- The same periods seen from the moving frame. -/
def zBoostRounds (ux uy T : K) (N : ℕ) : K → K → List (Round K) → List (Round K)
  | _, _, [] => []
  | a, b, r :: rs => ⟨zBoostVel ux uy N r.velRef, zBoostPos ux uy a b T N r.posRef, r.period⟩ ::
      zBoostRounds ux uy T N (a + ux * r.period) (b + uy * r.period) rs

end MPC.Spec
