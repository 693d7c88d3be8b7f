import Verif.Spec.Trajectory

/-! # A frame that moves at a constant velocity: what C100 states -/

namespace MPC.Spec

variable {K : Type} [Field K] [LinearOrder K]

/-- The state seen from a frame that is `δ` behind and moves at the velocity `-u`. -/
def State3.boost (u δ : K) (x : State3 K) : State3 K := ⟨x.p + δ, x.v + u, x.a⟩

/-- The velocity reference seen from this frame. -/
def boostVel (u : K) (v : Vec K) : Vec K := ⟨v.size, fun i => v.get i + u⟩

/-- The position reference seen from this frame, for samples at `T`, `2T`, … from now. -/
def boostPos (u δ T : K) (p : Vec K) : Vec K := ⟨p.size, fun i => p.get i + δ + u * ((i + 1) * T)⟩

/-- The settings of two generators without motion constraints whose references are those of the two frames. -/
structure Boosted (u δ : K) (s₁ s₂ : TrajSettings K) : Prop where
  N : s₂.nbSamples = s₁.nbSamples
  T : s₂.period = s₁.period
  weighting : s₂.weighting = s₁.weighting
  free₁ : s₁.constrained = false
  free₂ : s₂.constrained = false
  velRef : s₂.velRef = boostVel u s₁.velRef
  posRef : s₂.posRef = boostPos u δ s₁.period s₁.posRef

/-- One period of the control: new references, then `solve`. -/
structure Round (K : Type) where
  velRef : Vec K
  posRef : Vec K
  period : K

/-- The calls made in these periods. -/
def roundCalls : List (Round K) → List (TrajCall K)
  | [] => []
  | r :: rs => [.setVelRef r.velRef, .setPosRef r.posRef, .solve r.period] ++ roundCalls rs

/-- The same periods seen from the moving frame. -/
def boostRounds (u T : K) : K → List (Round K) → List (Round K)
  | _, [] => []
  | δ, r :: rs => ⟨boostVel u r.velRef, boostPos u δ T r.posRef, r.period⟩ :: boostRounds u T (δ + u * r.period) rs

/-- The time that these periods last. -/
def roundTime : List (Round K) → K
  | [] => 0
  | r :: rs => r.period + roundTime rs

end MPC.Spec
