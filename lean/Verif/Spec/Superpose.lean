import Verif.Spec.Trajectory

/-! # Superposition: what C91 states -/

namespace MPC.Spec

variable {K : Type} [Field K] [LinearOrder K]

/-- `a` times the first state plus `b` times the second one. -/
def superpose (a b : K) (x y : State3 K) : State3 K := ⟨a * x.p + b * y.p, a * x.v + b * y.v, a * x.a + b * y.a⟩

/-- The third vector is `a` times the first one plus `b` times the second one. -/
structure Combines (a b : K) (v₁ v₂ v₃ : Vec K) : Prop where
  size₂ : v₂.size = v₁.size
  size₃ : v₃.size = v₁.size
  get : ∀ i < v₁.size, v₃.get i = a * v₁.get i + b * v₂.get i

/-- The same calls are made to three generators, without motion constraints, except that the references and states given to
the third one superpose those given to the others. -/
inductive SuperCalls (a b : K) : List (TrajCall K) → List (TrajCall K) → List (TrajCall K) → Prop
  | nil : SuperCalls a b [] [] []
  | setNbSamples {cs₁ cs₂ cs₃ : List (TrajCall K)} (n : ℕ) : SuperCalls a b cs₁ cs₂ cs₃ →
      SuperCalls a b (cs₁ ++ [.setNbSamples n]) (cs₂ ++ [.setNbSamples n]) (cs₃ ++ [.setNbSamples n])
  | setSamplingPeriod {cs₁ cs₂ cs₃ : List (TrajCall K)} (T : K) : SuperCalls a b cs₁ cs₂ cs₃ →
      SuperCalls a b (cs₁ ++ [.setSamplingPeriod T]) (cs₂ ++ [.setSamplingPeriod T]) (cs₃ ++ [.setSamplingPeriod T])
  | setVelRef {cs₁ cs₂ cs₃ : List (TrajCall K)} {v₁ v₂ v₃ : Vec K} : Combines a b v₁ v₂ v₃ → SuperCalls a b cs₁ cs₂ cs₃ →
      SuperCalls a b (cs₁ ++ [.setVelRef v₁]) (cs₂ ++ [.setVelRef v₂]) (cs₃ ++ [.setVelRef v₃])
  | setPosRef {cs₁ cs₂ cs₃ : List (TrajCall K)} {v₁ v₂ v₃ : Vec K} : Combines a b v₁ v₂ v₃ → SuperCalls a b cs₁ cs₂ cs₃ →
      SuperCalls a b (cs₁ ++ [.setPosRef v₁]) (cs₂ ++ [.setPosRef v₂]) (cs₃ ++ [.setPosRef v₃])
  | setState {cs₁ cs₂ cs₃ : List (TrajCall K)} {v₁ v₂ v₃ : Vec K} : Combines a b v₁ v₂ v₃ → SuperCalls a b cs₁ cs₂ cs₃ →
      SuperCalls a b (cs₁ ++ [.setState v₁]) (cs₂ ++ [.setState v₂]) (cs₃ ++ [.setState v₃])
  | setVelLimit {cs₁ cs₂ cs₃ : List (TrajCall K)} (l : K) : SuperCalls a b cs₁ cs₂ cs₃ →
      SuperCalls a b (cs₁ ++ [.setVelLimit l]) (cs₂ ++ [.setVelLimit l]) (cs₃ ++ [.setVelLimit l])
  | setAccLimit {cs₁ cs₂ cs₃ : List (TrajCall K)} (l : K) : SuperCalls a b cs₁ cs₂ cs₃ →
      SuperCalls a b (cs₁ ++ [.setAccLimit l]) (cs₂ ++ [.setAccLimit l]) (cs₃ ++ [.setAccLimit l])
  | setJerkLimit {cs₁ cs₂ cs₃ : List (TrajCall K)} (l : K) : SuperCalls a b cs₁ cs₂ cs₃ →
      SuperCalls a b (cs₁ ++ [.setJerkLimit l]) (cs₂ ++ [.setJerkLimit l]) (cs₃ ++ [.setJerkLimit l])
  | setWeightings {cs₁ cs₂ cs₃ : List (TrajCall K)} (wg : TrajWeighting K) : SuperCalls a b cs₁ cs₂ cs₃ →
      SuperCalls a b (cs₁ ++ [.setWeightings wg]) (cs₂ ++ [.setWeightings wg]) (cs₃ ++ [.setWeightings wg])
  | setConfig {cs₁ cs₂ cs₃ : List (TrajCall K)} : SuperCalls a b cs₁ cs₂ cs₃ →
      SuperCalls a b (cs₁ ++ [.setConfig false]) (cs₂ ++ [.setConfig false]) (cs₃ ++ [.setConfig false])
  | solve {cs₁ cs₂ cs₃ : List (TrajCall K)} (fb : K) : SuperCalls a b cs₁ cs₂ cs₃ →
      SuperCalls a b (cs₁ ++ [.solve fb]) (cs₂ ++ [.solve fb]) (cs₃ ++ [.solve fb])

/-- The settings of three generators that differ by their references only (and by limits that are not used). -/
structure SuperSettings (a b : K) (s₁ s₂ s₃ : TrajSettings K) : Prop where
  N₂ : s₂.nbSamples = s₁.nbSamples
  N₃ : s₃.nbSamples = s₁.nbSamples
  T₂ : s₂.period = s₁.period
  T₃ : s₃.period = s₁.period
  weighting₂ : s₂.weighting = s₁.weighting
  weighting₃ : s₃.weighting = s₁.weighting
  free₁ : s₁.constrained = false
  free₂ : s₂.constrained = false
  free₃ : s₃.constrained = false
  velRef : Combines a b s₁.velRef s₂.velRef s₃.velRef
  posRef : Combines a b s₁.posRef s₂.posRef s₃.posRef

end MPC.Spec
