import Verif.Spec.Superpose

/-! # Means of the problems of `TrajectoryWalkgen`: what C104 states -/

namespace MPC.Spec

variable {K : Type} [Field K] [LinearOrder K]

/-- The settings of three generators with motion constraints, where the references of the third one are `a` times those of the
first one plus `b` times those of the second one, and its limits are at least that. -/
structure MeanSettings (a b : K) (s₁ s₂ s₃ : TrajSettings K) : Prop where
  N₂ : s₂.nbSamples = s₁.nbSamples
  N₃ : s₃.nbSamples = s₁.nbSamples
  T₂ : s₂.period = s₁.period
  T₃ : s₃.period = s₁.period
  weighting₂ : s₂.weighting = s₁.weighting
  weighting₃ : s₃.weighting = s₁.weighting
  limited₁ : s₁.constrained = true
  limited₂ : s₂.constrained = true
  limited₃ : s₃.constrained = true
  velLimit : a * s₁.velLimit + b * s₂.velLimit ≤ s₃.velLimit
  accLimit : a * s₁.accLimit + b * s₂.accLimit ≤ s₃.accLimit
  jerkLimit : a * s₁.jerkLimit + b * s₂.jerkLimit ≤ s₃.jerkLimit
  velRef : Combines a b s₁.velRef s₂.velRef s₃.velRef
  posRef : Combines a b s₁.posRef s₂.posRef s₃.posRef

end MPC.Spec
