import Verif.Spec.Zebulon
import Verif.Spec.Superpose
import Verif.Spec.ZebBoost

/-! # Superposition for `ZebulonWalkgen`: what C102 states -/

namespace MPC.Spec

variable {K : Type} [Field K] [LinearOrder K]

/-- `a` times the first motion plus `b` times the second one, for CoM and base. -/
def ZebState.superpose (a b : K) (y z : ZebState K) : ZebState K :=
  ⟨Spec.superpose a b y.cx z.cx, Spec.superpose a b y.cy z.cy, Spec.superpose a b y.bx z.bx, Spec.superpose a b y.by_ z.by_⟩

/-- A call of `solve` to two generators with the given period, after the references of their bases are set. -/
structure PairRound (K : Type) where
  velRef₁ : Vec K
  posRef₁ : Vec K
  velRef₂ : Vec K
  posRef₂ : Vec K
  period : K

def PairRound.first (r : PairRound K) : Round K := ⟨r.velRef₁, r.posRef₁, r.period⟩
def PairRound.second (r : PairRound K) : Round K := ⟨r.velRef₂, r.posRef₂, r.period⟩

/-- `a` times the references of the first generator plus `b` times those of the second one. -/
def PairRound.combined (a b : K) (r : PairRound K) : Round K :=
  ⟨⟨r.velRef₁.size, fun i => a * r.velRef₁.get i + b * r.velRef₂.get i⟩,
    ⟨r.posRef₁.size, fun i => a * r.posRef₁.get i + b * r.posRef₂.get i⟩, r.period⟩

end MPC.Spec
