import Verif.Spec.Humanoid
import Verif.Spec.Supervisor

/-! # Runs of the humanoid generator as seen by its supervisor -/

namespace MPC

variable {K : Type} [Field K] [LinearOrder K]

/-- The calls made once the generator is configured: `solve` with a period allowed by `okfb`, `setMove` as allowed by `ok`
(in the state `s` of the supervisor), new references, weightings, CoM states and choice of constraints. -/
def HCall.Running (okfb : K → Prop) (ok : Sup K → Bool → Prop) (s : Sup K) : HCall K → Prop
  | .solve fb => okfb fb
  | .setMove m => ok s m
  | .setVelRef _ | .setAngularVelRef _ | .setComState _ _ | .setWeightings _ | .setConfig _ _ => True
  | _ => False

/-- `w'` is obtained from `w` by such calls, with the QP solver `o`. -/
inductive HumRuns [FloorRing K] (hull : Vec (Pt K) → Res (Polygon K)) (o : Oracle K) (okfb : K → Prop)
    (ok : Sup K → Bool → Prop) (w : HWalkgen K) : HWalkgen K → Prop
  | refl : HumRuns hull o okfb ok w w
  | call {w₁ w₂ : HWalkgen K} {c : HCall K} {b : Bool} : HumRuns hull o okfb ok w w₁ →
      c.Running okfb ok w₁.sup → w₁.step hull o c = .ok (b, w₂) → HumRuns hull o okfb ok w w₂

end MPC
