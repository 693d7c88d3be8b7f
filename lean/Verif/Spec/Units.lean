import Verif.Spec.Trajectory
/-! # Units: what C86 states -/
namespace MPC.Spec
variable {K : Type} [Field K] [LinearOrder K]

/-- Other units: a length or an angle `x` is written `length * x + origin` (a negative `length` reverses the axis), a time `t`
is written `time * t`, and costs are written `scale` times larger. -/
structure Units (K : Type) where
  length : K
  origin : K
  time : K
  scale : K

structure Units.Good (u : Units K) : Prop where
  length : u.length ≠ 0
  time : 0 < u.time
  scale : 0 < u.scale

/-- A state in the other units. -/
def Units.state (u : Units K) (x : State3 K) : State3 K :=
  ⟨u.length * x.p + u.origin, u.length / u.time * x.v, u.length / u.time ^ 2 * x.a⟩

/-- A jerk in the other units. -/
def Units.jerk (u : Units K) (j : K) : K := u.length / u.time ^ 3 * j

def Units.posRef (u : Units K) (v : Vec K) : Vec K := ⟨v.size, fun i => u.length * v.get i + u.origin⟩
def Units.velRef (u : Units K) (v : Vec K) : Vec K := ⟨v.size, fun i => u.length / u.time * v.get i⟩

/-- The weightings give the dimension of a cost to squared velocities, positions and jerks. -/
def Units.weighting (u : Units K) (w : TrajWeighting K) : TrajWeighting K :=
  ⟨u.scale * (u.time / u.length) ^ 2 * w.velocityTracking, u.scale * (1 / u.length) ^ 2 * w.positionTracking,
    u.scale * (u.time ^ 3 / u.length) ^ 2 * w.jerkMinimization⟩

/-- A call of `TrajectoryWalkgen` in the other units. -/
def Units.call (u : Units K) : TrajCall K → TrajCall K
  | .setNbSamples n => .setNbSamples n
  | .setSamplingPeriod T => .setSamplingPeriod (u.time * T)
  | .setVelRef v => .setVelRef (u.velRef v)
  | .setPosRef v => .setPosRef (u.posRef v)
  | .setVelLimit l => .setVelLimit (|u.length / u.time| * l)
  | .setAccLimit l => .setAccLimit (|u.length / u.time ^ 2| * l)
  | .setJerkLimit l => .setJerkLimit (|u.length / u.time ^ 3| * l)
  | .setState v => .setState ⟨v.size, fun i =>
      if i = 0 then u.length * v.get 0 + u.origin else u.length / u.time ^ i * v.get i⟩
  | .setWeightings w => .setWeightings (u.weighting w)
  | .setConfig b => .setConfig b
  | .solve fb => .solve (u.time * fb)

/-- Settings in the other units. -/
def Units.settings (u : Units K) (s : TrajSettings K) : TrajSettings K :=
  ⟨s.nbSamples, u.time * s.period, u.velRef s.velRef, u.posRef s.posRef, |u.length / u.time| * s.velLimit,
    |u.length / u.time ^ 2| * s.accLimit, |u.length / u.time ^ 3| * s.jerkLimit, u.weighting s.weighting, s.constrained⟩

end MPC.Spec
