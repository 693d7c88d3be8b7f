import Verif.Spec.ZebulonQP
/-! # Turned and mirrored motions: what C89 states -/
namespace MPC.Spec
variable {K : Type} [Field K] [LinearOrder K]

/-- The linear map `(x, y) ↦ (a x + b y, c x + d y)`. -/
structure Turn (K : Type) where
  a : K
  b : K
  c : K
  d : K

/-- A symmetry of the square: quarter turns and reflections at axes and diagonals. -/
def Turn.Good (g : Turn K) : Prop :=
  (g.b = 0 ∧ g.c = 0 ∧ |g.a| = 1 ∧ |g.d| = 1) ∨ (g.a = 0 ∧ g.d = 0 ∧ |g.b| = 1 ∧ |g.c| = 1)

namespace Turn
variable (g : Turn K)

def x (u v : K) : K := g.a * u + g.b * v
def y (u v : K) : K := g.c * u + g.d * v
def pt (p : Pt K) : Pt K := ⟨g.x p.x p.y, g.y p.x p.y⟩

/-- The two coordinates of a turned motion. -/
def sx (u v : State3 K) : State3 K := ⟨g.x u.p v.p, g.x u.v v.v, g.x u.a v.a⟩
def sy (u v : State3 K) : State3 K := ⟨g.y u.p v.p, g.y u.v v.v, g.y u.a v.a⟩

/-- CoM and base turned. -/
def state (z : ZebState K) : ZebState K := ⟨g.sx z.cx z.cy, g.sy z.cx z.cy, g.sx z.bx z.by_, g.sy z.bx z.by_⟩

/-- `v'` is the reference `v` turned: `N` entries for X followed by `N` entries for Y. -/
structure Refs (N : ℕ) (v v' : Vec K) : Prop where
  size : v'.size = v.size
  x : ∀ i < N, v'.get i = g.x (v.get i) (v.get (N + i))
  y : ∀ i < N, v'.get (N + i) = g.y (v.get i) (v.get (N + i))

/-- `p'` is the polygon `p` turned; the vertices of the mirror image are listed backwards, so that their order is again
counterclockwise. -/
def Poly (p p' : Vec (Pt K)) : Prop :=
  p'.size = p.size ∧
    ((g.a * g.d - g.b * g.c = 1 ∧ ∀ i < p.size, p'.get i = g.pt (p.get i)) ∨
      (g.a * g.d - g.b * g.c = -1 ∧ ∀ i < p.size, p'.get i = g.pt (p.get (p.size - 1 - i))))

/-- `X'` are the jerks `X` turned: `N` jerks of the CoM along X and Y, of the base along X and Y. -/
structure Jerks (N : ℕ) (X X' : ℕ → K) : Prop where
  cx : ∀ i < N, jerkCX N X' i = g.x (jerkCX N X i) (jerkCY N X i)
  cy : ∀ i < N, jerkCY N X' i = g.y (jerkCX N X i) (jerkCY N X i)
  bx : ∀ i < N, jerkBX N X' i = g.x (jerkBX N X i) (jerkBY N X i)
  by_ : ∀ i < N, jerkBY N X' i = g.y (jerkBX N X i) (jerkBY N X i)

/-- The settings `s'` are the settings `s` turned. -/
structure Settings (tr : Trig K) (s s' : ZebSettings K) : Prop where
  same : s' = { s with gx := s'.gx, gy := s'.gy, copPolygon := s'.copPolygon, comPolygon := s'.comPolygon
                       velRef := s'.velRef, posRef := s'.posRef, copRef := s'.copRef, comRef := s'.comRef
                       roll := s'.roll, pitch := s'.pitch, yaw := s'.yaw
                       contactX := s'.contactX, contactY := s'.contactY }
  gx : s'.gx = g.x s.gx s.gy
  gy : s'.gy = g.y s.gx s.gy
  copPolygon : g.Poly s.copPolygon s'.copPolygon
  comPolygon : g.Poly s.comPolygon s'.comPolygon
  velRef : g.Refs s.nbSamples s.velRef s'.velRef
  posRef : g.Refs s.nbSamples s.posRef s'.posRef
  copRef : g.Refs s.nbSamples s.copRef s'.copRef
  comRef : g.Refs s.nbSamples s.comRef s'.comRef
  roll : s'.roll = g.sx s.roll s.pitch
  pitch : s'.pitch = g.sy s.roll s.pitch
  cos : tr.cos s'.yaw.p = g.x (tr.cos s.yaw.p) (tr.sin s.yaw.p)
  sin : tr.sin s'.yaw.p = g.y (tr.cos s.yaw.p) (tr.sin s.yaw.p)
  contactX : s'.contactX = g.x s.contactX s.contactY
  contactY : s'.contactY = g.y s.contactX s.contactY

/-- The call `c'` is the call `c` turned, for a generator with `N` samples: calls made while the robot moves. -/
inductive Call (N : ℕ) : ZebCall K → ZebCall K → Prop
  | setVelRef {v v' : Vec K} : g.Refs N v v' → Call N (.setVelRef v) (.setVelRef v')
  | setPosRef {v v' : Vec K} : g.Refs N v v' → Call N (.setPosRef v) (.setPosRef v')
  | setCopRef {v v' : Vec K} : g.Refs N v v' → Call N (.setCopRef v) (.setCopRef v')
  | setComRef {v v' : Vec K} : g.Refs N v v' → Call N (.setComRef v) (.setComRef v')
  | setVelLimit (l : K) : Call N (.setVelLimit l) (.setVelLimit l)
  | setAccLimit (l : K) : Call N (.setAccLimit l) (.setAccLimit l)
  | setJerkLimit (l : K) : Call N (.setJerkLimit l) (.setJerkLimit l)
  | setWeightings (w : ZWeighting K) : Call N (.setWeightings w) (.setWeightings w)
  | setConfig (c : ZConfig) : Call N (.setConfig c) (.setConfig c)
  | solve (fb : K) : Call N (.solve fb) (.solve fb)

end Turn
end MPC.Spec
