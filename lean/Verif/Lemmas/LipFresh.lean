import Verif.Model.Lip
import Verif.Lemmas.Dynamics
import Verif.Lemmas.HumRows

/-! # The dynamics kept by `LIPModel` are those of its current parameters -/

set_option linter.unusedSectionVars false

namespace MPC

variable {K : Type} [Field K] [LinearOrder K] [IsStrictOrderedRing K] [FloorRing K]

/-- The conditions under which the two CoP dynamics were computed. -/
structure Lip.GoodCop (l : Lip K) : Prop where
  T : 0 < l.T
  gz : EPS < |l.gz|
  le : l.mass ≤ l.totalMass
  total : EPS < l.totalMass
  mass : 0 ≤ l.mass

/-- The caches are up to date. -/
structure Lip.Fresh (l : Lip K) : Prop where
  auto : l.auto = true
  N : 0 < l.N
  fb : l.fb ≠ 0
  nb : (l.nbFb : ℤ) = truncInt ((l.T + EPS) / l.fb)
  pos : 0 < l.nbFb → 0 < l.fb ∧ l.GoodCop
  sizes : l.copX.size = l.nbFb ∧ l.copY.size = l.nbFb ∧ l.pos.size = l.nbFb ∧ l.vel.size = l.nbFb ∧
    l.acc.size = l.nbFb
  copX : ∀ i < l.nbFb, l.copX.get i
    = copDyn (((i + 1 : ℕ) : K) * l.fb) l.T l.N l.comHeight l.gx l.gz (l.mass / l.totalMass)
  copY : ∀ i < l.nbFb, l.copY.get i
    = copDyn (((i + 1 : ℕ) : K) * l.fb) l.T l.N l.comHeight l.gy l.gz (l.mass / l.totalMass)
  posd : ∀ i < l.nbFb, l.pos.get i = posDyn (((i + 1 : ℕ) : K) * l.fb) l.T l.N
  vel : ∀ i < l.nbFb, l.vel.get i = velDyn (((i + 1 : ℕ) : K) * l.fb) l.T l.N
  acc : ∀ i < l.nbFb, l.acc.get i = accDyn (((i + 1 : ℕ) : K) * l.fb) l.T l.N
  jerk : l.jerk = computeJerkDynamic l.N

theorem computeCopDynamic_eq_ok {S T : K} {N : ℕ} {h gx gz mass total : K} {d : LinearDynamic K}
    (hd : computeCopDynamic S T N h gx gz mass total = .ok d) :
    0 < S ∧ 0 < T ∧ 0 < N ∧ EPS < |gz| ∧ mass ≤ total ∧ EPS < total ∧ 0 ≤ mass ∧
      d = copDyn S T N h gx gz (mass / total) := by
  have h0 := hd
  unfold computeCopDynamic at hd
  obtain ⟨_, h1, hd⟩ := bind_eq_ok.1 hd
  obtain ⟨_, h2, hd⟩ := bind_eq_ok.1 hd
  obtain ⟨_, h3, hd⟩ := bind_eq_ok.1 hd
  obtain ⟨_, h4, hd⟩ := bind_eq_ok.1 hd
  obtain ⟨_, h5, hd⟩ := bind_eq_ok.1 hd
  obtain ⟨_, h6, hd⟩ := bind_eq_ok.1 hd
  obtain ⟨_, h7, hd⟩ := bind_eq_ok.1 hd
  have h1 := require_eq_ok.1 h1
  have h2 := require_eq_ok.1 h2
  have h3 := require_eq_ok.1 h3
  have h4 := require_eq_ok.1 h4
  have h5 := require_eq_ok.1 h5
  have h6 := require_eq_ok.1 h6
  have h7 := require_eq_ok.1 h7
  rw [computeCopDynamic_ok h1 h2 h3 h4 h5 h6 h7] at h0
  exact ⟨h1, h2, h3, h4, h5, h6, h7, (Except.ok.inj h0).symm⟩

theorem computePosDynamic_eq_ok {S T : K} {N : ℕ} {d : LinearDynamic K}
    (hd : computePosDynamic S T N = .ok d) : 0 < S ∧ 0 < T ∧ 0 < N ∧ d = posDyn S T N := by
  have h0 := hd
  unfold computePosDynamic at hd
  obtain ⟨_, h1, hd⟩ := bind_eq_ok.1 hd
  obtain ⟨_, h2, hd⟩ := bind_eq_ok.1 hd
  obtain ⟨_, h3, hd⟩ := bind_eq_ok.1 hd
  have h1 := require_eq_ok.1 h1
  have h2 := require_eq_ok.1 h2
  have h3 := require_eq_ok.1 h3
  rw [computePosDynamic_ok h1 h2 h3] at h0
  exact ⟨h1, h2, h3, (Except.ok.inj h0).symm⟩

theorem computeVelDynamic_eq_ok {S T : K} {N : ℕ} {d : LinearDynamic K}
    (hd : computeVelDynamic S T N = .ok d) : 0 < S ∧ 0 < T ∧ 0 < N ∧ d = velDyn S T N := by
  have h0 := hd
  unfold computeVelDynamic at hd
  obtain ⟨_, h1, hd⟩ := bind_eq_ok.1 hd
  obtain ⟨_, h2, hd⟩ := bind_eq_ok.1 hd
  obtain ⟨_, h3, hd⟩ := bind_eq_ok.1 hd
  have h1 := require_eq_ok.1 h1
  have h2 := require_eq_ok.1 h2
  have h3 := require_eq_ok.1 h3
  rw [computeVelDynamic_ok h1 h2 h3] at h0
  exact ⟨h1, h2, h3, (Except.ok.inj h0).symm⟩

theorem computeAccDynamic_eq_ok {S T : K} {N : ℕ} {d : LinearDynamic K}
    (hd : computeAccDynamic S T N = .ok d) : S ≠ 0 ∧ 0 < T ∧ 0 < N ∧ d = accDyn S T N := by
  have h0 := hd
  unfold computeAccDynamic at hd
  obtain ⟨_, h1, hd⟩ := bind_eq_ok.1 hd
  obtain ⟨_, h2, hd⟩ := bind_eq_ok.1 hd
  obtain ⟨_, h3, hd⟩ := bind_eq_ok.1 hd
  have h1 := abs_pos.1 (require_eq_ok.1 h1)
  have h2 := require_eq_ok.1 h2
  have h3 := require_eq_ok.1 h3
  rw [computeAccDynamic_ok h1 h2 h3] at h0
  exact ⟨h1, h2, h3, (Except.ok.inj h0).symm⟩

/-- Outcome of the two CoP loops. -/
theorem Lip.cop_ok {l l₁ l' : Lip K} (h1 : l.computeCopX = .ok l₁) (h2 : l₁.computeCopY = .ok l') :
    (0 < l.nbFb → 0 < l.fb ∧ l.GoodCop) ∧
    ∃ vx vy, l' = { l with copX := vx, copY := vy } ∧ vx.size = l.nbFb ∧ vy.size = l.nbFb ∧
      (∀ i < l.nbFb, vx.get i = copDyn (((i + 1 : ℕ) : K) * l.fb) l.T l.N l.comHeight l.gx l.gz
        (l.mass / l.totalMass)) ∧
      (∀ i < l.nbFb, vy.get i = copDyn (((i + 1 : ℕ) : K) * l.fb) l.T l.N l.comHeight l.gy l.gz
        (l.mass / l.totalMass)) := by
  unfold Lip.computeCopX at h1
  obtain ⟨vx, hx, h1⟩ := bind_eq_ok.1 h1
  obtain rfl := Except.ok.inj h1
  unfold Lip.computeCopY at h2
  obtain ⟨vy, hy, h2⟩ := bind_eq_ok.1 h2
  obtain rfl := Except.ok.inj h2
  obtain ⟨sx, gx⟩ := buildVec_ok hx
  obtain ⟨sy, gy⟩ := buildVec_ok hy
  refine ⟨fun hn => ?_, vx, vy, rfl, sx, sy, fun i hi => (computeCopDynamic_eq_ok (gx i hi)).2.2.2.2.2.2.2,
    fun i hi => (computeCopDynamic_eq_ok (gy i hi)).2.2.2.2.2.2.2⟩
  obtain ⟨a, b, -, c, d, e, f, -⟩ := computeCopDynamic_eq_ok (gx 0 hn)
  exact ⟨by simpa using a, b, c, d, e, f⟩

theorem Lip.computeCom_ok {l l' : Lip K} (h : l.computeCom = .ok l') :
    0 < l.N ∧ ∃ p v a, l' = { l with pos := p, vel := v, acc := a, jerk := computeJerkDynamic l.N } ∧
      p.size = l.nbFb ∧ v.size = l.nbFb ∧ a.size = l.nbFb ∧
      (∀ i < l.nbFb, p.get i = posDyn (((i + 1 : ℕ) : K) * l.fb) l.T l.N) ∧
      (∀ i < l.nbFb, v.get i = velDyn (((i + 1 : ℕ) : K) * l.fb) l.T l.N) ∧
      (∀ i < l.nbFb, a.get i = accDyn (((i + 1 : ℕ) : K) * l.fb) l.T l.N) := by
  unfold Lip.computeCom at h
  obtain ⟨p, hp, h⟩ := bind_eq_ok.1 h
  obtain ⟨v, hv, h⟩ := bind_eq_ok.1 h
  obtain ⟨a, ha, h⟩ := bind_eq_ok.1 h
  obtain ⟨_, hN, h⟩ := bind_eq_ok.1 h
  have hN := require_eq_ok.1 hN
  obtain rfl := Except.ok.inj h
  obtain ⟨sp, gp⟩ := buildVec_ok hp
  obtain ⟨sv, gv⟩ := buildVec_ok hv
  obtain ⟨sa, ga⟩ := buildVec_ok ha
  exact ⟨hN, p, v, a, rfl, sp, sv, sa, fun i hi => (computePosDynamic_eq_ok (gp i hi)).2.2.2,
    fun i hi => (computeVelDynamic_eq_ok (gv i hi)).2.2.2,
    fun i hi => (computeAccDynamic_eq_ok (ga i hi)).2.2.2⟩

/-- The parameters, without the caches. -/
def Lip.sameParams (l l' : Lip K) : Prop :=
  l'.auto = l.auto ∧ l'.N = l.N ∧ l'.T = l.T ∧ l'.fb = l.fb ∧ l'.x = l.x ∧ l'.y = l.y ∧ l'.z = l.z ∧
  l'.comHeight = l.comHeight ∧ l'.gx = l.gx ∧ l'.gy = l.gy ∧ l'.gz = l.gz ∧ l'.mass = l.mass ∧
  l'.totalMass = l.totalMass

theorem Lip.computeDynamics_fresh {l l' : Lip K} (ha : l.auto = true) (h : l.computeDynamics = .ok l') :
    l'.Fresh ∧ l.sameParams l' := by
  unfold Lip.computeDynamics at h
  split_ifs at h with h1 h2
  obtain ⟨l₁, hx, h⟩ := bind_eq_ok.1 h
  obtain ⟨l₂, hy, h⟩ := bind_eq_ok.1 h
  obtain ⟨hg, vx, vy, rfl, sx, sy, gx, gy⟩ := Lip.cop_ok hx hy
  obtain ⟨hN, p, v, a, rfl, sp, sv, sa, gp, gv, ga⟩ := Lip.computeCom_ok h
  refine ⟨⟨ha, hN, h1, ?_, fun hn => ⟨(hg hn).1, (hg hn).2.1, (hg hn).2.2, (hg hn).2.3, (hg hn).2.4,
    (hg hn).2.5⟩, ⟨sx, sy, sp, sv, sa⟩, gx, gy, gp, gv, ga, rfl⟩, ?_⟩
  · exact Int.toNat_of_nonneg (not_lt.1 h2)
  · exact ⟨rfl, rfl, rfl, rfl, rfl, rfl, rfl, rfl, rfl, rfl, rfl, rfl, rfl⟩

theorem Lip.refresh_fresh {l l' : Lip K} (ha : l.auto = true) (h : l.refresh = .ok l') :
    l'.Fresh ∧ l.sameParams l' := by
  unfold Lip.refresh at h
  rw [if_pos ha] at h
  exact Lip.computeDynamics_fresh ha h

/-- `l₀` fresh, some CoP parameter changed, CoP dynamics recomputed. -/
theorem Lip.refreshCop_fresh {l₀ l l' : Lip K} (hf : l₀.Fresh)
    (hs : l.auto = l₀.auto ∧ l.N = l₀.N ∧ l.T = l₀.T ∧ l.fb = l₀.fb ∧ l.nbFb = l₀.nbFb ∧ l.pos = l₀.pos ∧
      l.vel = l₀.vel ∧ l.acc = l₀.acc ∧ l.jerk = l₀.jerk)
    (h : l.refreshCop = .ok l') : l'.Fresh ∧ l.sameParams l' := by
  obtain ⟨e1, e2, e3, e4, e5, e6, e7, e8, e9⟩ := hs
  unfold Lip.refreshCop at h
  rw [if_pos (e1.trans hf.auto)] at h
  obtain ⟨l₁, hx, h⟩ := bind_eq_ok.1 h
  obtain ⟨hg, vx, vy, rfl, sx, sy, gx, gy⟩ := Lip.cop_ok hx h
  refine ⟨⟨e1.trans hf.auto, ?_, ?_, ?_, fun hn => ⟨(hg hn).1, (hg hn).2.1, (hg hn).2.2, (hg hn).2.3,
    (hg hn).2.4, (hg hn).2.5⟩, ⟨sx, sy, ?_, ?_, ?_⟩, gx, gy, ?_, ?_, ?_, ?_⟩, ?_⟩
  · rw [show _ = l₀.N from e2]; exact hf.N
  · rw [show _ = l₀.fb from e4]; exact hf.fb
  · show (l.nbFb : ℤ) = truncInt ((l.T + EPS) / l.fb)
    rw [e3, e4, e5]; exact hf.nb
  · show l.pos.size = l.nbFb
    rw [e6, e5]; exact hf.sizes.2.2.1
  · show l.vel.size = l.nbFb
    rw [e7, e5]; exact hf.sizes.2.2.2.1
  · show l.acc.size = l.nbFb
    rw [e8, e5]; exact hf.sizes.2.2.2.2
  · show ∀ i < l.nbFb, l.pos.get i = posDyn (((i + 1 : ℕ) : K) * l.fb) l.T l.N
    rw [e2, e3, e4, e5, e6]; exact hf.posd
  · show ∀ i < l.nbFb, l.vel.get i = velDyn (((i + 1 : ℕ) : K) * l.fb) l.T l.N
    rw [e2, e3, e4, e5, e7]; exact hf.vel
  · show ∀ i < l.nbFb, l.acc.get i = accDyn (((i + 1 : ℕ) : K) * l.fb) l.T l.N
    rw [e2, e3, e4, e5, e8]; exact hf.acc
  · show l.jerk = computeJerkDynamic l.N
    rw [e2, e9]; exact hf.jerk
  · exact ⟨rfl, rfl, rfl, rfl, rfl, rfl, rfl, rfl, rfl, rfl, rfl, rfl, rfl⟩

theorem Lip.Fresh.state {l : Lip K} (h : l.Fresh) (x y : State3 K) :
    Lip.Fresh { l with x := x, y := y } :=
  ⟨h.auto, h.N, h.fb, h.nb, fun hn => ⟨(h.pos hn).1, (h.pos hn).2.1, (h.pos hn).2.2, (h.pos hn).2.3,
    (h.pos hn).2.4, (h.pos hn).2.5⟩, h.sizes, h.copX, h.copY, h.posd, h.vel, h.acc, h.jerk⟩

theorem Lip.make_fresh {N : ℕ} {T : K} {l : Lip K} (h : Lip.make N T true = .ok l) : l.Fresh :=
  (Lip.refresh_fresh rfl h).1

/-- Every call keeps the caches up to date. -/
theorem Lip.step_fresh {l l' : Lip K} {c : LipCall K} (hf : l.Fresh) (h : l.step c = .ok l') : l'.Fresh := by
  cases c with
  | setNbSamples n =>
    obtain ⟨_, -, h⟩ := bind_eq_ok.1 h
    exact (Lip.refresh_fresh (l := { l with N := n }) hf.auto h).1
  | setSamplingPeriod T =>
    obtain ⟨_, -, h⟩ := bind_eq_ok.1 h
    exact (Lip.refresh_fresh (l := { l with T := T, fb := T }) hf.auto h).1
  | setFeedbackPeriod fb =>
    obtain ⟨_, -, h⟩ := bind_eq_ok.1 h
    exact (Lip.refresh_fresh (l := { l with fb := fb }) hf.auto h).1
  | setComHeight x =>
    exact (Lip.refreshCop_fresh (l := { l with comHeight := x, z := { l.z with p := x } }) hf ⟨rfl, rfl, rfl, rfl, rfl, rfl, rfl, rfl, rfl⟩ h).1
  | setGravity gx gy gz =>
    obtain ⟨_, -, h⟩ := bind_eq_ok.1 h
    exact (Lip.refreshCop_fresh (l := { l with gx := gx, gy := gy, gz := gz }) hf ⟨rfl, rfl, rfl, rfl, rfl, rfl, rfl, rfl, rfl⟩ h).1
  | setMass m =>
    exact (Lip.refreshCop_fresh (l := { l with mass := m }) hf ⟨rfl, rfl, rfl, rfl, rfl, rfl, rfl, rfl, rfl⟩ h).1
  | setTotalMass m =>
    obtain ⟨_, -, h⟩ := bind_eq_ok.1 h
    exact (Lip.refreshCop_fresh (l := { l with totalMass := m }) hf ⟨rfl, rfl, rfl, rfl, rfl, rfl, rfl, rfl, rfl⟩ h).1
  | setStateX v =>
    obtain ⟨_, -, h⟩ := bind_eq_ok.1 h
    obtain rfl := Except.ok.inj h
    exact hf.state _ _
  | setStateY v =>
    obtain ⟨_, -, h⟩ := bind_eq_ok.1 h
    obtain rfl := Except.ok.inj h
    exact hf.state _ _
  | updateStateX j fb =>
    obtain ⟨_, -, h⟩ := bind_eq_ok.1 h
    obtain rfl := Except.ok.inj h
    exact hf.state _ _
  | updateStateY j fb =>
    obtain ⟨_, -, h⟩ := bind_eq_ok.1 h
    obtain rfl := Except.ok.inj h
    exact hf.state _ _

theorem Lip.run_fresh {cs : List (LipCall K)} : ∀ {l l' : Lip K}, l.Fresh → l.run cs = .ok l' → l'.Fresh := by
  induction cs with
  | nil => intro l l' hf h; obtain rfl := Except.ok.inj h; exact hf
  | cons c cs ih =>
    intro l l' hf h
    obtain ⟨l₁, h1, h⟩ := bind_eq_ok.1 h
    exact ih (Lip.step_fresh hf h1) h

/-- What the indexed getters serve. -/
theorem Lip.dyn_ok {l : Lip K} {v : Vec (LinearDynamic K)} {i : ℤ} {d : LinearDynamic K}
    (h : l.dyn v i = .ok d) : ∃ k : ℕ, i = k ∧ k < l.nbFb ∧ d = v.get k := by
  unfold Lip.dyn at h
  obtain ⟨_, h1, h⟩ := bind_eq_ok.1 h
  obtain ⟨_, h2, h⟩ := bind_eq_ok.1 h
  have h1 := require_eq_ok.1 h1
  have h2 := requireIndex_eq_ok.1 h2
  unfold Vec.at? at h
  obtain ⟨_, h3, h⟩ := bind_eq_ok.1 h
  exact ⟨i.toNat, by omega, by omega, (Except.ok.inj h).symm⟩

end MPC
