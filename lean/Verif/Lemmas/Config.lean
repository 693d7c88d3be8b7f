import Verif.Spec.Config
import Verif.Lemmas.HumReach
import Verif.Lemmas.ZebModel

/-! # The configuration determines the generator -/

set_option linter.unusedSectionVars false

namespace MPC

open Spec

variable {K : Type} [Field K] [LinearOrder K] [IsStrictOrderedRing K] [FloorRing K]

/-- What `computeDynamics` computes. -/
theorem Lip.computeDynamics_iff {l l' : Lip K} : l.computeDynamics = .ok l' ↔
    l.fb ≠ 0 ∧ ¬ truncInt ((l.T + EPS) / l.fb) < 0 ∧ 0 < l.N ∧ ∃ vx vy p v a,
      buildVec .empty (fun i => computeCopDynamic (((i + 1 : ℕ) : K) * l.fb) l.T l.N l.comHeight
        l.gx l.gz l.mass l.totalMass) (truncInt ((l.T + EPS) / l.fb)).toNat = .ok vx ∧
      buildVec .empty (fun i => computeCopDynamic (((i + 1 : ℕ) : K) * l.fb) l.T l.N l.comHeight
        l.gy l.gz l.mass l.totalMass) (truncInt ((l.T + EPS) / l.fb)).toNat = .ok vy ∧
      buildVec .empty (fun i => computePosDynamic (((i + 1 : ℕ) : K) * l.fb) l.T l.N)
        (truncInt ((l.T + EPS) / l.fb)).toNat = .ok p ∧
      buildVec .empty (fun i => computeVelDynamic (((i + 1 : ℕ) : K) * l.fb) l.T l.N)
        (truncInt ((l.T + EPS) / l.fb)).toNat = .ok v ∧
      buildVec .empty (fun i => computeAccDynamic (((i + 1 : ℕ) : K) * l.fb) l.T l.N)
        (truncInt ((l.T + EPS) / l.fb)).toNat = .ok a ∧
      l' = { l with nbFb := (truncInt ((l.T + EPS) / l.fb)).toNat, copX := vx, copY := vy, pos := p, vel := v, acc := a
                    jerk := computeJerkDynamic l.N } := by
  unfold Lip.computeDynamics
  by_cases h0 : l.fb = 0
  · simp [h0]
  rw [if_neg h0]
  by_cases h1 : truncInt ((l.T + EPS) / l.fb) < 0
  · simp [h1]
  rw [if_neg h1]
  constructor
  · intro h
    obtain ⟨l1, e1, h⟩ := bind_eq_ok.1 h
    obtain ⟨l2, e2, h⟩ := bind_eq_ok.1 h
    obtain ⟨vx, ex, e1⟩ := bind_eq_ok.1 e1
    obtain rfl := Except.ok.inj e1
    obtain ⟨vy, ey, e2⟩ := bind_eq_ok.1 e2
    obtain rfl := Except.ok.inj e2
    obtain ⟨p, ep, h⟩ := bind_eq_ok.1 h
    obtain ⟨v, ev, h⟩ := bind_eq_ok.1 h
    obtain ⟨a, ea, h⟩ := bind_eq_ok.1 h
    obtain ⟨_, eN, h⟩ := bind_eq_ok.1 h
    obtain rfl := Except.ok.inj h
    exact ⟨h0, h1, require_eq_ok.1 eN, vx, vy, p, v, a, ex, ey, ep, ev, ea, rfl⟩
  · rintro ⟨-, -, hN, vx, vy, p, v, a, ex, ey, ep, ev, ea, rfl⟩
    dsimp only
    unfold Lip.computeCopX
    dsimp only
    rw [ex, ok_bind]
    unfold Lip.computeCopY
    simp only [res_pure, ok_bind]
    rw [ey, ok_bind]
    unfold Lip.computeCom
    simp only [ok_bind]
    rw [ep, ok_bind, ev, ok_bind, ea, ok_bind, require_pos hN, ok_bind]
    rfl

/-- The parameters of the LIP model of a generator with the settings `s`. -/
def lipRaw (s : HumSettings K) : Lip K :=
  { auto := true, N := s.nbSamples, T := s.period, fb := s.period, nbFb := 0, x := s.comX, y := s.comY
    z := ⟨s.height, 0, 0⟩, comHeight := s.height, gx := 0, gy := 0, gz := GRAVITY_NORM, mass := 1, totalMass := 1
    copX := ⟨0, fun _ => .empty⟩, copY := ⟨0, fun _ => .empty⟩, pos := ⟨0, fun _ => .empty⟩
    vel := ⟨0, fun _ => .empty⟩, acc := ⟨0, fun _ => .empty⟩, jerk := .empty }

/-- The parameters are the same. -/
theorem Lip.computeDynamics_congr {l l₀ l' : Lip K} (h : l.computeDynamics = .ok l') (h1 : l₀.auto = l.auto)
    (h2 : l₀.N = l.N) (h3 : l₀.T = l.T) (h4 : l₀.fb = l.fb) (h5 : l₀.x = l.x) (h6 : l₀.y = l.y) (h7 : l₀.z = l.z)
    (h8 : l₀.comHeight = l.comHeight) (h9 : l₀.gx = l.gx) (h10 : l₀.gy = l.gy) (h11 : l₀.gz = l.gz)
    (h12 : l₀.mass = l.mass) (h13 : l₀.totalMass = l.totalMass) : l₀.computeDynamics = .ok l' := by
  rw [Lip.computeDynamics_iff] at h ⊢
  rw [h2, h3, h4, h8, h9, h10, h11, h12, h13]
  obtain ⟨a0, a1, aN, vx, vy, p, v, a, ex, ey, ep, ev, ea, rfl⟩ := h
  refine ⟨a0, a1, aN, vx, vy, p, v, a, ex, ey, ep, ev, ea, ?_⟩
  cases l₀; cases l
  dsimp only at *
  subst h1 h2 h3 h4 h5 h6 h7 h8 h9 h10 h11 h12 h13
  rfl

/-- The CoM state is not used by the dynamics. -/
theorem Lip.computeDynamics_state {l l' : Lip K} (x y : State3 K) (h : l.computeDynamics = .ok l') :
    Lip.computeDynamics { l with x := x, y := y } = .ok { l' with x := x, y := y } := by
  rw [Lip.computeDynamics_iff] at h ⊢
  obtain ⟨a0, a1, aN, vx, vy, p, v, a, ex, ey, ep, ev, ea, rfl⟩ := h
  exact ⟨a0, a1, aN, vx, vy, p, v, a, ex, ey, ep, ev, ea, rfl⟩

/-- A new height changes the CoP dynamics only. -/
theorem Lip.computeDynamics_height {l l' l'' : Lip K} {h : K} (ha : l.auto = true) (e : l.computeDynamics = .ok l')
    (e' : l'.setComHeight h = .ok l'') :
    Lip.computeDynamics { l with comHeight := h, z := { l.z with p := h } } = .ok l'' := by
  rw [Lip.computeDynamics_iff] at e ⊢
  obtain ⟨a0, a1, aN, vx, vy, p, v, a, ex, ey, ep, ev, ea, rfl⟩ := e
  unfold Lip.setComHeight Lip.refreshCop at e'
  rw [if_pos (by exact ha)] at e'
  obtain ⟨l1, e1, e'⟩ := bind_eq_ok.1 e'
  obtain ⟨wx, ex', e1⟩ := bind_eq_ok.1 e1
  obtain rfl := Except.ok.inj e1
  obtain ⟨wy, ey', e'⟩ := bind_eq_ok.1 e'
  obtain rfl := Except.ok.inj e'
  exact ⟨a0, a1, aN, wx, wy, p, v, a, ex', ey', ep, ev, ea, rfl⟩

/-- The foot of a generator with these settings. -/
def footOf (f : FootSettings K) : Foot K :=
  ⟨⟨f.x, Vec.const 12 0⟩, ⟨f.y, Vec.const 12 0⟩, ⟨f.z, Vec.const 12 0⟩, f.maxHeight, f.kin, f.cop⟩

/-- The supervisor of a generator with these settings. -/
def supOf (s : HumSettings K) : Sup K :=
  { N := s.nbSamples, T := s.period, fb := s.period, left := footOf s.left, right := footOf s.right, M := 0,
    stepPeriod := s.stepPeriod, dsPeriod := s.dsPeriod, ttnp := s.dsPeriod, move := false,
    stepVec := ⟨0, fun _ => 0⟩, V := ⟨0, 0, fun _ _ => 0⟩, VT := ⟨0, 0, fun _ _ => 0⟩,
    V0 := ⟨0, 0, fun _ _ => 0⟩, phaseIdx := ⟨0, fun _ => 0⟩, weight := ⟨0, 0, fun _ _ => 0⟩,
    timeline := [⟨.DS, s.dsPeriod⟩] }

/-- The generator with these settings, but for the tables of problems and solvers. -/
structure Config (s : HumSettings K) (w : HWalkgen K) : Prop where
  sup : w.sup = supOf s
  lip : (lipRaw s).computeDynamics = .ok w.lip
  velRef : w.velRef = s.velRef
  boundSize : w.boundSize = 2 * s.nbSamples
  dX : w.dX = Vec.const (2 * s.nbSamples) 0
  X : w.X = Vec.const (2 * s.nbSamples) 0
  transformedX : w.transformedX = Vec.const 0 0
  weighting : w.weighting = s.weighting
  withCop : w.withCop = s.withCop
  withFeet : w.withFeet = s.withFeet
  first : w.first = true
  calls : w.calls = 0
  N : 0 < s.nbSamples
  T : 0 < s.period

theorem Config.lip_fields {s : HumSettings K} {w : HWalkgen K} (h : Config s w) :
    w.lip.auto = true ∧ w.lip.N = s.nbSamples ∧ w.lip.T = s.period ∧ w.lip.fb = s.period ∧ w.lip.x = s.comX ∧
      w.lip.y = s.comY ∧ w.lip.z = ⟨s.height, 0, 0⟩ ∧ w.lip.comHeight = s.height ∧ w.lip.gx = 0 ∧ w.lip.gy = 0 ∧
      w.lip.gz = GRAVITY_NORM ∧ w.lip.mass = 1 ∧ w.lip.totalMass = 1 := by
  obtain ⟨-, -, -, vx, vy, p, v, a, -, -, -, -, -, e⟩ := Lip.computeDynamics_iff.1 h.lip
  rw [e]
  exact ⟨rfl, rfl, rfl, rfl, rfl, rfl, rfl, rfl, rfl, rfl, rfl, rfl, rfl⟩

theorem Config.make {w : HWalkgen K} (h : HWalkgen.make = .ok w) : Config .default w := by
  unfold HWalkgen.make at h
  obtain ⟨s, hs, h⟩ := bind_eq_ok.1 h
  obtain ⟨l, hl, h⟩ := bind_eq_ok.1 h
  obtain ⟨_, -, h⟩ := bind_eq_ok.1 h
  obtain ⟨_, -, h⟩ := bind_eq_ok.1 h
  obtain rfl := Except.ok.inj h
  obtain ⟨_, -, hs⟩ := bind_eq_ok.1 hs
  obtain ⟨_, -, hs⟩ := bind_eq_ok.1 hs
  obtain rfl := Except.ok.inj hs
  have e : (lipRaw (HumSettings.default (K := K))).computeDynamics = .ok l := hl
  have hN : l.N = 1 := by
    obtain ⟨-, -, -, vx, vy, p, v, a, -, -, -, -, -, e⟩ := Lip.computeDynamics_iff.1 e
    rw [e]; rfl
  refine ⟨?_, e, ?_, ?_, ?_, ?_, rfl, rfl, rfl, rfl, rfl, rfl, Nat.one_pos, one_pos⟩
  · simp only [HWalkgen.computeConstantPart, supOf, HumSettings.default, mul_one]
    rfl
  · simp only [HWalkgen.computeConstantPart, HumSettings.default, hN]
    rfl
  · simp only [HWalkgen.computeConstantPart, HumSettings.default, hN]
  · simp only [HWalkgen.computeConstantPart, HumSettings.default, hN]
  · simp only [HWalkgen.computeConstantPart, HumSettings.default, hN]

theorem supOf_foot (s : HumSettings K) (left : Bool) (f : Foot K → Foot K) (g : FootSettings K → FootSettings K)
    (h : ∀ t, f (footOf t) = footOf (g t)) : (supOf s).mapFoot left f = supOf (s.foot left g) := by
  unfold Sup.mapFoot HumSettings.foot
  cases left
  · simp only [Bool.false_eq_true, if_false, supOf, h]
  · simp only [if_true, supOf, h]

/-- A setter of a foot. -/
theorem Config.foot {s : HumSettings K} {w : HWalkgen K} (h : Config s w) (left : Bool) (f : Foot K → Foot K)
    (g : FootSettings K → FootSettings K) (hfg : ∀ t, f (footOf t) = footOf (g t)) :
    Config (s.foot left g) { w with sup := w.sup.mapFoot left f } := by
  have hs : (s.foot left g) = { s with left := (s.foot left g).left, right := (s.foot left g).right } := by
    unfold HumSettings.foot
    cases left <;> rfl
  refine ⟨?_, ?_, ?_, ?_, ?_, ?_, h.transformedX, ?_, ?_, ?_, h.first, h.calls, ?_, ?_⟩
  · rw [← supOf_foot s left f g hfg, h.sup]
  all_goals rw [hs]
  · exact h.lip
  · exact h.velRef
  · exact h.boundSize
  · exact h.dX
  · exact h.X
  · exact h.weighting
  · exact h.withCop
  · exact h.withFeet
  · exact h.N
  · exact h.T

theorem isInDS_supOf (s : HumSettings K) : (supOf s).isInDS = .ok true := rfl

/-- Every accepted configuration call changes the settings. -/
theorem Config.step {hull : Vec (Pt K) → Res (Polygon K)} {o : Oracle K} {s : HumSettings K} {w w' : HWalkgen K}
    {c : HCall K} {b : Bool} (h : Config s w) (hc : IsSetting c) (e : w.step hull o c = .ok (b, w')) :
    Config (s.set c) w' := by
  obtain ⟨f1, f2, f3, f4, f5, f6, f7, f8, f9, f10, f11, f12, f13⟩ := h.lip_fields
  cases c with
  | setMove m => exact hc.elim
  | solve fb => exact hc.elim
  | setKin left g =>
    obtain ⟨-, rfl⟩ := Prod.mk.inj (Except.ok.inj e)
    exact h.foot left (fun f => { f with kin := g }) (fun f => { f with kin := g }) fun _ => rfl
  | setCop left g =>
    obtain ⟨-, rfl⟩ := Prod.mk.inj (Except.ok.inj e)
    exact h.foot left (fun f => { f with cop := g }) (fun f => { f with cop := g }) fun _ => rfl
  | setMaxHeight left g =>
    obtain ⟨-, rfl⟩ := Prod.mk.inj (Except.ok.inj e)
    exact h.foot left (fun f => { f with maxHeight := g }) (fun f => { f with maxHeight := g }) fun _ => rfl
  | setFootState left a v =>
    obtain ⟨_, -, e⟩ := bind_eq_ok.1 e
    obtain ⟨-, rfl⟩ := Prod.mk.inj (Except.ok.inj e)
    cases a
    · exact h.foot left (fun f => f.setState .x (hStateOf v)) (fun f => { f with x := hStateOf v }) fun _ => rfl
    · exact h.foot left (fun f => f.setState .y (hStateOf v)) (fun f => { f with y := hStateOf v }) fun _ => rfl
    · exact h.foot left (fun f => f.setState .z (hStateOf v)) (fun f => { f with z := hStateOf v }) fun _ => rfl
  | setConfig a b =>
    obtain ⟨-, rfl⟩ := Prod.mk.inj (Except.ok.inj e)
    exact ⟨h.sup, h.lip, h.velRef, h.boundSize, h.dX, h.X, h.transformedX, h.weighting, rfl, rfl, h.first, h.calls, h.N, h.T⟩
  | setWeightings wt =>
    obtain ⟨_, -, e⟩ := bind_eq_ok.1 e
    obtain ⟨_, -, e⟩ := bind_eq_ok.1 e
    obtain ⟨_, -, e⟩ := bind_eq_ok.1 e
    obtain ⟨-, rfl⟩ := Prod.mk.inj (Except.ok.inj e)
    exact ⟨h.sup, h.lip, h.velRef, h.boundSize, h.dX, h.X, h.transformedX, rfl, h.withCop, h.withFeet, h.first, h.calls,
      h.N, h.T⟩
  | setVelRef v =>
    obtain ⟨_, -, e⟩ := bind_eq_ok.1 e
    obtain ⟨-, rfl⟩ := Prod.mk.inj (Except.ok.inj e)
    exact ⟨h.sup, h.lip, rfl, h.boundSize, h.dX, h.X, h.transformedX, h.weighting, h.withCop, h.withFeet, h.first, h.calls,
      h.N, h.T⟩
  | setAngularVelRef v =>
    obtain ⟨_, -, e⟩ := bind_eq_ok.1 e
    obtain ⟨-, rfl⟩ := Prod.mk.inj (Except.ok.inj e)
    exact h
  | setStepPeriod p =>
    obtain ⟨_, -, e⟩ := bind_eq_ok.1 e
    obtain ⟨_, -, e⟩ := bind_eq_ok.1 e
    obtain ⟨s', es, e⟩ := bind_eq_ok.1 e
    obtain ⟨-, rfl⟩ := Prod.mk.inj (Except.ok.inj e)
    rw [h.sup] at es
    obtain ⟨_, -, es⟩ := bind_eq_ok.1 es
    rw [isInDS_supOf, ok_bind] at es
    obtain rfl := Except.ok.inj es
    exact ⟨rfl, h.lip, h.velRef, h.boundSize, h.dX, h.X, h.transformedX, h.weighting, h.withCop, h.withFeet, h.first,
      h.calls, h.N, h.T⟩
  | setInitialDoubleSupportLength p =>
    obtain ⟨s', es, e⟩ := bind_eq_ok.1 e
    obtain ⟨-, rfl⟩ := Prod.mk.inj (Except.ok.inj e)
    rw [h.sup] at es
    unfold Sup.setInitialDoubleSupportLength at es
    rw [isInDS_supOf, ok_bind, if_pos rfl] at es
    have key : s' = { supOf s with dsPeriod := p, ttnp := s.dsPeriod + (p - s.dsPeriod)
                                   timeline := [⟨.DS, s.dsPeriod + (p - s.dsPeriod)⟩] } := by
      dsimp only at es
      split at es
      · obtain ⟨_, -, es⟩ := bind_eq_ok.1 es
        obtain ⟨tl, et, es⟩ := bind_eq_ok.1 es
        obtain rfl := Except.ok.inj et
        exact (Except.ok.inj es).symm
      · obtain ⟨tl, et, es⟩ := bind_eq_ok.1 es
        obtain rfl := Except.ok.inj et
        exact (Except.ok.inj es).symm
    rw [add_sub_cancel] at key
    exact ⟨key, h.lip, h.velRef, h.boundSize, h.dX, h.X, h.transformedX, h.weighting, h.withCop, h.withFeet, h.first,
      h.calls, h.N, h.T⟩
  | setNbSamples n =>
    obtain ⟨_, hn, e⟩ := bind_eq_ok.1 e
    have hn := require_eq_ok.1 hn
    obtain ⟨l, el, e⟩ := bind_eq_ok.1 e
    obtain ⟨s', es, e⟩ := bind_eq_ok.1 e
    obtain ⟨-, rfl⟩ := Prod.mk.inj (Except.ok.inj e)
    obtain ⟨_, -, es⟩ := bind_eq_ok.1 es
    obtain rfl := Except.ok.inj es
    obtain ⟨_, -, el⟩ := bind_eq_ok.1 el
    unfold Lip.refresh at el
    rw [if_pos (by exact f1)] at el
    have e2 : (lipRaw { s with nbSamples := n }).computeDynamics = .ok l :=
      Lip.computeDynamics_congr el f1.symm rfl f3.symm f4.symm f5.symm f6.symm f7.symm f8.symm f9.symm f10.symm f11.symm
        f12.symm f13.symm
    have hl : l.N = n := by
      obtain ⟨-, -, -, vx, vy, p, v, a, -, -, -, -, -, e⟩ := Lip.computeDynamics_iff.1 e2
      rw [e]; rfl
    have hM : w.sup.M = 0 := by rw [h.sup]; rfl
    refine ⟨?_, e2, h.velRef, ?_, ?_, ?_, h.transformedX, h.weighting, h.withCop, h.withFeet, h.first, h.calls, hn, h.T⟩
    · show ({ w.sup with N := n } : Sup K) = _
      rw [h.sup]; rfl
    · show 2 * l.N = _
      rw [hl]; rfl
    · show Vec.const (2 * l.N + 2 * w.sup.M) 0 = _
      rw [hl, hM]; rfl
    · show Vec.const (2 * n + 2 * w.sup.M) 0 = _
      rw [hM]; rfl
  | setSamplingPeriod T =>
    obtain ⟨_, -, e⟩ := bind_eq_ok.1 e
    obtain ⟨l, el, e⟩ := bind_eq_ok.1 e
    obtain ⟨s', es, e⟩ := bind_eq_ok.1 e
    obtain ⟨-, rfl⟩ := Prod.mk.inj (Except.ok.inj e)
    obtain ⟨_, -, es⟩ := bind_eq_ok.1 es
    obtain ⟨_, hT, es⟩ := bind_eq_ok.1 es
    have hT := require_eq_ok.1 hT
    obtain rfl := Except.ok.inj es
    obtain ⟨_, -, el⟩ := bind_eq_ok.1 el
    unfold Lip.refresh at el
    rw [if_pos (by exact f1)] at el
    have e2 : (lipRaw { s with period := T }).computeDynamics = .ok l :=
      Lip.computeDynamics_congr el f1.symm f2.symm rfl rfl f5.symm f6.symm f7.symm f8.symm f9.symm f10.symm f11.symm
        f12.symm f13.symm
    have hl : l.N = s.nbSamples := by
      obtain ⟨-, -, -, vx, vy, p, v, a, -, -, -, -, -, e⟩ := Lip.computeDynamics_iff.1 e2
      rw [e]; rfl
    refine ⟨?_, e2, h.velRef, ?_, h.dX, h.X, h.transformedX, h.weighting, h.withCop, h.withFeet, h.first, h.calls, h.N, hT⟩
    · show ({ w.sup with T := T, fb := T } : Sup K) = _
      rw [h.sup]; rfl
    · show 2 * l.N = _
      rw [hl]; rfl
  | setComState a v =>
    cases a with
    | x =>
      obtain ⟨l, el, e⟩ := bind_eq_ok.1 e
      obtain ⟨-, rfl⟩ := Prod.mk.inj (Except.ok.inj e)
      obtain ⟨_, -, el⟩ := bind_eq_ok.1 el
      obtain rfl := Except.ok.inj el
      have e2 := Lip.computeDynamics_state ⟨v.get 0, v.get 1, v.get 2⟩ s.comY h.lip
      rw [← f6] at e2
      exact ⟨h.sup, f6 ▸ e2, h.velRef, h.boundSize, h.dX, h.X, h.transformedX, h.weighting, h.withCop, h.withFeet, h.first,
        h.calls, h.N, h.T⟩
    | y =>
      obtain ⟨l, el, e⟩ := bind_eq_ok.1 e
      obtain ⟨-, rfl⟩ := Prod.mk.inj (Except.ok.inj e)
      obtain ⟨_, -, el⟩ := bind_eq_ok.1 el
      obtain rfl := Except.ok.inj el
      have e2 := Lip.computeDynamics_state s.comX ⟨v.get 0, v.get 1, v.get 2⟩ h.lip
      rw [← f5] at e2
      exact ⟨h.sup, f5 ▸ e2, h.velRef, h.boundSize, h.dX, h.X, h.transformedX, h.weighting, h.withCop, h.withFeet, h.first,
        h.calls, h.N, h.T⟩
    | z =>
      obtain ⟨_, -, e⟩ := bind_eq_ok.1 e
      obtain ⟨_, -, e⟩ := bind_eq_ok.1 e
      obtain ⟨_, -, e⟩ := bind_eq_ok.1 e
      obtain ⟨l, el, e⟩ := bind_eq_ok.1 e
      obtain ⟨-, rfl⟩ := Prod.mk.inj (Except.ok.inj e)
      exact ⟨h.sup, Lip.computeDynamics_height rfl h.lip el, h.velRef, h.boundSize, h.dX, h.X, h.transformedX, h.weighting,
        h.withCop, h.withFeet, h.first, h.calls, h.N, h.T⟩

theorem Config.run {hull : Vec (Pt K) → Res (Polygon K)} {o : Oracle K} {cs : List (HCall K)} :
    ∀ {s : HumSettings K} {w w' : HWalkgen K}, Config s w → (∀ c ∈ cs, IsSetting c) → w.run hull o cs = .ok w' →
      Config (cs.foldl HumSettings.set s) w' := by
  induction cs with
  | nil => intro s w w' h _ e; obtain rfl := Except.ok.inj e; exact h
  | cons c cs ih =>
    intro s w w' h hc e
    obtain ⟨⟨b, w1⟩, e1, e⟩ := bind_eq_ok.1 e
    exact ih (h.step (hc c (by simp)) e1) (fun c' h' => hc c' (by simp [h'])) e

/-! ### Acceptance -/

theorem ok_true_iff {α β : Type} {m : Res α} {f : α → β} :
    (∃ r, (do let a ← m; pure (f a) : Res β) = .ok r) ↔ ∃ a, m = .ok a := by
  constructor
  · rintro ⟨r, e⟩
    obtain ⟨a, ea, -⟩ := bind_eq_ok.1 e
    exact ⟨a, ea⟩
  · rintro ⟨a, ea⟩
    exact ⟨f a, by rw [ea, ok_bind]; rfl⟩

theorem require_iff {p : Prop} [Decidable p] {β : Type} {m : Res β} :
    (∃ r, (do require p; m : Res β) = .ok r) ↔ p ∧ ∃ r, m = .ok r := by
  constructor
  · rintro ⟨r, e⟩
    obtain ⟨_, h, e⟩ := bind_eq_ok.1 e
    exact ⟨require_eq_ok.1 h, r, e⟩
  · rintro ⟨h, r, e⟩
    exact ⟨r, by rw [require_pos h, ok_bind, e]⟩

theorem Config.accepts {hull : Vec (Pt K) → Res (Polygon K)} {o : Oracle K} {s : HumSettings K} {w : HWalkgen K}
    {c : HCall K} (h : Config s w) (hc : IsSetting c) : (∃ r, w.step hull o c = .ok r) ↔ s.Accepts c := by
  obtain ⟨f1, f2, f3, f4, f5, f6, f7, f8, f9, f10, f11, f12, f13⟩ := h.lip_fields
  have hg : EPS < |w.lip.gz| := by
    rw [f11]; unfold GRAVITY_NORM EPS; rw [abs_of_pos (by norm_num)]; norm_num
  have ht : EPS < w.lip.totalMass := by rw [f13]; unfold EPS; norm_num
  have hm : w.lip.mass ≤ w.lip.totalMass := by rw [f12, f13]
  have hm0 : 0 ≤ w.lip.mass := by rw [f12]; exact zero_le_one
  have hN := h.N
  have hT := h.T
  cases c with
  | setMove m => exact hc.elim
  | solve fb => exact hc.elim
  | setKin left g => exact ⟨fun _ => trivial, fun _ => ⟨_, rfl⟩⟩
  | setCop left g => exact ⟨fun _ => trivial, fun _ => ⟨_, rfl⟩⟩
  | setMaxHeight left g => exact ⟨fun _ => trivial, fun _ => ⟨_, rfl⟩⟩
  | setConfig a b => exact ⟨fun _ => trivial, fun _ => ⟨_, rfl⟩⟩
  | setFootState left a v =>
    unfold HWalkgen.step
    rw [require_iff]
    exact ⟨fun h => h.1, fun h => ⟨h, _, rfl⟩⟩
  | setWeightings wt =>
    unfold HWalkgen.step
    rw [require_iff, require_iff, require_iff, h.weighting]
    exact ⟨fun h => ⟨h.1, h.2.1, h.2.2.1⟩, fun h => ⟨h.1, h.2.1, h.2.2, _, rfl⟩⟩
  | setVelRef v =>
    unfold HWalkgen.step
    rw [require_iff, f2]
    exact ⟨fun h => h.1, fun h => ⟨h, _, rfl⟩⟩
  | setAngularVelRef v =>
    unfold HWalkgen.step
    rw [require_iff, f2]
    exact ⟨fun h => h.1, fun h => ⟨h, _, rfl⟩⟩
  | setStepPeriod p =>
    have hsT : w.sup.T = s.period := by rw [h.sup]; rfl
    unfold HWalkgen.step
    rw [require_iff, require_iff, hsT]
    constructor
    · rintro ⟨h1, h2, -⟩
      exact ⟨h1, by linarith⟩
    · rintro ⟨h1, h2⟩
      refine ⟨h1, by linarith, ?_⟩
      rw [ok_true_iff, h.sup]
      unfold Sup.setStepPeriod
      rw [require_iff, isInDS_supOf, ok_bind]
      exact ⟨h1, _, rfl⟩
  | setInitialDoubleSupportLength p =>
    unfold HWalkgen.step
    rw [ok_true_iff, h.sup]
    unfold Sup.setInitialDoubleSupportLength
    rw [isInDS_supOf, ok_bind, if_pos rfl]
    show (∃ r, _ = Except.ok r) ↔ (s.dsPeriod - EPS ≤ p ∨ -EPS < p)
    by_cases hp : p < s.dsPeriod - EPS
    · rw [if_pos (by exact hp), require_iff]
      constructor
      · rintro ⟨h1, -⟩
        have h1 : s.dsPeriod - p < s.dsPeriod + EPS := h1
        exact .inr (by linarith)
      · rintro (h1 | h1)
        · exact absurd hp (not_lt.2 h1)
        · exact ⟨by show s.dsPeriod - p < s.dsPeriod + EPS; linarith, _, rfl⟩
    · rw [if_neg (by exact hp)]
      exact ⟨fun _ => .inl (not_lt.1 hp), fun _ => ⟨_, rfl⟩⟩
  | setNbSamples n =>
    unfold HWalkgen.step
    rw [require_iff]
    constructor
    · exact fun h => h.1
    · intro hn
      have hn : 0 < n := hn
      obtain ⟨l, hl⟩ := Lip.refresh_ok (l := { w.lip with N := n }) f1 hn (by show 0 < w.lip.fb; rw [f4]; exact hT)
        (by show 0 < w.lip.T; rw [f3]; exact hT) hg hm ht hm0
      refine ⟨hn, ?_⟩
      have e1 : w.lip.setNbSamples n = .ok l := by unfold Lip.setNbSamples; rw [require_pos hn, ok_bind, hl]
      have e2 : w.sup.setNbSamples n = .ok { w.sup with N := n } := by
        unfold Sup.setNbSamples; rw [require_pos hn, ok_bind]; rfl
      rw [e1, ok_bind, e2, ok_bind]
      exact ⟨_, rfl⟩
  | setSamplingPeriod T =>
    unfold HWalkgen.step
    rw [require_iff]
    constructor
    · rintro ⟨-, r, e⟩
      obtain ⟨l, e1, -⟩ := bind_eq_ok.1 e
      obtain ⟨_, e1, -⟩ := bind_eq_ok.1 e1
      have e1 := require_eq_ok.1 e1
      exact e1
    · intro hn
      have hn : 0 < T := hn
      obtain ⟨l, hl⟩ := Lip.refresh_ok (l := { w.lip with T := T, fb := T }) f1 (by show 0 < w.lip.N; rw [f2]; exact hN)
        hn hn hg hm ht hm0
      refine ⟨hn.le, ?_⟩
      have e1 : w.lip.setSamplingPeriod T = .ok l := by unfold Lip.setSamplingPeriod; rw [require_pos hn, ok_bind, hl]
      have e2 : w.sup.setSamplingPeriod T = .ok { w.sup with T := T, fb := T } := by
        unfold Sup.setSamplingPeriod; rw [require_pos hn.le, ok_bind, require_pos hn, ok_bind]; rfl
      rw [e1, ok_bind, e2, ok_bind]
      exact ⟨_, rfl⟩
  | setComState a v =>
    cases a with
    | x =>
      unfold HWalkgen.step
      rw [ok_true_iff]
      unfold Lip.setStateX
      rw [require_iff]
      exact ⟨fun h => h.1, fun h => ⟨h, _, rfl⟩⟩
    | y =>
      unfold HWalkgen.step
      rw [ok_true_iff]
      unfold Lip.setStateY
      rw [require_iff]
      exact ⟨fun h => h.1, fun h => ⟨h, _, rfl⟩⟩
    | z =>
      unfold HWalkgen.step
      rw [require_iff, require_iff, require_iff, ok_true_iff]
      have e : ∃ l, w.lip.setComHeight (v.get 0) = .ok l :=
        Lip.refreshCop_ok (l := { w.lip with comHeight := v.get 0, z := { w.lip.z with p := v.get 0 } }) f1
          (by show 0 < w.lip.N; rw [f2]; exact hN) (by show 0 < w.lip.fb; rw [f4]; exact hT)
          (by show 0 < w.lip.T; rw [f3]; exact hT) hg hm ht hm0
      exact ⟨fun h => ⟨h.1, h.2.1, h.2.2.1⟩, fun h => ⟨h.1, h.2.1, h.2.2, e⟩⟩

theorem Accepts_setting {s : HumSettings K} {c : HCall K} (h : s.Accepts c) : IsSetting c := by
  cases c <;> trivial

theorem AcceptsAll_setting : ∀ {cs : List (HCall K)} {s : HumSettings K}, s.AcceptsAll cs → ∀ c ∈ cs, IsSetting c
  | [], _, _, _, hc => absurd hc (by simp)
  | c :: cs, s, h, c', hc => by
    rcases List.mem_cons.1 hc with rfl | hc
    · exact Accepts_setting h.1
    · exact AcceptsAll_setting h.2 c' hc

theorem Config.runs {hull : Vec (Pt K) → Res (Polygon K)} {o : Oracle K} {cs : List (HCall K)} :
    ∀ {s : HumSettings K} {w : HWalkgen K}, Config s w → (∀ c ∈ cs, IsSetting c) →
      ((∃ w', w.run hull o cs = .ok w') ↔ s.AcceptsAll cs) := by
  induction cs with
  | nil => intro s w _ _; exact ⟨fun _ => trivial, fun _ => ⟨w, rfl⟩⟩
  | cons c cs ih =>
    intro s w h hc
    have h1 := h.accepts (hull := hull) (o := o) (hc c (by simp))
    constructor
    · rintro ⟨w', e⟩
      obtain ⟨⟨b, w1⟩, e1, e⟩ := bind_eq_ok.1 e
      exact ⟨h1.1 ⟨_, e1⟩, (ih (h.step (hc c (by simp)) e1) fun c' h' => hc c' (by simp [h'])).1 ⟨w', e⟩⟩
    · rintro ⟨ha, hs⟩
      obtain ⟨⟨b, w1⟩, e1⟩ := h1.2 ha
      obtain ⟨w', e⟩ := (ih (h.step (hc c (by simp)) e1) fun c' h' => hc c' (by simp [h'])).2 hs
      exact ⟨w', by rw [HWalkgen.run, e1, ok_bind]; exact e⟩

/-! ### The tables -/

theorem rows_supOf (s : HumSettings K) :
    (if s.withCop then (supOf s).maxNbCop * s.nbSamples else 0) + (if s.withFeet then (supOf s).maxNbKin * s.nbSamples else 0) =
      s.rows := by
  unfold HumSettings.rows Sup.maxNbCop Sup.maxNbKin
  rw [Nat.max_zero]
  rfl

/-- The new tables have room for the rows. -/
theorem Config.tables {hull : Vec (Pt K) → Res (Polygon K)} {o : Oracle K} {s : HumSettings K} {w w' : HWalkgen K}
    {c : HCall K} {b : Bool} (h : Config s w) (hc : MakesTables c) (e : w.step hull o c = .ok (b, w')) :
    (s.set c).rows ≤ w'.maxCtr := by
  have h' : Config (s.set c) w' := h.step (by cases c <;> trivial) e
  have key : ∀ v : HWalkgen K, w' = v.computeConstantPart → (s.set c).rows ≤ w'.maxCtr := by
    intro v hv
    have e1 : v.sup = supOf (s.set c) := by rw [← h'.sup, hv]; rfl
    have e2 : v.withCop = (s.set c).withCop := by rw [← h'.withCop, hv]; rfl
    have e3 : v.withFeet = (s.set c).withFeet := by rw [← h'.withFeet, hv]; rfl
    rw [← rows_supOf, hv]
    unfold HWalkgen.computeConstantPart
    dsimp only
    rw [e1, e2, e3]
    have e4 : (supOf (s.set c)).N = (s.set c).nbSamples := rfl
    rw [e4]
    cases (s.set c).withCop <;> cases (s.set c).withFeet <;> simp
  cases c with
  | setNbSamples n =>
    obtain ⟨_, -, e⟩ := bind_eq_ok.1 e
    obtain ⟨l, el, e⟩ := bind_eq_ok.1 e
    obtain ⟨s', es, e⟩ := bind_eq_ok.1 e
    exact key _ (Prod.mk.inj (Except.ok.inj e)).2.symm
  | setConfig a b => exact key _ (Prod.mk.inj (Except.ok.inj e)).2.symm
  | _ => exact hc.elim

/-- Other calls leave the tables. -/
theorem Config.keep {hull : Vec (Pt K) → Res (Polygon K)} {o : Oracle K} {s : HumSettings K} {w w' : HWalkgen K}
    {c : HCall K} {b : Bool} (h : Config s w) (hc : IsSetting c) (hp : ¬ SetsPolygon c)
    (e : w.step hull o c = .ok (b, w')) (hr : s.rows ≤ w.maxCtr) : (s.set c).rows ≤ w'.maxCtr := by
  by_cases hm : MakesTables c
  · exact h.tables hm e
  cases c with
  | setMove m => exact hc.elim
  | solve fb => exact hc.elim
  | setKin left g => exact (hp trivial).elim
  | setCop left g => exact (hp trivial).elim
  | setNbSamples n => exact (hm trivial).elim
  | setConfig a b => exact (hm trivial).elim
  | setMaxHeight left g =>
    obtain ⟨-, rfl⟩ := Prod.mk.inj (Except.ok.inj e)
    cases left <;> exact hr
  | setFootState left a v =>
    obtain ⟨_, -, e⟩ := bind_eq_ok.1 e
    obtain ⟨-, rfl⟩ := Prod.mk.inj (Except.ok.inj e)
    cases left <;> cases a <;> exact hr
  | setWeightings wt =>
    obtain ⟨_, -, e⟩ := bind_eq_ok.1 e
    obtain ⟨_, -, e⟩ := bind_eq_ok.1 e
    obtain ⟨_, -, e⟩ := bind_eq_ok.1 e
    obtain ⟨-, rfl⟩ := Prod.mk.inj (Except.ok.inj e)
    exact hr
  | setVelRef v =>
    obtain ⟨_, -, e⟩ := bind_eq_ok.1 e
    obtain ⟨-, rfl⟩ := Prod.mk.inj (Except.ok.inj e)
    exact hr
  | setAngularVelRef v =>
    obtain ⟨_, -, e⟩ := bind_eq_ok.1 e
    obtain ⟨-, rfl⟩ := Prod.mk.inj (Except.ok.inj e)
    exact hr
  | setStepPeriod p =>
    obtain ⟨_, -, e⟩ := bind_eq_ok.1 e
    obtain ⟨_, -, e⟩ := bind_eq_ok.1 e
    obtain ⟨s', es, e⟩ := bind_eq_ok.1 e
    obtain ⟨-, rfl⟩ := Prod.mk.inj (Except.ok.inj e)
    exact hr
  | setInitialDoubleSupportLength p =>
    obtain ⟨s', es, e⟩ := bind_eq_ok.1 e
    obtain ⟨-, rfl⟩ := Prod.mk.inj (Except.ok.inj e)
    exact hr
  | setSamplingPeriod T =>
    obtain ⟨_, -, e⟩ := bind_eq_ok.1 e
    obtain ⟨l, el, e⟩ := bind_eq_ok.1 e
    obtain ⟨s', es, e⟩ := bind_eq_ok.1 e
    obtain ⟨-, rfl⟩ := Prod.mk.inj (Except.ok.inj e)
    exact hr
  | setComState a v =>
    cases a with
    | x =>
      obtain ⟨l, el, e⟩ := bind_eq_ok.1 e
      obtain ⟨-, rfl⟩ := Prod.mk.inj (Except.ok.inj e)
      exact hr
    | y =>
      obtain ⟨l, el, e⟩ := bind_eq_ok.1 e
      obtain ⟨-, rfl⟩ := Prod.mk.inj (Except.ok.inj e)
      exact hr
    | z =>
      obtain ⟨_, -, e⟩ := bind_eq_ok.1 e
      obtain ⟨_, -, e⟩ := bind_eq_ok.1 e
      obtain ⟨_, -, e⟩ := bind_eq_ok.1 e
      obtain ⟨l, el, e⟩ := bind_eq_ok.1 e
      obtain ⟨-, rfl⟩ := Prod.mk.inj (Except.ok.inj e)
      exact hr

theorem Config.keep_run {hull : Vec (Pt K) → Res (Polygon K)} {o : Oracle K} {cs : List (HCall K)} :
    ∀ {s : HumSettings K} {w w' : HWalkgen K}, Config s w → (∀ c ∈ cs, IsSetting c) → (∀ c ∈ cs, ¬ SetsPolygon c) →
      w.run hull o cs = .ok w' → s.rows ≤ w.maxCtr → (cs.foldl HumSettings.set s).rows ≤ w'.maxCtr := by
  induction cs with
  | nil => intro s w w' _ _ _ e hr; obtain rfl := Except.ok.inj e; exact hr
  | cons c cs ih =>
    intro s w w' h hc hp e hr
    obtain ⟨⟨b, w1⟩, e1, e⟩ := bind_eq_ok.1 e
    exact ih (h.step (hc c (by simp)) e1) (fun c' h' => hc c' (by simp [h'])) (fun c' h' => hp c' (by simp [h'])) e
      (h.keep (hc c (by simp)) (hp c (by simp)) e1 hr)

/-- The constructor succeeds. -/
theorem HWalkgen.make_total : ∃ w, HWalkgen.make (K := K) = .ok w := by
  have h2 : EPS < |(GRAVITY_NORM : K)| := by
    unfold GRAVITY_NORM EPS; rw [abs_of_pos (by norm_num)]; norm_num
  obtain ⟨l, hl⟩ := Lip.refresh_ok (l := lipRaw (HumSettings.default (K := K))) rfl Nat.one_pos one_pos one_pos h2
    le_rfl (by show EPS < (1 : K); unfold EPS; norm_num) zero_le_one
  have e : Lip.make 1 (1 : K) true = .ok l := hl
  obtain ⟨f2, f3⟩ : l.N = 1 ∧ l.T = 1 := by
    unfold Lip.refresh at hl
    rw [if_pos (by rfl)] at hl
    obtain ⟨-, -, -, vx, vy, p, v, a, -, -, -, -, -, e⟩ := Lip.computeDynamics_iff.1 hl
    rw [e]
    exact ⟨rfl, rfl⟩
  unfold HWalkgen.make Sup.init
  rw [require_pos one_pos, ok_bind, require_pos Nat.one_pos, ok_bind]
  refine (?_ : ∃ w, (do
    let lip ← Lip.make 1 (1 : K) true
    _ : Res (HWalkgen K)) = .ok w)
  rw [e, ok_bind, require_pos (by show 1 = l.N; rw [f2]), ok_bind,
    require_pos (by show |(1 : K) - l.T| < EPS; rw [f3, sub_self, abs_zero]; exact EPS_pos), ok_bind]
  exact ⟨_, rfl⟩

end MPC
