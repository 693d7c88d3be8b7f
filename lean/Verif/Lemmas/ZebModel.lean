import Verif.Spec.Zebulon
import Verif.Lemmas.LipFresh

/-! # The two models of `ZebulonWalkgen`: their dynamics are those of their current parameters -/

set_option linter.unusedSectionVars false

namespace MPC

variable {K : Type} [Field K] [LinearOrder K] [IsStrictOrderedRing K] [FloorRing K]

/-! ### `BaseModel` -/

/-- The caches of the base model are up to date. -/
structure Base.Fresh (b : Base K) : Prop where
  auto : b.auto = true
  N : 0 < b.N
  T : 0 < b.T
  gz : EPS < |b.gz|
  le : b.mass ≤ b.totalMass
  total : EPS < b.totalMass
  mass : 0 ≤ b.mass
  posd : b.pos = posDyn b.T b.T b.N
  vel : b.vel = velDyn b.T b.T b.N
  acc : b.acc = accDyn b.T b.T b.N
  jerk : b.jerk = computeJerkDynamic b.N
  copX : b.copX = copDyn b.T b.T b.N b.comHeight b.gx b.gz (b.mass / b.totalMass)
  copY : b.copY = copDyn b.T b.T b.N b.comHeight b.gy b.gz (b.mass / b.totalMass)
  tilt : b.tilt = pos2Dyn b.T b.T b.N
  tiltVel : b.tiltVel = vel2Dyn b.T b.T b.N

theorem Base.cop_eq_ok {b b₁ b' : Base K} (h1 : b.computeCopX = .ok b₁) (h2 : b₁.computeCopY = .ok b') :
    0 < b.T ∧ 0 < b.N ∧ EPS < |b.gz| ∧ b.mass ≤ b.totalMass ∧ EPS < b.totalMass ∧ 0 ≤ b.mass ∧
    b' = { b with copX := copDyn b.T b.T b.N b.comHeight b.gx b.gz (b.mass / b.totalMass)
                  copY := copDyn b.T b.T b.N b.comHeight b.gy b.gz (b.mass / b.totalMass) } := by
  unfold Base.computeCopX at h1
  obtain ⟨d, hd, h1⟩ := bind_eq_ok.1 h1
  obtain rfl := Except.ok.inj h1
  obtain ⟨-, a, b1, c, e, f, g, rfl⟩ := computeCopDynamic_eq_ok hd
  unfold Base.computeCopY at h2
  obtain ⟨d, hd, h2⟩ := bind_eq_ok.1 h2
  obtain rfl := Except.ok.inj h2
  obtain ⟨-, -, -, -, -, -, -, rfl⟩ := computeCopDynamic_eq_ok hd
  exact ⟨a, b1, c, e, f, g, rfl⟩

theorem Base.refresh_eq_ok {b b' : Base K} (ha : b.auto = true) (h : b.refresh = .ok b') :
    b'.Fresh ∧ b' = { b with
      pos := posDyn b.T b.T b.N
      vel := velDyn b.T b.T b.N
      acc := accDyn b.T b.T b.N
      jerk := computeJerkDynamic b.N
      copX := copDyn b.T b.T b.N b.comHeight b.gx b.gz (b.mass / b.totalMass)
      copY := copDyn b.T b.T b.N b.comHeight b.gy b.gz (b.mass / b.totalMass)
      tilt := pos2Dyn b.T b.T b.N
      tiltVel := vel2Dyn b.T b.T b.N } := by
  unfold Base.refresh at h
  rw [if_pos ha] at h
  unfold Base.computeDynamics at h
  obtain ⟨p, hp, h⟩ := bind_eq_ok.1 h
  obtain ⟨v, hv, h⟩ := bind_eq_ok.1 h
  obtain ⟨a, hac, h⟩ := bind_eq_ok.1 h
  obtain ⟨_, hN, h⟩ := bind_eq_ok.1 h
  obtain ⟨b₁, h1, h⟩ := bind_eq_ok.1 h
  obtain ⟨b₂, h2, h⟩ := bind_eq_ok.1 h
  obtain ⟨hT, -, -, rfl⟩ := computePosDynamic_eq_ok hp
  obtain ⟨-, -, -, rfl⟩ := computeVelDynamic_eq_ok hv
  obtain ⟨-, -, -, rfl⟩ := computeAccDynamic_eq_ok hac
  have hN := require_eq_ok.1 hN
  obtain ⟨-, -, c, d, e, f, rfl⟩ := Base.cop_eq_ok h1 h2
  unfold Base.computeTilt at h
  rw [computeOrder2PosDynamic_ok hT hT hN, ok_bind, computeOrder2VelDynamic_ok hT.ne' hT hN, ok_bind] at h
  obtain rfl := Except.ok.inj h
  exact ⟨⟨ha, hN, hT, c, d, e, f, rfl, rfl, rfl, rfl, rfl, rfl, rfl, rfl⟩, rfl⟩

theorem Base.refresh_ok {b : Base K} (ha : b.auto = true) (hN : 0 < b.N) (hT : 0 < b.T)
    (hg : EPS < |b.gz|) (hle : b.mass ≤ b.totalMass) (ht : EPS < b.totalMass) (hm : 0 ≤ b.mass) :
    ∃ b', b.refresh = .ok b' := by
  unfold Base.refresh
  rw [if_pos ha]
  unfold Base.computeDynamics
  rw [computePosDynamic_ok hT hT hN, ok_bind, computeVelDynamic_ok hT hT hN, ok_bind,
    computeAccDynamic_ok hT.ne' hT hN, ok_bind, require_pos hN, ok_bind]
  dsimp only
  unfold Base.computeCopX
  dsimp only
  rw [computeCopDynamic_ok hT hT hN hg hle ht hm, ok_bind, res_pure, ok_bind]
  unfold Base.computeCopY
  dsimp only
  rw [computeCopDynamic_ok hT hT hN hg hle ht hm, ok_bind, res_pure, ok_bind]
  unfold Base.computeTilt
  dsimp only
  rw [computeOrder2PosDynamic_ok hT hT hN, ok_bind, computeOrder2VelDynamic_ok hT.ne' hT hN, ok_bind]
  exact ⟨_, rfl⟩

/-- A base with up-to-date non-CoP dynamics whose CoP dynamics are recomputed. -/
theorem Base.refreshCop_eq_ok {b b' : Base K} (ha : b.auto = true) (h : b.refreshCop = .ok b') :
    0 < b.T ∧ 0 < b.N ∧ EPS < |b.gz| ∧ b.mass ≤ b.totalMass ∧ EPS < b.totalMass ∧ 0 ≤ b.mass ∧
    b' = { b with copX := copDyn b.T b.T b.N b.comHeight b.gx b.gz (b.mass / b.totalMass)
                  copY := copDyn b.T b.T b.N b.comHeight b.gy b.gz (b.mass / b.totalMass) } := by
  unfold Base.refreshCop at h
  rw [if_pos ha] at h
  obtain ⟨b₁, h1, h⟩ := bind_eq_ok.1 h
  exact Base.cop_eq_ok h1 h

theorem Base.refreshCop_ok {b : Base K} (ha : b.auto = true) (hN : 0 < b.N) (hT : 0 < b.T)
    (hg : EPS < |b.gz|) (hle : b.mass ≤ b.totalMass) (ht : EPS < b.totalMass) (hm : 0 ≤ b.mass) :
    ∃ b', b.refreshCop = .ok b' := by
  unfold Base.refreshCop
  rw [if_pos ha]
  unfold Base.computeCopX
  rw [computeCopDynamic_ok hT hT hN hg hle ht hm, ok_bind, res_pure, ok_bind]
  unfold Base.computeCopY
  dsimp only
  rw [computeCopDynamic_ok hT hT hN hg hle ht hm, ok_bind]
  exact ⟨_, rfl⟩

/-! ### `LIPModel` -/

theorem buildVec_total {α : Type} {d : α} {f : ℕ → Res α} :
    ∀ {n : ℕ}, (∀ i < n, ∃ a, f i = .ok a) → ∃ v, buildVec d f n = .ok v
  | 0, _ => ⟨_, rfl⟩
  | n + 1, h => by
    obtain ⟨v, hv⟩ := buildVec_total (n := n) fun i hi => h i (by omega)
    obtain ⟨a, ha⟩ := h n (by omega)
    exact ⟨_, by unfold buildVec; rw [hv, ok_bind, ha, ok_bind]; rfl⟩

/-- The loops of the CoP dynamics succeed. -/
theorem Lip.cop_total {l : Lip K} (hN : 0 < l.N) (hfb : 0 < l.fb) (hT : 0 < l.T)
    (hg : EPS < |l.gz|) (hle : l.mass ≤ l.totalMass) (ht : EPS < l.totalMass) (hm : 0 ≤ l.mass) :
    ∃ l₁ l', l.computeCopX = .ok l₁ ∧ l₁.computeCopY = .ok l' := by
  have hS : ∀ i : ℕ, (0 : K) < ((i + 1 : ℕ) : K) * l.fb := fun i => mul_pos (by positivity) hfb
  obtain ⟨vx, hx⟩ := buildVec_total (d := .empty) (n := l.nbFb) (f := fun i => computeCopDynamic
    (((i + 1 : ℕ) : K) * l.fb) l.T l.N l.comHeight l.gx l.gz l.mass l.totalMass)
    fun i _ => ⟨_, computeCopDynamic_ok (hS i) hT hN hg hle ht hm⟩
  obtain ⟨vy, hy⟩ := buildVec_total (d := .empty) (n := l.nbFb) (f := fun i => computeCopDynamic
    (((i + 1 : ℕ) : K) * l.fb) l.T l.N l.comHeight l.gy l.gz l.mass l.totalMass)
    fun i _ => ⟨_, computeCopDynamic_ok (hS i) hT hN hg hle ht hm⟩
  refine ⟨{ l with copX := vx }, { l with copX := vx, copY := vy }, ?_, ?_⟩
  · unfold Lip.computeCopX; rw [hx]; rfl
  · unfold Lip.computeCopY; dsimp only; rw [hy]; rfl

theorem Lip.refreshCop_ok {l : Lip K} (ha : l.auto = true) (hN : 0 < l.N) (hfb : 0 < l.fb) (hT : 0 < l.T)
    (hg : EPS < |l.gz|) (hle : l.mass ≤ l.totalMass) (ht : EPS < l.totalMass) (hm : 0 ≤ l.mass) :
    ∃ l', l.refreshCop = .ok l' := by
  obtain ⟨l₁, l', h1, h2⟩ := Lip.cop_total hN hfb hT hg hle ht hm
  unfold Lip.refreshCop
  rw [if_pos ha, h1, ok_bind, h2]
  exact ⟨_, rfl⟩

theorem Lip.refreshCop_eq_ok {l l' : Lip K} (ha : l.auto = true) (h : l.refreshCop = .ok l') :
    ∃ vx vy, l' = { l with copX := vx, copY := vy } := by
  unfold Lip.refreshCop at h
  rw [if_pos ha] at h
  obtain ⟨l₁, h1, h⟩ := bind_eq_ok.1 h
  obtain ⟨-, vx, vy, h, -⟩ := Lip.cop_ok h1 h
  exact ⟨vx, vy, h⟩

theorem Lip.refresh_eq_ok {l l' : Lip K} (ha : l.auto = true) (h : l.refresh = .ok l') :
    ∃ nb vx vy p v a j, l' = { l with nbFb := nb, copX := vx, copY := vy, pos := p, vel := v, acc := a
                                      jerk := j } := by
  unfold Lip.refresh at h
  rw [if_pos ha] at h
  unfold Lip.computeDynamics at h
  split_ifs at h
  obtain ⟨l₁, hx, h⟩ := bind_eq_ok.1 h
  obtain ⟨l₂, hy, h⟩ := bind_eq_ok.1 h
  obtain ⟨-, vx, vy, rfl, -⟩ := Lip.cop_ok hx hy
  obtain ⟨-, p, v, a, rfl, -⟩ := Lip.computeCom_ok h
  exact ⟨_, vx, vy, p, v, a, _, rfl⟩

theorem Lip.refresh_ok {l : Lip K} (ha : l.auto = true) (hN : 0 < l.N) (hfb : 0 < l.fb) (hT : 0 < l.T)
    (hg : EPS < |l.gz|) (hle : l.mass ≤ l.totalMass) (ht : EPS < l.totalMass) (hm : 0 ≤ l.mass) :
    ∃ l', l.refresh = .ok l' := by
  unfold Lip.refresh
  rw [if_pos ha]
  unfold Lip.computeDynamics
  have h0 : (0 : K) ≤ (l.T + EPS) / l.fb := div_nonneg (add_pos hT EPS_pos).le hfb.le
  have h1 : ¬ truncInt ((l.T + EPS) / l.fb) < 0 := by
    unfold truncInt; rw [if_pos h0]; exact not_lt.2 (Int.floor_nonneg.2 h0)
  rw [if_neg hfb.ne', if_neg h1]
  dsimp only
  obtain ⟨l₁, l₂, e1, e2⟩ := Lip.cop_total
    (l := { l with nbFb := (truncInt ((l.T + EPS) / l.fb)).toNat }) hN hfb hT hg hle ht hm
  rw [e1, ok_bind, e2, ok_bind]
  obtain ⟨-, vx, vy, rfl, -⟩ := Lip.cop_ok e1 e2
  have hS : ∀ i : ℕ, (0 : K) < ((i + 1 : ℕ) : K) * l.fb := fun i => mul_pos (by positivity) hfb
  unfold Lip.computeCom
  dsimp only
  generalize (truncInt ((l.T + EPS) / l.fb)).toNat = n
  obtain ⟨p, hp⟩ := buildVec_total (d := .empty) (n := n) (f := fun i => computePosDynamic
    (((i + 1 : ℕ) : K) * l.fb) l.T l.N) fun i _ => ⟨_, computePosDynamic_ok (hS i) hT hN⟩
  obtain ⟨v, hv⟩ := buildVec_total (d := .empty) (n := n) (f := fun i => computeVelDynamic
    (((i + 1 : ℕ) : K) * l.fb) l.T l.N) fun i _ => ⟨_, computeVelDynamic_ok (hS i) hT hN⟩
  obtain ⟨a, hac⟩ := buildVec_total (d := .empty) (n := n) (f := fun i => computeAccDynamic
    (((i + 1 : ℕ) : K) * l.fb) l.T l.N) fun i _ => ⟨_, computeAccDynamic_ok (hS i).ne' hT hN⟩
  rw [hp, ok_bind, hv, ok_bind, hac, ok_bind, require_pos hN, ok_bind]
  exact ⟨_, rfl⟩

/-! ### Both models and the settings -/

/-- The models hold the settings and their dynamics are up to date. -/
structure ZModel (s : Spec.ZebSettings K) (l : Lip K) (b : Base K) : Prop where
  lf : l.Fresh
  bf : b.Fresh
  lN : l.N = s.nbSamples
  lT : l.T = s.period
  lfb : l.fb = s.period
  lh : l.comHeight = s.bodyHeight
  lgx : l.gx = s.gx
  lgy : l.gy = s.gy
  lgz : l.gz = s.gz
  lm : l.mass = s.bodyMass
  lt : l.totalMass = s.bodyMass + s.baseMass
  bN : b.N = s.nbSamples
  bT : b.T = s.period
  bh : b.comHeight = s.baseHeight
  bgx : b.gx = s.gx
  bgy : b.gy = s.gy
  bgz : b.gz = s.gz
  bm : b.mass = s.baseMass
  bt : b.totalMass = s.bodyMass + s.baseMass

namespace ZModel

variable {s : Spec.ZebSettings K} {l : Lip K} {b : Base K}

theorem N_pos (h : ZModel s l b) : 0 < s.nbSamples := h.bN ▸ h.bf.N
theorem T_pos (h : ZModel s l b) : 0 < s.period := h.bT ▸ h.bf.T
theorem gz (h : ZModel s l b) : EPS < |s.gz| := h.bgz ▸ h.bf.gz
theorem gz_ne (h : ZModel s l b) : s.gz ≠ 0 := fun e => by
  have := h.gz; rw [e, abs_zero] at this; exact absurd EPS_pos (not_lt.2 this.le)
theorem total (h : ZModel s l b) : EPS < s.bodyMass + s.baseMass := h.bt ▸ h.bf.total
theorem total_pos (h : ZModel s l b) : 0 < s.bodyMass + s.baseMass := EPS_pos.trans h.total
theorem baseMass (h : ZModel s l b) : 0 ≤ s.baseMass := h.bm ▸ h.bf.mass

theorem nb (h : ZModel s l b) : (l.nbFb : ℤ) = ⌊(s.period + EPS) / s.period⌋ ∧ 0 < l.nbFb := by
  have h0 : (1 : K) ≤ (s.period + EPS) / s.period := by
    rw [le_div_iff₀ h.T_pos, one_mul]; exact le_add_of_nonneg_right EPS_pos.le
  have h1 := h.lf.nb
  rw [h.lT, h.lfb] at h1
  unfold truncInt at h1
  rw [if_pos (zero_le_one.trans h0)] at h1
  refine ⟨h1, ?_⟩
  have h2 : (1 : ℤ) ≤ ⌊(s.period + EPS) / s.period⌋ := Int.le_floor.2 (by exact_mod_cast h0)
  omega

theorem bodyMass (h : ZModel s l b) : 0 ≤ s.bodyMass := h.lm ▸ (h.lf.pos h.nb.2).2.mass

theorem first (h : ZModel s l b) : ((l.nbFb - 1 + 1 : ℕ) : K) * l.fb = Spec.comFirst s.period := by
  obtain ⟨h1, h2⟩ := h.nb
  unfold Spec.comFirst
  rw [h.lfb, ← h1, Int.cast_natCast]
  congr 2
  omega

theorem first_pos (h : ZModel s l b) : 0 < Spec.comFirst s.period := by
  rw [← h.first, h.lfb]
  exact mul_pos (by positivity) h.T_pos

theorem last_pos (h : ZModel s l b) :
    l.last l.pos = .ok (posDyn (Spec.comFirst s.period) s.period s.nbSamples) := by
  have hn := h.nb.2
  unfold Lip.last
  rw [requireIndex_pos hn, ok_bind, Vec.at?_ok (by rw [h.lf.sizes.2.2.1]; omega),
    h.lf.posd _ (by omega), h.first, h.lT, h.lN]

theorem last_vel (h : ZModel s l b) :
    l.last l.vel = .ok (velDyn (Spec.comFirst s.period) s.period s.nbSamples) := by
  have hn := h.nb.2
  unfold Lip.last
  rw [requireIndex_pos hn, ok_bind, Vec.at?_ok (by rw [h.lf.sizes.2.2.2.1]; omega),
    h.lf.vel _ (by omega), h.first, h.lT, h.lN]

theorem last_acc (h : ZModel s l b) :
    l.last l.acc = .ok (accDyn (Spec.comFirst s.period) s.period s.nbSamples) := by
  have hn := h.nb.2
  unfold Lip.last
  rw [requireIndex_pos hn, ok_bind, Vec.at?_ok (by rw [h.lf.sizes.2.2.2.2]; omega),
    h.lf.acc _ (by omega), h.first, h.lT, h.lN]

theorem last_copX (h : ZModel s l b) :
    l.last l.copX = .ok (copDyn (Spec.comFirst s.period) s.period s.nbSamples s.bodyHeight s.gx s.gz
      (s.bodyMass / (s.bodyMass + s.baseMass))) := by
  have hn := h.nb.2
  unfold Lip.last
  rw [requireIndex_pos hn, ok_bind, Vec.at?_ok (by rw [h.lf.sizes.1]; omega),
    h.lf.copX _ (by omega), h.first, h.lT, h.lN, h.lh, h.lgx, h.lgz, h.lm, h.lt]

theorem last_copY (h : ZModel s l b) :
    l.last l.copY = .ok (copDyn (Spec.comFirst s.period) s.period s.nbSamples s.bodyHeight s.gy s.gz
      (s.bodyMass / (s.bodyMass + s.baseMass))) := by
  have hn := h.nb.2
  unfold Lip.last
  rw [requireIndex_pos hn, ok_bind, Vec.at?_ok (by rw [h.lf.sizes.2.1]; omega),
    h.lf.copY _ (by omega), h.first, h.lT, h.lN, h.lh, h.lgy, h.lgz, h.lm, h.lt]

theorem pos (h : ZModel s l b) : b.pos = posDyn s.period s.period s.nbSamples := by
  rw [h.bf.posd, h.bT, h.bN]
theorem vel (h : ZModel s l b) : b.vel = velDyn s.period s.period s.nbSamples := by
  rw [h.bf.vel, h.bT, h.bN]
theorem acc (h : ZModel s l b) : b.acc = accDyn s.period s.period s.nbSamples := by
  rw [h.bf.acc, h.bT, h.bN]
theorem copX (h : ZModel s l b) : b.copX = copDyn s.period s.period s.nbSamples s.baseHeight s.gx s.gz
    (s.baseMass / (s.bodyMass + s.baseMass)) := by
  rw [h.bf.copX, h.bT, h.bN, h.bh, h.bgx, h.bgz, h.bm, h.bt]
theorem copY (h : ZModel s l b) : b.copY = copDyn s.period s.period s.nbSamples s.baseHeight s.gy s.gz
    (s.baseMass / (s.bodyMass + s.baseMass)) := by
  rw [h.bf.copY, h.bT, h.bN, h.bh, h.bgy, h.bgz, h.bm, h.bt]
theorem tilt (h : ZModel s l b) : b.tilt = pos2Dyn s.period s.period s.nbSamples := by
  rw [h.bf.tilt, h.bT, h.bN]
theorem tiltVel (h : ZModel s l b) : b.tiltVel = vel2Dyn s.period s.period s.nbSamples := by
  rw [h.bf.tiltVel, h.bT, h.bN]

theorem same (h : ZModel s l b) : requireSame l b = .ok () := by
  unfold requireSame
  rw [require_pos (h.bN.trans h.lN.symm), ok_bind, require_pos (h.bT.trans h.lT.symm)]

end ZModel

/-- For a sampling period above `EPS` the CoM is predicted on the same instants as the base. -/
theorem comFirst_eq {T : K} (hT : EPS < T) : Spec.comFirst T = T := by
  have h0 : (0 : K) < T := EPS_pos.trans hT
  have : ⌊(T + EPS) / T⌋ = 1 := by
    rw [Int.floor_eq_iff]
    constructor
    · rw [le_div_iff₀ h0]; push_cast; linarith [EPS_pos (K := K)]
    · rw [div_lt_iff₀ h0]; push_cast; linarith
  unfold Spec.comFirst
  rw [this]; simp

end MPC
