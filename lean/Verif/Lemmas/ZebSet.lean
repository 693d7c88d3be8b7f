import Verif.Lemmas.ZebTilt

/-! # The setters of `ZebulonWalkgen` keep its two models in agreement with the settings -/

set_option linter.unusedSectionVars false

namespace MPC

variable {K : Type} [Field K] [LinearOrder K] [IsStrictOrderedRing K] [FloorRing K]

/-! ### Recomputing the CoP dynamics -/

theorem Base.Fresh.cop {b b' : Base K} (hf : b.Fresh) (h gx gy gz m t : K)
    (e : Base.refreshCop { b with comHeight := h, gx := gx, gy := gy, gz := gz, mass := m, totalMass := t } = .ok b') :
    b'.Fresh ∧ ∃ vx vy, b' = { b with comHeight := h, gx := gx, gy := gy, gz := gz, mass := m, totalMass := t
                                      copX := vx, copY := vy } := by
  obtain ⟨hT, hN, c, d, e1, f, rfl⟩ := Base.refreshCop_eq_ok (b := { b with comHeight := h, gx := gx, gy := gy, gz := gz, mass := m, totalMass := t })
    hf.auto e
  exact ⟨⟨hf.auto, hN, hT, c, d, e1, f, hf.posd, hf.vel, hf.acc, hf.jerk, rfl, rfl, hf.tilt, hf.tiltVel⟩,
    _, _, rfl⟩

theorem Base.Fresh.copOk {b : Base K} (hf : b.Fresh) (h gx gy gz m t : K) (hg : EPS < |gz|) (hle : m ≤ t)
    (ht : EPS < t) (hm : 0 ≤ m) :
    ∃ b', Base.refreshCop { b with comHeight := h, gx := gx, gy := gy, gz := gz, mass := m, totalMass := t } = .ok b' :=
  Base.refreshCop_ok hf.auto hf.N hf.T hg hle ht hm

theorem Lip.Fresh.cop {l l' : Lip K} (hf : l.Fresh) (z : State3 K) (h gx gy gz m t : K)
    (e : Lip.refreshCop { l with z := z, comHeight := h, gx := gx, gy := gy, gz := gz, mass := m, totalMass := t } = .ok l') :
    l'.Fresh ∧ ∃ vx vy, l' = { l with z := z, comHeight := h, gx := gx, gy := gy, gz := gz, mass := m, totalMass := t
                                      copX := vx, copY := vy } :=
  ⟨(Lip.refreshCop_fresh (l₀ := l) (l := { l with z := z, comHeight := h, gx := gx, gy := gy, gz := gz, mass := m, totalMass := t }) hf ⟨rfl, rfl, rfl, rfl, rfl, rfl, rfl, rfl, rfl⟩ e).1,
    Lip.refreshCop_eq_ok
      (l := { l with z := z, comHeight := h, gx := gx, gy := gy, gz := gz, mass := m, totalMass := t }) hf.auto e⟩

theorem Lip.Fresh.copOk {l : Lip K} (hf : l.Fresh) (hfb : 0 < l.fb) (hT : 0 < l.T) (z : State3 K)
    (h gx gy gz m t : K) (hg : EPS < |gz|) (hle : m ≤ t) (ht : EPS < t) (hm : 0 ≤ m) :
    ∃ l', Lip.refreshCop { l with z := z, comHeight := h, gx := gx, gy := gy, gz := gz, mass := m, totalMass := t } = .ok l' :=
  Lip.refreshCop_ok hf.auto hf.N hfb hT hg hle ht hm

namespace ZModel

variable {s : Spec.ZebSettings K} {l : Lip K} {b : Base K}

theorem lTpos (h : ZModel s l b) : 0 < l.T := h.lT ▸ h.T_pos
theorem lfbpos (h : ZModel s l b) : 0 < l.fb := h.lfb ▸ h.T_pos

/-! ### Number of samples and sampling period -/

theorem setNbSamples (h : ZModel s l b) {n : ℕ} {l' : Lip K} {b' : Base K} (r : Vec K)
    (e1 : l.setNbSamples n = .ok l') (e2 : b.setNbSamples n = .ok b') :
    ZModel { s with nbSamples := n, comRef := r } l' b' ∧
    (∃ nb vx vy p v a j, l' = { l with N := n, nbFb := nb, copX := vx, copY := vy, pos := p, vel := v, acc := a
                                       jerk := j }) ∧
    ∃ p v a j cx cy t tv, b' = { b with N := n, pos := p, vel := v, acc := a, jerk := j, copX := cx, copY := cy
                                        tilt := t, tiltVel := tv } := by
  obtain ⟨_, -, e1⟩ := bind_eq_ok.1 e1
  obtain ⟨_, -, e2⟩ := bind_eq_ok.1 e2
  have hl := (Lip.refresh_fresh (l := { l with N := n }) h.lf.auto e1).1
  obtain ⟨hb, hb'⟩ := Base.refresh_eq_ok (b := { b with N := n }) h.bf.auto e2
  obtain ⟨nb, vx, vy, p, v, a, j, hl'⟩ := Lip.refresh_eq_ok (l := { l with N := n }) h.lf.auto e1
  refine ⟨?_, ⟨_, _, _, _, _, _, _, hl'⟩, ⟨_, _, _, _, _, _, _, _, hb'⟩⟩
  subst hl' hb'
  exact ⟨hl, hb, rfl, h.lT, h.lfb, h.lh, h.lgx, h.lgy, h.lgz, h.lm, h.lt, rfl, h.bT, h.bh, h.bgx, h.bgy, h.bgz,
    h.bm, h.bt⟩

theorem setNbSamplesOk (h : ZModel s l b) {n : ℕ} (hn : 0 < n) :
    ∃ l' b', l.setNbSamples n = .ok l' ∧ b.setNbSamples n = .ok b' := by
  have hg := (h.lf.pos h.nb.2).2
  obtain ⟨l', hl⟩ := Lip.refresh_ok (l := { l with N := n }) h.lf.auto hn h.lfbpos h.lTpos hg.gz hg.le hg.total hg.mass
  obtain ⟨b', hb⟩ := Base.refresh_ok (b := { b with N := n }) h.bf.auto hn h.bf.T h.bf.gz h.bf.le h.bf.total h.bf.mass
  refine ⟨l', b', ?_, ?_⟩
  · unfold Lip.setNbSamples; rw [require_pos hn, ok_bind, hl]
  · unfold Base.setNbSamples; rw [require_pos hn, ok_bind, hb]

theorem setSamplingPeriod (h : ZModel s l b) {T : K} {l' : Lip K} {b' : Base K}
    (e1 : l.setSamplingPeriod T = .ok l') (e2 : b.setSamplingPeriod T = .ok b') :
    ZModel { s with period := T } l' b' ∧
    (∃ nb vx vy p v a j, l' = { l with T := T, fb := T, nbFb := nb, copX := vx, copY := vy, pos := p, vel := v
                                       acc := a, jerk := j }) ∧
    ∃ p v a j cx cy t tv, b' = { b with T := T, pos := p, vel := v, acc := a, jerk := j, copX := cx, copY := cy
                                        tilt := t, tiltVel := tv } := by
  obtain ⟨_, -, e1⟩ := bind_eq_ok.1 e1
  obtain ⟨_, -, e2⟩ := bind_eq_ok.1 e2
  have hl := (Lip.refresh_fresh (l := { l with T := T, fb := T }) h.lf.auto e1).1
  obtain ⟨hb, hb'⟩ := Base.refresh_eq_ok (b := { b with T := T }) h.bf.auto e2
  obtain ⟨nb, vx, vy, p, v, a, j, hl'⟩ := Lip.refresh_eq_ok (l := { l with T := T, fb := T }) h.lf.auto e1
  refine ⟨?_, ⟨_, _, _, _, _, _, _, hl'⟩, ⟨_, _, _, _, _, _, _, _, hb'⟩⟩
  subst hl' hb'
  exact ⟨hl, hb, h.lN, rfl, rfl, h.lh, h.lgx, h.lgy, h.lgz, h.lm, h.lt, h.bN, rfl, h.bh, h.bgx, h.bgy, h.bgz,
    h.bm, h.bt⟩

theorem setSamplingPeriodOk (h : ZModel s l b) {T : K} (hT : 0 < T) :
    ∃ l' b', l.setSamplingPeriod T = .ok l' ∧ b.setSamplingPeriod T = .ok b' := by
  have hg := (h.lf.pos h.nb.2).2
  obtain ⟨l', hl⟩ := Lip.refresh_ok (l := { l with T := T, fb := T }) h.lf.auto h.lf.N hT hT hg.gz hg.le hg.total hg.mass
  obtain ⟨b', hb⟩ := Base.refresh_ok (b := { b with T := T }) h.bf.auto h.bf.N hT h.bf.gz h.bf.le h.bf.total h.bf.mass
  refine ⟨l', b', ?_, ?_⟩
  · unfold Lip.setSamplingPeriod; rw [require_pos hT, ok_bind, hl]
  · unfold Base.setSamplingPeriod; rw [require_pos hT, ok_bind, hb]

/-! ### Gravity, heights and masses: only the CoP dynamics change -/

theorem setGravity (h : ZModel s l b) {gx gy gz : K} {l' : Lip K} {b' : Base K}
    (e1 : l.setGravity gx gy gz = .ok l') (e2 : b.setGravity gx gy gz = .ok b') :
    ZModel { s with gx := gx, gy := gy, gz := gz } l' b' ∧
    (∃ vx vy, l' = { l with gx := gx, gy := gy, gz := gz, copX := vx, copY := vy }) ∧
    ∃ vx vy, b' = { b with gx := gx, gy := gy, gz := gz, copX := vx, copY := vy } := by
  obtain ⟨_, -, e1⟩ := bind_eq_ok.1 e1
  obtain ⟨_, -, e2⟩ := bind_eq_ok.1 e2
  obtain ⟨hl, vx, vy, hl'⟩ := h.lf.cop l.z l.comHeight gx gy gz l.mass l.totalMass e1
  obtain ⟨hb, ux, uy, hb'⟩ := h.bf.cop b.comHeight gx gy gz b.mass b.totalMass e2
  refine ⟨?_, ⟨_, _, hl'⟩, ⟨_, _, hb'⟩⟩
  subst hl' hb'
  exact ⟨hl, hb, h.lN, h.lT, h.lfb, h.lh, rfl, rfl, rfl, h.lm, h.lt, h.bN, h.bT, h.bh, rfl, rfl, rfl, h.bm, h.bt⟩

theorem setGravityOk (h : ZModel s l b) (gx gy : K) {gz : K} (hg : EPS < |gz|) :
    ∃ l' b', l.setGravity gx gy gz = .ok l' ∧ b.setGravity gx gy gz = .ok b' := by
  have hG := (h.lf.pos h.nb.2).2
  obtain ⟨l', hl⟩ := h.lf.copOk h.lfbpos h.lTpos l.z l.comHeight gx gy gz l.mass l.totalMass hg hG.le hG.total hG.mass
  obtain ⟨b', hb⟩ := h.bf.copOk b.comHeight gx gy gz b.mass b.totalMass hg h.bf.le h.bf.total h.bf.mass
  refine ⟨l', b', ?_, ?_⟩
  · unfold Lip.setGravity; rw [require_pos hG.gz, ok_bind]; exact hl
  · unfold Base.setGravity; rw [require_pos h.bf.gz, ok_bind]; exact hb

theorem setBodyHeight (h : ZModel s l b) {x : K} {l' : Lip K} (e : l.setComHeight x = .ok l') :
    ZModel { s with bodyHeight := x } l' b ∧
    ∃ z vx vy, l' = { l with z := z, comHeight := x, copX := vx, copY := vy } := by
  obtain ⟨hl, vx, vy, hl'⟩ := h.lf.cop { l.z with p := x } x l.gx l.gy l.gz l.mass l.totalMass e
  refine ⟨?_, ⟨_, _, _, hl'⟩⟩
  subst hl'
  exact ⟨hl, h.bf, h.lN, h.lT, h.lfb, rfl, h.lgx, h.lgy, h.lgz, h.lm, h.lt, h.bN, h.bT, h.bh, h.bgx, h.bgy, h.bgz,
    h.bm, h.bt⟩

theorem setBodyHeightOk (h : ZModel s l b) (x : K) : ∃ l', l.setComHeight x = .ok l' := by
  have hG := (h.lf.pos h.nb.2).2
  exact h.lf.copOk h.lfbpos h.lTpos { l.z with p := x } x l.gx l.gy l.gz l.mass l.totalMass hG.gz hG.le hG.total hG.mass

theorem setBaseHeight (h : ZModel s l b) {x : K} {b' : Base K} (e : b.setComHeight x = .ok b') :
    ZModel { s with baseHeight := x } l b' ∧ ∃ vx vy, b' = { b with comHeight := x, copX := vx, copY := vy } := by
  obtain ⟨hb, ux, uy, hb'⟩ := h.bf.cop x b.gx b.gy b.gz b.mass b.totalMass e
  refine ⟨?_, ⟨_, _, hb'⟩⟩
  subst hb'
  exact ⟨h.lf, hb, h.lN, h.lT, h.lfb, h.lh, h.lgx, h.lgy, h.lgz, h.lm, h.lt, h.bN, h.bT, rfl, h.bgx, h.bgy, h.bgz,
    h.bm, h.bt⟩

theorem setBaseHeightOk (h : ZModel s l b) (x : K) : ∃ b', b.setComHeight x = .ok b' :=
  h.bf.copOk x b.gx b.gy b.gz b.mass b.totalMass h.bf.gz h.bf.le h.bf.total h.bf.mass

theorem setBodyMass (h : ZModel s l b) {m : K} {l₁ l' : Lip K} {b' : Base K}
    (e1 : l.setTotalMass (m + b.mass) = .ok l₁) (e2 : b.setTotalMass (m + b.mass) = .ok b')
    (e3 : l₁.setMass m = .ok l') :
    ZModel { s with bodyMass := m } l' b' ∧
    (∃ t vx vy, l' = { l with mass := m, totalMass := t, copX := vx, copY := vy }) ∧
    ∃ t vx vy, b' = { b with totalMass := t, copX := vx, copY := vy } := by
  obtain ⟨_, -, e1⟩ := bind_eq_ok.1 e1
  obtain ⟨_, -, e2⟩ := bind_eq_ok.1 e2
  obtain ⟨_, -, e2⟩ := bind_eq_ok.1 e2
  obtain ⟨hl, vx, vy, hl'⟩ := h.lf.cop l.z l.comHeight l.gx l.gy l.gz l.mass (m + b.mass) e1
  obtain ⟨hb, ux, uy, hb'⟩ := h.bf.cop b.comHeight b.gx b.gy b.gz b.mass (m + b.mass) e2
  obtain ⟨hl2, wx, wy, hl2'⟩ := hl.cop l₁.z l₁.comHeight l₁.gx l₁.gy l₁.gz m l₁.totalMass e3
  refine ⟨?_, ⟨m + b.mass, wx, wy, ?_⟩, ⟨_, _, _, hb'⟩⟩
  · subst hl2' hl' hb'
    exact ⟨hl2, hb, h.lN, h.lT, h.lfb, h.lh, h.lgx, h.lgy, h.lgz, rfl, by rw [← h.bm], h.bN, h.bT, h.bh, h.bgx,
      h.bgy, h.bgz, h.bm, by rw [← h.bm]⟩
  · rw [hl2', hl']

theorem setBodyMassOk (h : ZModel s l b) {m : K} (hm : 0 ≤ m) (ht : EPS < m + s.baseMass)
    (hle : s.bodyMass ≤ m + s.baseMass) :
    ∃ l₁ l' b', l.setTotalMass (m + b.mass) = .ok l₁ ∧ b.setTotalMass (m + b.mass) = .ok b' ∧
      l₁.setMass m = .ok l' := by
  have hG := (h.lf.pos h.nb.2).2
  rw [← h.bm] at ht hle
  rw [← h.lm] at hle
  obtain ⟨l₁, hl⟩ := h.lf.copOk h.lfbpos h.lTpos l.z l.comHeight l.gx l.gy l.gz l.mass (m + b.mass) hG.gz hle ht hG.mass
  have hbm : b.mass ≤ m + b.mass := le_add_of_nonneg_left hm
  obtain ⟨b', hb⟩ := h.bf.copOk b.comHeight b.gx b.gy b.gz b.mass (m + b.mass) h.bf.gz hbm ht h.bf.mass
  obtain ⟨f1, vx, vy, e⟩ := h.lf.cop _ _ _ _ _ _ _ hl
  have hle' : m ≤ m + b.mass := le_add_of_nonneg_right h.bf.mass
  obtain ⟨l', hl2⟩ := f1.copOk (by rw [e]; exact h.lfbpos) (by rw [e]; exact h.lTpos) l₁.z l₁.comHeight l₁.gx l₁.gy
    l₁.gz m l₁.totalMass (by rw [e]; exact hG.gz) (by rw [e]; exact hle') (by rw [e]; exact ht) hm
  refine ⟨l₁, l', b', ?_, ?_, hl2⟩
  · unfold Lip.setTotalMass; rw [require_pos hle, ok_bind]; exact hl
  · unfold Base.setTotalMass; rw [require_pos hbm, ok_bind, require_pos (EPS_pos.trans ht), ok_bind]; exact hb

theorem setBaseMass (h : ZModel s l b) {m : K} {l' : Lip K} {b₁ b' : Base K}
    (e1 : l.setTotalMass (l.mass + m) = .ok l') (e2 : b.setTotalMass (l.mass + m) = .ok b₁)
    (e3 : b₁.setMass m = .ok b') :
    ZModel { s with baseMass := m } l' b' ∧
    (∃ t vx vy, l' = { l with totalMass := t, copX := vx, copY := vy }) ∧
    ∃ t vx vy, b' = { b with mass := m, totalMass := t, copX := vx, copY := vy } := by
  obtain ⟨_, -, e1⟩ := bind_eq_ok.1 e1
  obtain ⟨_, -, e2⟩ := bind_eq_ok.1 e2
  obtain ⟨_, -, e2⟩ := bind_eq_ok.1 e2
  obtain ⟨_, -, e3⟩ := bind_eq_ok.1 e3
  obtain ⟨hl, vx, vy, hl'⟩ := h.lf.cop l.z l.comHeight l.gx l.gy l.gz l.mass (l.mass + m) e1
  obtain ⟨hb, ux, uy, hb'⟩ := h.bf.cop b.comHeight b.gx b.gy b.gz b.mass (l.mass + m) e2
  obtain ⟨hb2, wx, wy, hb2'⟩ := hb.cop b₁.comHeight b₁.gx b₁.gy b₁.gz m b₁.totalMass e3
  refine ⟨?_, ⟨_, _, _, hl'⟩, ⟨l.mass + m, wx, wy, ?_⟩⟩
  · subst hb2' hl' hb'
    exact ⟨hl, hb2, h.lN, h.lT, h.lfb, h.lh, h.lgx, h.lgy, h.lgz, h.lm, by rw [← h.lm], h.bN, h.bT, h.bh, h.bgx,
      h.bgy, h.bgz, rfl, by rw [← h.lm]⟩
  · rw [hb2', hb']

theorem setBaseMassOk (h : ZModel s l b) {m : K} (hm : 0 < m) (ht : EPS < s.bodyMass + m)
    (hle : s.baseMass ≤ s.bodyMass + m) :
    ∃ l' b₁ b', l.setTotalMass (l.mass + m) = .ok l' ∧ b.setTotalMass (l.mass + m) = .ok b₁ ∧
      b₁.setMass m = .ok b' := by
  have hG := (h.lf.pos h.nb.2).2
  rw [← h.lm] at ht hle
  rw [← h.bm] at hle
  have hlm : l.mass ≤ l.mass + m := le_add_of_nonneg_right hm.le
  obtain ⟨l', hl⟩ := h.lf.copOk h.lfbpos h.lTpos l.z l.comHeight l.gx l.gy l.gz l.mass (l.mass + m) hG.gz hlm ht hG.mass
  obtain ⟨b₁, hb⟩ := h.bf.copOk b.comHeight b.gx b.gy b.gz b.mass (l.mass + m) h.bf.gz hle ht h.bf.mass
  obtain ⟨f1, vx, vy, e⟩ := h.bf.cop _ _ _ _ _ _ hb
  have hle' : m ≤ l.mass + m := le_add_of_nonneg_left hG.mass
  obtain ⟨b', hb2⟩ := f1.copOk b₁.comHeight b₁.gx b₁.gy b₁.gz m b₁.totalMass
    (by rw [e]; exact h.bf.gz) (by rw [e]; exact hle') (by rw [e]; exact ht) hm.le
  refine ⟨l', b₁, b', ?_, ?_, ?_⟩
  · unfold Lip.setTotalMass; rw [require_pos hlm, ok_bind]; exact hl
  · unfold Base.setTotalMass; rw [require_pos hle, ok_bind, require_pos (EPS_pos.trans ht), ok_bind]; exact hb
  · unfold Base.setMass; rw [require_pos hm, ok_bind]; exact hb2

end ZModel

end MPC
