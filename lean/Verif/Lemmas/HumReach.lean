import Verif.Lemmas.LipFresh
import Verif.Lemmas.SupGrid
import Verif.Lemmas.SupChain
import Verif.Spec.Humanoid

/-! # Invariants of the histories of `HumanoidWalkgen` -/

set_option linter.unusedSectionVars false

namespace MPC

variable {K : Type} [Field K] [LinearOrder K]

/-! ### Selection and weight matrices -/

theorem Mat.set?_dims {A B : Mat K} {i j : ℕ} {x : K} (h : A.set? i j x = .ok B) :
    B.rows = A.rows ∧ B.cols = A.cols := by
  unfold Mat.set? at h
  obtain ⟨_, -, h⟩ := bind_eq_ok.1 h
  obtain rfl := Except.ok.inj h
  exact ⟨rfl, rfl⟩

/-- Dimensions of the matrices of `computeSelectionMatrix`. -/
def SelDims (N M : ℕ) (l : SelState K) : Prop :=
  l.V0.rows = N ∧ l.V0.cols = 1 ∧ l.V.rows = N ∧ l.V.cols = M

theorem SelDims.inner {N M : ℕ} {s : Sup K} {l l' : SelState K} (h : SelDims N M l)
    (hs : s.selInner l = .ok l') : SelDims N M l' := by
  obtain ⟨ds, -, hs⟩ := bind_eq_ok.1 hs
  dsimp only at hs
  split at hs
  all_goals
    obtain ⟨V, hV, hs⟩ := bind_eq_ok.1 hs
    obtain ⟨_, ha, hs⟩ := bind_eq_ok.1 hs
    obtain ⟨_, -, hs⟩ := bind_eq_ok.1 hs
    cases ha
    cases hs
    obtain ⟨e1, e2⟩ := Mat.set?_dims hV
    simp only [SelDims, e1, e2]
    exact h

theorem SelDims.outer {N M : ℕ} {s : Sup K} {l l' : SelState K} (h : SelDims N M l)
    (hs : s.selOuter l = .ok l') : SelDims N M l' := by
  obtain ⟨ph, -, hs⟩ := bind_eq_ok.1 hs
  obtain ⟨a, ha, hs⟩ := bind_eq_ok.1 hs
  obtain ⟨ds, -, hs⟩ := bind_eq_ok.1 hs
  cases hs
  exact (whileLoop_ok (SelDims N M) ha h fun a b _ hI hb => hI.inner hb).1

theorem Sup.selection_dims {s s' : Sup K} (h : s.selection = .ok s') :
    0 < s.N ∧ s'.V0.rows = s.N ∧ s'.V0.cols = 1 ∧ s'.V.rows = s.N ∧ s'.V.cols = s.M ∧
      s'.VT = s'.V.transpose := by
  unfold Sup.selection at h
  obtain ⟨_, hN, h⟩ := bind_eq_ok.1 h
  have hN := require_eq_ok.1 hN
  obtain ⟨l₁, h1, h⟩ := bind_eq_ok.1 h
  obtain ⟨l₂, h2, h⟩ := bind_eq_ok.1 h
  obtain rfl := Except.ok.inj h
  have d1 := (whileLoop_ok (SelDims s.N s.M) h1 ⟨rfl, rfl, rfl, rfl⟩ (fun a b _ hI hb => by
    obtain ⟨V, hV, hb⟩ := bind_eq_ok.1 hb
    cases hb
    obtain ⟨e1, e2⟩ := Mat.set?_dims hV
    simp only [SelDims, e1, e2]
    exact hI)).1
  have d2 := (whileLoop_ok (SelDims s.N s.M) h2 d1 (fun a b _ hI hb => hI.outer hb)).1
  exact ⟨hN, d2.1, d2.2.1, d2.2.2.1, d2.2.2.2, rfl⟩

theorem Sup.sampleWeight_diag {s : Sup K} {w : Mat K} (h : s.sampleWeight = .ok w) :
    w.rows = s.N ∧ w.cols = s.N ∧ ∀ i j, i ≠ j → w.get i j = 0 := by
  unfold Sup.sampleWeight at h
  obtain ⟨t, -, h⟩ := bind_eq_ok.1 h
  split at h
  · cases h
  obtain ⟨w₁, h1, h⟩ := bind_eq_ok.1 h
  obtain ⟨_, -, h⟩ := bind_eq_ok.1 h
  obtain ⟨a, -, h⟩ := bind_eq_ok.1 h
  unfold Mat.set? at h1 h
  obtain ⟨_, -, h1⟩ := bind_eq_ok.1 h1
  obtain ⟨_, -, h⟩ := bind_eq_ok.1 h
  obtain rfl := Except.ok.inj h1
  obtain rfl := Except.ok.inj h
  refine ⟨rfl, rfl, fun i j hij => ?_⟩
  dsimp only
  rw [if_neg (by rintro ⟨rfl, rfl⟩; exact hij rfl), if_neg (by rintro ⟨rfl, rfl⟩; exact hij rfl)]
  simp [Mat.one, hij]

/-- What the objectives need to know about the supervisor. -/
structure Sup.Shaped (s : Sup K) : Prop where
  N : 0 < s.N
  V0r : s.V0.rows = s.N
  V0c : s.V0.cols = 1
  Vr : s.V.rows = s.N
  Vc : s.V.cols = s.M
  VT : s.VT = s.V.transpose
  Wr : s.weight.rows = s.N
  Wc : s.weight.cols = s.N
  Wd : ∀ i j, i ≠ j → s.weight.get i j = 0

theorem Sup.updateTimeline_shaped {s s' : Sup K} {v v' : Vec K} {fb : K}
    (h : s.updateTimeline v fb = .ok (s', v')) : s'.Shaped := by
  have hw : s'.sampleWeight = .ok s'.weight := by
    obtain ⟨_, _, _, hc⟩ := Sup.updateTimeline_chain h
    exact hc.weight
  unfold Sup.updateTimeline at h
  obtain ⟨_, -, h⟩ := bind_eq_ok.1 h
  obtain ⟨_, -, h⟩ := bind_eq_ok.1 h
  obtain ⟨⟨s₁, v₁⟩, hpop, h⟩ := bind_eq_ok.1 h
  obtain ⟨l, hl, h⟩ := bind_eq_ok.1 h
  obtain ⟨sv, -, h⟩ := bind_eq_ok.1 h
  obtain ⟨w, -, h⟩ := bind_eq_ok.1 h
  obtain ⟨s₂, h2, h⟩ := bind_eq_ok.1 h
  cases h
  obtain ⟨a, b, c, d, e, f⟩ := Sup.selection_dims h2
  have hf := Sup.selection_frame h2
  have hN : s'.N = l.sup.N := by rw [hf]
  have hM : s'.M = l.sup.M := by rw [hf]
  obtain ⟨g1, g2, g3⟩ := Sup.sampleWeight_diag hw
  exact ⟨hN ▸ a, b.trans hN.symm, c, d.trans hN.symm, e.trans hM.symm, f, g1, g2, g3⟩

/-! ### Histories -/

variable [IsStrictOrderedRing K] [FloorRing K]

/-- What stays true of the LIP model and of the supervisor. -/
structure HumInv (w : HWalkgen K) : Prop where
  fresh : w.lip.Fresh
  mass : w.lip.mass = 1
  total : w.lip.totalMass = 1
  gx : w.lip.gx = 0
  gy : w.lip.gy = 0
  gz : w.lip.gz = GRAVITY_NORM
  N : w.sup.N = w.lip.N
  T : w.sup.T = w.lip.T

/-- The part of the generator that matters. -/
theorem HumInv.congr {w w' : HWalkgen K} (h : HumInv w) (hl : w'.lip = w.lip) (hN : w'.sup.N = w.sup.N)
    (hT : w'.sup.T = w.sup.T) : HumInv w' := by
  obtain ⟨a, b, c, d, e, f, g, i⟩ := h
  exact ⟨hl ▸ a, hl ▸ b, hl ▸ c, hl ▸ d, hl ▸ e, hl ▸ f, by rw [hN, hl]; exact g, by rw [hT, hl]; exact i⟩

theorem HumInv.make {w : HWalkgen K} (h : HWalkgen.make = .ok w) : HumInv w := by
  unfold HWalkgen.make at h
  obtain ⟨s, hs, h⟩ := bind_eq_ok.1 h
  obtain ⟨l, hl, h⟩ := bind_eq_ok.1 h
  obtain ⟨_, hN, h⟩ := bind_eq_ok.1 h
  have hN := require_eq_ok.1 hN
  obtain ⟨_, -, h⟩ := bind_eq_ok.1 h
  obtain rfl := Except.ok.inj h
  obtain ⟨hf, p⟩ := Lip.refresh_fresh (K := K) rfl hl
  obtain ⟨-, p2, p3, -, -, -, -, -, p8, p9, p10, p11, p12⟩ := p
  have hT : s.T = 1 := by
    unfold Sup.init at hs
    obtain ⟨_, -, hs⟩ := bind_eq_ok.1 hs
    obtain ⟨_, -, hs⟩ := bind_eq_ok.1 hs
    obtain rfl := Except.ok.inj hs
    rfl
  exact ⟨hf, p11, p12, p8, p9, p10, hN, hT.trans p3.symm⟩

theorem HumInv.begin {w w' : HWalkgen K} {fb : K} (h : HumInv w) (hb : w.begin fb = .ok w') :
    HumInv w' ∧ w'.sup.Shaped ∧ w'.sup.fb = fb ∧ 0 < fb := by
  unfold HWalkgen.begin at hb
  obtain ⟨⟨s, X⟩, h1, hb⟩ := bind_eq_ok.1 hb
  obtain ⟨f, -, -, e1, e2, -, -, -, -, -, efb, -⟩ := Sup.updateTimeline_running h1
  have hsh := Sup.updateTimeline_shaped h1
  dsimp only at hb
  have key : ∃ l, (w.lip.setFeedbackPeriod fb = .ok l ∨ l = w.lip) ∧ (do
      require (0 < fb)
      require (s.N = l.N)
      HWalkgen.firstGuess { w with sup := s, X := X, lip := l }) = .ok w' := by
    split at hb
    · obtain ⟨l, h2, hb⟩ := bind_eq_ok.1 hb
      exact ⟨l, .inl h2, hb⟩
    · obtain ⟨l, h2, hb⟩ := bind_eq_ok.1 hb
      exact ⟨l, .inr (Except.ok.inj h2).symm, hb⟩
  obtain ⟨l, h2, hb⟩ := key
  obtain ⟨_, h3, hb⟩ := bind_eq_ok.1 hb
  obtain ⟨_, h4, hb⟩ := bind_eq_ok.1 hb
  have h3 := require_eq_ok.1 h3
  have h4 := require_eq_ok.1 h4
  have hw : w'.sup = s ∧ w'.lip = l := by
    unfold HWalkgen.firstGuess at hb
    split at hb
    · simp only [bind_eq_ok] at hb
      obtain ⟨_, -, _, -, _, -, _, -, _, -, _, -, _, -, _, -, _, -, _, -, _, -, _, -, hb⟩ := hb
      obtain rfl := Except.ok.inj hb
      exact ⟨rfl, rfl⟩
    · obtain rfl := Except.ok.inj hb
      exact ⟨rfl, rfl⟩
  have hl : l.Fresh ∧ l.mass = 1 ∧ l.totalMass = 1 ∧ l.gx = 0 ∧ l.gy = 0 ∧ l.gz = GRAVITY_NORM ∧
      l.T = w.lip.T := by
    rcases h2 with h2 | h2
    · unfold Lip.setFeedbackPeriod at h2
      obtain ⟨_, -, h2⟩ := bind_eq_ok.1 h2
      obtain ⟨hf, p⟩ := Lip.refresh_fresh (l := { w.lip with fb := fb }) h.fresh.auto h2
      obtain ⟨-, p2, p3, -, -, -, -, -, p8, p9, p10, p11, p12⟩ := p
      exact ⟨hf, p11.trans h.mass, p12.trans h.total, p8.trans h.gx, p9.trans h.gy, p10.trans h.gz, p3⟩
    · subst h2
      exact ⟨h.fresh, h.mass, h.total, h.gx, h.gy, h.gz, rfl⟩
  obtain ⟨a, b, c, d, e, g, i⟩ := hl
  refine ⟨⟨hw.2 ▸ a, hw.2 ▸ b, hw.2 ▸ c, hw.2 ▸ d, hw.2 ▸ e, hw.2 ▸ g, ?_, ?_⟩, hw.1 ▸ hsh, hw.1 ▸ efb, h3⟩
  · rw [hw.1, hw.2]; exact h4
  · rw [hw.1, hw.2, i, e2]; exact h.T

theorem HumInv.prepare {hull : Vec (Pt K) → Res (Polygon K)} {w w' : HWalkgen K} {fb : K} {idx : ℕ}
    {qp : QPMatrices K} (h : HumInv w) (hp : w.prepare hull fb = .ok (w', idx, qp)) :
    HumInv w' ∧ w'.sup.Shaped ∧ w'.sup.fb = fb ∧ 0 < fb := by
  unfold HWalkgen.prepare at hp
  obtain ⟨w₁, h1, hp⟩ := bind_eq_ok.1 hp
  obtain ⟨⟨a, b⟩, -, hp⟩ := bind_eq_ok.1 hp
  obtain ⟨q, -, hp⟩ := bind_eq_ok.1 hp
  obtain ⟨q', -, hp⟩ := bind_eq_ok.1 hp
  obtain ⟨q'', -, hp⟩ := bind_eq_ok.1 hp
  have hp := Except.ok.inj hp
  simp only [Prod.mk.injEq] at hp
  obtain ⟨rfl, -, -⟩ := hp
  obtain ⟨i1, i2, i3, i4⟩ := h.begin h1
  exact ⟨i1.congr rfl rfl rfl, i2, i3, i4⟩

theorem HumInv.finish {w w' : HWalkgen K} {fb : K} (h : HumInv w) (hf : w.finish fb = .ok w') :
    HumInv w' := by
  unfold HWalkgen.finish at hf
  obtain ⟨X, -, hf⟩ := bind_eq_ok.1 hf
  obtain ⟨t, -, hf⟩ := bind_eq_ok.1 hf
  obtain ⟨j, -, hf⟩ := bind_eq_ok.1 hf
  obtain ⟨l₁, h1, hf⟩ := bind_eq_ok.1 hf
  obtain ⟨j', -, hf⟩ := bind_eq_ok.1 hf
  obtain ⟨l₂, h2, hf⟩ := bind_eq_ok.1 hf
  obtain ⟨sv, -, hf⟩ := bind_eq_ok.1 hf
  obtain ⟨s, h3, hf⟩ := bind_eq_ok.1 hf
  obtain rfl := Except.ok.inj hf
  obtain ⟨e1, e2, -⟩ := Sup.updateFeet_frame h3
  obtain ⟨sx, -, h1⟩ := bind_eq_ok.1 h1
  obtain rfl := Except.ok.inj h1
  obtain ⟨sy, -, h2⟩ := bind_eq_ok.1 h2
  obtain rfl := Except.ok.inj h2
  exact ⟨h.fresh.state _ _, h.mass, h.total, h.gx, h.gy, h.gz, e1.trans h.N, e2.trans h.T⟩

theorem Sup.mapFoot_frame (s : Sup K) (left : Bool) (f : Foot K → Foot K) :
    (s.mapFoot left f).N = s.N ∧ (s.mapFoot left f).T = s.T := by
  unfold Sup.mapFoot
  split <;> exact ⟨rfl, rfl⟩

theorem HumInv.step {hull : Vec (Pt K) → Res (Polygon K)} {o : Oracle K} {w w' : HWalkgen K} {b : Bool}
    {c : HCall K} (h : HumInv w) (hs : w.step hull o c = .ok (b, w')) : HumInv w' := by
  cases c with
  | setNbSamples n =>
    obtain ⟨_, -, hs⟩ := bind_eq_ok.1 hs
    obtain ⟨l, hl, hs⟩ := bind_eq_ok.1 hs
    obtain ⟨s, hsup, hs⟩ := bind_eq_ok.1 hs
    obtain ⟨-, rfl⟩ := Prod.mk.inj (Except.ok.inj hs)
    obtain ⟨_, -, hl⟩ := bind_eq_ok.1 hl
    obtain ⟨_, -, hsup⟩ := bind_eq_ok.1 hsup
    obtain rfl := Except.ok.inj hsup
    obtain ⟨hf, p⟩ := Lip.refresh_fresh (l := { w.lip with N := n }) h.fresh.auto hl
    obtain ⟨-, p2, p3, -, -, -, -, -, p8, p9, p10, p11, p12⟩ := p
    exact ⟨hf, p11.trans h.mass, p12.trans h.total, p8.trans h.gx, p9.trans h.gy, p10.trans h.gz, p2.symm,
      h.T.trans p3.symm⟩
  | setSamplingPeriod T =>
    obtain ⟨_, -, hs⟩ := bind_eq_ok.1 hs
    obtain ⟨l, hl, hs⟩ := bind_eq_ok.1 hs
    obtain ⟨s, hsup, hs⟩ := bind_eq_ok.1 hs
    obtain ⟨-, rfl⟩ := Prod.mk.inj (Except.ok.inj hs)
    obtain ⟨_, -, hl⟩ := bind_eq_ok.1 hl
    obtain ⟨_, -, hsup⟩ := bind_eq_ok.1 hsup
    obtain ⟨_, -, hsup⟩ := bind_eq_ok.1 hsup
    obtain rfl := Except.ok.inj hsup
    obtain ⟨hf, p⟩ := Lip.refresh_fresh (l := { w.lip with T := T, fb := T }) h.fresh.auto hl
    obtain ⟨-, p2, p3, -, -, -, -, -, p8, p9, p10, p11, p12⟩ := p
    exact ⟨hf, p11.trans h.mass, p12.trans h.total, p8.trans h.gx, p9.trans h.gy, p10.trans h.gz,
      h.N.trans p2.symm, p3.symm⟩
  | setStepPeriod p =>
    obtain ⟨_, -, hs⟩ := bind_eq_ok.1 hs
    obtain ⟨_, -, hs⟩ := bind_eq_ok.1 hs
    obtain ⟨s, h1, hs⟩ := bind_eq_ok.1 hs
    obtain ⟨-, rfl⟩ := Prod.mk.inj (Except.ok.inj hs)
    have : s.N = w.sup.N ∧ s.T = w.sup.T := by
      unfold Sup.setStepPeriod at h1
      obtain ⟨_, -, h1⟩ := bind_eq_ok.1 h1
      obtain ⟨ds, -, h1⟩ := bind_eq_ok.1 h1
      split at h1
      · obtain rfl := Except.ok.inj h1; exact ⟨rfl, rfl⟩
      · obtain ⟨_, -, h1⟩ := bind_eq_ok.1 h1
        obtain ⟨tl, -, h1⟩ := bind_eq_ok.1 h1
        obtain rfl := Except.ok.inj h1; exact ⟨rfl, rfl⟩
    exact h.congr rfl this.1 this.2
  | setInitialDoubleSupportLength p =>
    obtain ⟨s, h1, hs⟩ := bind_eq_ok.1 hs
    obtain ⟨-, rfl⟩ := Prod.mk.inj (Except.ok.inj hs)
    have : s.N = w.sup.N ∧ s.T = w.sup.T := by
      unfold Sup.setInitialDoubleSupportLength at h1
      obtain ⟨ds, -, h1⟩ := bind_eq_ok.1 h1
      dsimp only at h1
      split at h1
      · have key : ∃ tl, { w.sup with dsPeriod := p, ttnp := w.sup.ttnp + (p - w.sup.dsPeriod), timeline := tl } = s := by
          split at h1
          · obtain ⟨_, -, h1⟩ := bind_eq_ok.1 h1
            obtain ⟨tl, -, h1⟩ := bind_eq_ok.1 h1
            exact ⟨tl, Except.ok.inj h1⟩
          · obtain ⟨tl, -, h1⟩ := bind_eq_ok.1 h1
            exact ⟨tl, Except.ok.inj h1⟩
        obtain ⟨tl, rfl⟩ := key
        exact ⟨rfl, rfl⟩
      · obtain rfl := Except.ok.inj h1; exact ⟨rfl, rfl⟩
    exact h.congr rfl this.1 this.2
  | setKin left g =>
    obtain ⟨-, rfl⟩ := Prod.mk.inj (Except.ok.inj hs)
    exact h.congr rfl (Sup.mapFoot_frame _ _ _).1 (Sup.mapFoot_frame _ _ _).2
  | setCop left g =>
    obtain ⟨-, rfl⟩ := Prod.mk.inj (Except.ok.inj hs)
    exact h.congr rfl (Sup.mapFoot_frame _ _ _).1 (Sup.mapFoot_frame _ _ _).2
  | setVelRef v =>
    obtain ⟨_, -, hs⟩ := bind_eq_ok.1 hs
    obtain ⟨-, rfl⟩ := Prod.mk.inj (Except.ok.inj hs)
    exact h.congr rfl rfl rfl
  | setAngularVelRef v =>
    obtain ⟨_, -, hs⟩ := bind_eq_ok.1 hs
    obtain ⟨-, rfl⟩ := Prod.mk.inj (Except.ok.inj hs)
    exact h
  | setFootState left a v =>
    obtain ⟨_, -, hs⟩ := bind_eq_ok.1 hs
    obtain ⟨-, rfl⟩ := Prod.mk.inj (Except.ok.inj hs)
    exact h.congr rfl (Sup.mapFoot_frame _ _ _).1 (Sup.mapFoot_frame _ _ _).2
  | setComState a v =>
    cases a with
    | x =>
      obtain ⟨l, hl, hs⟩ := bind_eq_ok.1 hs
      obtain ⟨-, rfl⟩ := Prod.mk.inj (Except.ok.inj hs)
      obtain ⟨_, -, hl⟩ := bind_eq_ok.1 hl
      obtain rfl := Except.ok.inj hl
      exact ⟨h.fresh.state _ _, h.mass, h.total, h.gx, h.gy, h.gz, h.N, h.T⟩
    | y =>
      obtain ⟨l, hl, hs⟩ := bind_eq_ok.1 hs
      obtain ⟨-, rfl⟩ := Prod.mk.inj (Except.ok.inj hs)
      obtain ⟨_, -, hl⟩ := bind_eq_ok.1 hl
      obtain rfl := Except.ok.inj hl
      exact ⟨h.fresh.state _ _, h.mass, h.total, h.gx, h.gy, h.gz, h.N, h.T⟩
    | z =>
      obtain ⟨_, -, hs⟩ := bind_eq_ok.1 hs
      obtain ⟨_, -, hs⟩ := bind_eq_ok.1 hs
      obtain ⟨_, -, hs⟩ := bind_eq_ok.1 hs
      obtain ⟨l, hl, hs⟩ := bind_eq_ok.1 hs
      obtain ⟨-, rfl⟩ := Prod.mk.inj (Except.ok.inj hs)
      obtain ⟨hf, p⟩ := Lip.refreshCop_fresh
        (l := { w.lip with comHeight := v.get 0, z := { w.lip.z with p := v.get 0 } }) h.fresh
        ⟨rfl, rfl, rfl, rfl, rfl, rfl, rfl, rfl, rfl⟩ hl
      obtain ⟨-, p2, p3, -, -, -, -, -, p8, p9, p10, p11, p12⟩ := p
      exact ⟨hf, p11.trans h.mass, p12.trans h.total, p8.trans h.gx, p9.trans h.gy, p10.trans h.gz,
        h.N.trans p2.symm, h.T.trans p3.symm⟩
  | setMaxHeight left x =>
    obtain ⟨-, rfl⟩ := Prod.mk.inj (Except.ok.inj hs)
    exact h.congr rfl (Sup.mapFoot_frame _ _ _).1 (Sup.mapFoot_frame _ _ _).2
  | setWeightings wt =>
    obtain ⟨_, -, hs⟩ := bind_eq_ok.1 hs
    obtain ⟨_, -, hs⟩ := bind_eq_ok.1 hs
    obtain ⟨_, -, hs⟩ := bind_eq_ok.1 hs
    obtain ⟨-, rfl⟩ := Prod.mk.inj (Except.ok.inj hs)
    exact h.congr rfl rfl rfl
  | setConfig a b =>
    obtain ⟨-, rfl⟩ := Prod.mk.inj (Except.ok.inj hs)
    exact h.congr rfl rfl rfl
  | setMove m =>
    obtain ⟨ds, -, hs⟩ := bind_eq_ok.1 hs
    obtain ⟨-, rfl⟩ := Prod.mk.inj (Except.ok.inj hs)
    exact h.congr rfl rfl rfl
  | solve fb =>
    obtain ⟨⟨w₁, idx, q⟩, h1, hs⟩ := bind_eq_ok.1 hs
    obtain ⟨sv, -, hs⟩ := bind_eq_ok.1 hs
    obtain ⟨⟨found, dX, solver⟩, -, hs⟩ := bind_eq_ok.1 hs
    obtain ⟨w₂, h2, hs⟩ := bind_eq_ok.1 hs
    obtain ⟨-, rfl⟩ := Prod.mk.inj (Except.ok.inj hs)
    exact ((h.prepare h1).1.congr rfl rfl rfl : HumInv { w₁ with dX := dX, solvers := w₁.solvers.set idx solver, calls := w₁.calls + 1 }).finish h2

theorem HumInv.run {hull : Vec (Pt K) → Res (Polygon K)} {o : Oracle K} {cs : List (HCall K)} :
    ∀ {w w' : HWalkgen K}, HumInv w → w.run hull o cs = .ok w' → HumInv w' := by
  induction cs with
  | nil => intro w w' h hr; obtain rfl := Except.ok.inj hr; exact h
  | cons c cs ih =>
    intro w w' h hr
    obtain ⟨⟨b, w₁⟩, h1, hr⟩ := bind_eq_ok.1 hr
    exact ih (h.step h1) hr

theorem HumHistory.run {hull : Vec (Pt K) → Res (Polygon K)} {o : Oracle K} {cs : List (HCall K)} :
    ∀ {w w' : HWalkgen K}, HumHistory hull w → w.run hull o cs = .ok w' → HumHistory hull w' := by
  induction cs with
  | nil => intro w w' h hr; obtain rfl := Except.ok.inj hr; exact h
  | cons c cs ih =>
    intro w w' h hr
    obtain ⟨⟨b, w₁⟩, h1, hr⟩ := bind_eq_ok.1 hr
    exact ih (.call h h1) hr

theorem HumReaches.history {hull : Vec (Pt K) → Res (Polygon K)} {o : Oracle K} {cs : List (HCall K)}
    {w : HWalkgen K} (h : HumReaches hull o cs w) : HumHistory hull w := by
  obtain ⟨w₀, h0, hr⟩ := h
  exact (HumHistory.make h0).run hr

theorem HumHistory.inv {hull : Vec (Pt K) → Res (Polygon K)} {w : HWalkgen K} (h : HumHistory hull w) : HumInv w := by
  induction h with
  | make h0 => exact HumInv.make h0
  | call _ h1 ih => exact ih.step h1
  | solvers S _ ih => exact ih.congr rfl rfl rfl

theorem HumReaches.inv {hull : Vec (Pt K) → Res (Polygon K)} {o : Oracle K} {cs : List (HCall K)}
    {w : HWalkgen K} (h : HumReaches hull o cs w) : HumInv w := h.history.inv

end MPC
