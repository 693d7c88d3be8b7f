import Verif.Lemmas.HumSafe

/-! # The parts of `HumanoidWalkgen::solve` that read the timeline do not fault -/

set_option linter.unusedSectionVars false

namespace MPC

open Finset

variable {K : Type} [Field K] [LinearOrder K]

/-! ### Support foot and polygons -/

theorem supportE {s : Sup K} {f : Phase K} (h : s.timeline[0]? = some f) :
    ∃ px py, s.supportX = .ok px ∧ s.supportY = .ok py := by
  unfold Sup.supportX Sup.supportY
  rw [listAt_of_get? h, ok_bind, ok_bind, Sup.isInDS_ok h, ok_bind, ok_bind]
  split
  · exact ⟨_, _, rfl, rfl⟩
  · split
    · exact ⟨_, _, rfl, rfl⟩
    · exact ⟨_, _, rfl, rfl⟩

theorem dsCopPointsE {s : Sup K} {f : Phase K} (h : s.timeline[0]? = some f)
    (hv : f.type ≠ .DS → s.M < s.stepVec.size) :
    ∃ p, s.dsCopPoints = .ok p ∧ p.size = s.left.cop.vertices.size + s.right.cop.vertices.size := by
  unfold Sup.dsCopPoints
  rw [Sup.isInDS_ok h, ok_bind]
  dsimp only
  split
  · rename_i hc
    have hd : f.type ≠ .DS := by simpa using hc.1
    have := hv hd
    rw [listAt_of_get? h, ok_bind, vecAtE (by omega), ok_bind, vecAtE this, ok_bind]
    split
    · exact ⟨_, rfl, rfl⟩
    · exact ⟨_, rfl, rfl⟩
  · split
    · exact ⟨_, rfl, rfl⟩
    · exact ⟨_, rfl, rfl⟩

/-- The polygon has the arrays its number of rows asks for, and at most `c` rows. -/
def Polygon.Fits (g : Polygon K) (c : ℕ) : Prop := g.HasRows ∧ g.nbGeneral ≤ c

theorem copPolygonsE {s : Sup K} {f : Phase K} {hull : Vec (Pt K) → Res (Polygon K)} {N c : ℕ}
    (h : s.timeline[0]? = some f) (hv : f.type ≠ .DS → s.M < s.stepVec.size) (hi : s.phaseIdx.size = N)
    (hk : ∀ r < N, s.phaseIdx.get r < s.timeline.length)
    (hh : ∀ p, s.dsCopPoints = .ok p → ∃ g, hull p = .ok g ∧ g.Fits c) (hl : s.left.cop.Fits c)
    (hr : s.right.cop.Fits c) :
    ∃ ps, s.copPolygons hull N = .ok ps ∧ ps.size = N ∧ ∀ i < N, (ps.get i).Fits c := by
  unfold Sup.copPolygons
  refine buildVecE (P := fun g : Polygon K => g.Fits c) fun i hiN => ?_
  unfold Sup.copPolygon
  rw [vecAtE (by omega), ok_bind, listAt_ok (hk i hiN), ok_bind]
  cases ht : (s.timeline[s.phaseIdx.get i]'(hk i hiN)).type with
  | DS =>
    obtain ⟨p, hp, -⟩ := dsCopPointsE h hv
    obtain ⟨g, hg, hf⟩ := hh p hp
    exact ⟨g, by simp only [hp, ok_bind, hg], hf⟩
  | leftSS => exact ⟨_, rfl, hl⟩
  | rightSS => exact ⟨_, rfl, hr⟩

theorem kinPolygonsE {s : Sup K} {f : Phase K} {k c : ℕ} (hp : s.Prefix f s.timeline k)
    (hM : s.M = s.ssCount f.type k) (hl : s.left.kin.Fits c) (hr : s.right.kin.Fits c) :
    ∃ ps, s.kinPolygons = .ok ps ∧ ps.size = s.M ∧ ∀ i < s.M, (ps.get i).Fits c := by
  unfold Sup.kinPolygons
  refine buildVecE (P := fun g : Polygon K => g.Fits c) fun i hi => ⟨_, Sup.kinPolygon_ok hp hM hi, ?_⟩
  have h2 := (Sup.step_phase (hM ▸ hi : i < s.ssCount f.type k)).2
  cases ht : s.typeAt f.type (i + s.stepOff f.type)
  · exact absurd ht h2
  · exact hl
  · exact hr

/-! ### First guess -/

theorem firstGuessE {w : HWalkgen K} (hN : w.sup.N = w.lip.N) (hX : 2 * w.lip.N ≤ w.X.size) :
    ∃ w', w.firstGuess = .ok w' ∧ w'.X.size = w.X.size ∧ ∃ X b, w' = { w with X := X, first := b } := by
  unfold HWalkgen.firstGuess
  split
  · have hrr : w.sup.rotation.rows = 2 * w.lip.N := by rw [← hN]; rfl
    have hrc : w.sup.rotation.cols = 2 * w.lip.N := by rw [← hN]; rfl
    dsimp only
    obtain ⟨B1, e1, r1, c1, -⟩ := blkE (A := w.sup.rotation) (r := 0) (c := 0) (h := w.lip.N) (w := w.lip.N)
      (by omega) (by omega)
    obtain ⟨B2, e2, r2, c2, -⟩ := blkE (A := w.sup.rotation) (r := 0) (c := w.lip.N) (h := w.lip.N) (w := w.lip.N)
      (by omega) (by omega)
    obtain ⟨B3, e3, r3, c3, -⟩ := blkE (A := w.sup.rotation) (r := w.lip.N) (c := 0) (h := w.lip.N) (w := w.lip.N)
      (by omega) (by omega)
    obtain ⟨B4, e4, r4, c4, -⟩ := blkE (A := w.sup.rotation) (r := w.lip.N) (c := w.lip.N) (h := w.lip.N)
      (w := w.lip.N) (by omega) (by omega)
    rw [e1, ok_bind]
    obtain ⟨a1, f1, z1, -⟩ := mvE (A := B1)
      (x := Vec.const w.lip.N (copGuess w.lip.x w.lip.z.p - w.sup.left.x.state.p)) c1
    rw [f1, ok_bind, e2, ok_bind]
    obtain ⟨a2, f2, z2, -⟩ := mvE (A := B2)
      (x := Vec.const w.lip.N (copGuess w.lip.y w.lip.z.p - w.sup.left.y.state.p)) c2
    rw [f2, ok_bind]
    obtain ⟨a, f3, z3, -⟩ := addE (u := a1) (v := a2) (by omega)
    rw [f3, ok_bind]
    obtain ⟨X1, f4, z4, -⟩ := setSeg (t := w.X) (v := a) (o := 0) (N := w.lip.N) (by omega) (by omega)
    rw [f4, ok_bind, e3, ok_bind]
    obtain ⟨b1, f5, z5, -⟩ := mvE (A := B3)
      (x := Vec.const w.lip.N (copGuess w.lip.x w.lip.z.p - w.sup.left.x.state.p)) c3
    rw [f5, ok_bind, e4, ok_bind]
    obtain ⟨b2, f6, z6, -⟩ := mvE (A := B4)
      (x := Vec.const w.lip.N (copGuess w.lip.y w.lip.z.p - w.sup.left.y.state.p)) c4
    rw [f6, ok_bind]
    obtain ⟨b, f7, z7, -⟩ := addE (u := b1) (v := b2) (by omega)
    rw [f7, ok_bind]
    obtain ⟨X2, f8, z8, -⟩ := setSeg (t := X1) (v := b) (o := w.lip.N) (N := w.lip.N) (by omega) (by omega)
    rw [f8, ok_bind]
    exact ⟨_, rfl, by dsimp only; omega, X2, false, rfl⟩
  · exact ⟨w, rfl, rfl, w.X, w.first, rfl⟩

/-! ### Sizes kept by the generator -/

section Tab
variable [IsStrictOrderedRing K] [FloorRing K]

/-- Sizes of the bound vectors and of the table of QPs. -/
structure HumTab (w : HWalkgen K) : Prop where
  bounds : w.boundSize = 2 * w.lip.N
  table : w.qps.length = (w.lip.N + 1) * (w.maxCtr + 1)

theorem HumTab.of {w w' : HWalkgen K} (h : HumTab w) (hN : w'.lip.N = w.lip.N) (h1 : w'.maxCtr = w.maxCtr)
    (h2 : w'.boundSize = w.boundSize ∨ w'.boundSize = 2 * w'.lip.N) (h3 : w'.qps.length = w.qps.length) :
    HumTab w' :=
  ⟨h2.elim (fun e => by rw [e, hN]; exact h.bounds) id, by rw [h3, hN, h1]; exact h.table⟩

theorem table_length {α : Type} (steps m : ℕ) (f : ℕ → ℕ → α) :
    (HWalkgen.table steps m f).length = (steps + 1) * (m + 1) := by
  unfold HWalkgen.table; rw [List.length_map, List.length_range]

theorem HumTab.constantPart {w : HWalkgen K} (hb : w.boundSize = 2 * w.lip.N) (hN : w.sup.N = w.lip.N) :
    HumTab w.computeConstantPart := by
  refine ⟨hb, ?_⟩
  unfold HWalkgen.computeConstantPart
  dsimp only
  rw [table_length, hN]

theorem HWalkgen.begin_bound {w w' : HWalkgen K} {fb : K} (hb : w.begin fb = .ok w') :
    w'.boundSize = w.boundSize ∧ w'.velRef = w.velRef ∧ w'.weighting = w.weighting := by
  unfold HWalkgen.begin at hb
  obtain ⟨⟨s, X⟩, -, hb⟩ := bind_eq_ok.1 hb
  obtain ⟨l, hb⟩ : ∃ l, HWalkgen.firstGuess { w with sup := s, X := X, lip := l } = .ok w' := by
    dsimp only at hb
    split at hb
    all_goals
      obtain ⟨l, -, hb⟩ := bind_eq_ok.1 hb
      obtain ⟨_, -, hb⟩ := bind_eq_ok.1 hb
      obtain ⟨_, -, hb⟩ := bind_eq_ok.1 hb
      exact ⟨l, hb⟩
  unfold HWalkgen.firstGuess at hb
  split at hb
  · simp only [bind_eq_ok] at hb
    obtain ⟨_, -, _, -, _, -, _, -, _, -, _, -, _, -, _, -, _, -, _, -, _, -, _, -, hb⟩ := hb
    obtain rfl := Except.ok.inj hb
    exact ⟨rfl, rfl, rfl⟩
  · obtain rfl := Except.ok.inj hb
    exact ⟨rfl, rfl, rfl⟩

theorem HumTab.solve {hull : Vec (Pt K) → Res (Polygon K)} {o : Oracle K} {w w' : HWalkgen K}
    {fb : K} {b : Bool} (hi : HumInv w) (h : HumTab w) (hs : w.solve hull o fb = .ok (b, w')) : HumTab w' := by
  have hf := HWalkgen.solve_frame hi hs
  obtain ⟨w₁, idx, qp, sv, dX, sv', h1, h2, -, d2, d3, h4⟩ := HWalkgen.solve_stages hs
  obtain ⟨w0, a, b, q0, q1, hb, -, -, -, -, -, hw'⟩ := hprepare_ok h1
  obtain ⟨e1, -⟩ := HWalkgen.begin_bound hb
  obtain ⟨-, -, -, -, -, e6⟩ := HWalkgen.begin_frame hi hb
  unfold HWalkgen.finish at h4
  obtain ⟨X, -, h4⟩ := bind_eq_ok.1 h4
  obtain ⟨t, -, h4⟩ := bind_eq_ok.1 h4
  obtain ⟨j, -, h4⟩ := bind_eq_ok.1 h4
  obtain ⟨l₁, -, h4⟩ := bind_eq_ok.1 h4
  obtain ⟨j', -, h4⟩ := bind_eq_ok.1 h4
  obtain ⟨l₂, -, h4⟩ := bind_eq_ok.1 h4
  obtain ⟨sv, -, h4⟩ := bind_eq_ok.1 h4
  obtain ⟨s, -, h4⟩ := bind_eq_ok.1 h4
  obtain rfl := Except.ok.inj h4
  refine h.of hf.N hf.maxCtr (.inl ?_) ?_
  · subst hw'; exact e1
  · subst hw'; dsimp only; rw [List.length_set, e6]

theorem HumTab.step {hull : Vec (Pt K) → Res (Polygon K)} {o : Oracle K} {w w' : HWalkgen K} {b : Bool}
    {c : HCall K} (hi : HumInv w) (h : HumTab w) (hs : w.step hull o c = .ok (b, w')) : HumTab w' := by
  cases c with
  | setNbSamples n =>
    have hi' := hi.step hs
    obtain ⟨_, -, hs⟩ := bind_eq_ok.1 hs
    obtain ⟨l, hl, hs⟩ := bind_eq_ok.1 hs
    obtain ⟨s, hsup, hs⟩ := bind_eq_ok.1 hs
    obtain ⟨-, rfl⟩ := Prod.mk.inj (Except.ok.inj hs)
    exact HumTab.constantPart rfl hi'.N
  | setConfig a b =>
    obtain ⟨-, rfl⟩ := Prod.mk.inj (Except.ok.inj hs)
    exact HumTab.constantPart h.bounds hi.N
  | solve fb => exact h.solve hi hs
  | setSamplingPeriod T =>
    have hf := HWalkgen.step_frame hi (by trivial) hs
    obtain ⟨_, -, hs⟩ := bind_eq_ok.1 hs
    obtain ⟨l, hl, hs⟩ := bind_eq_ok.1 hs
    obtain ⟨s, hsup, hs⟩ := bind_eq_ok.1 hs
    obtain ⟨-, rfl⟩ := Prod.mk.inj (Except.ok.inj hs)
    exact h.of hf.N hf.maxCtr (.inr rfl) rfl
  | setStepPeriod p =>
    have hf := HWalkgen.step_frame hi (by trivial) hs
    obtain ⟨_, -, hs⟩ := bind_eq_ok.1 hs
    obtain ⟨_, -, hs⟩ := bind_eq_ok.1 hs
    obtain ⟨s, h1, hs⟩ := bind_eq_ok.1 hs
    obtain ⟨-, rfl⟩ := Prod.mk.inj (Except.ok.inj hs)
    exact h.of hf.N hf.maxCtr (.inl rfl) rfl
  | setInitialDoubleSupportLength p =>
    have hf := HWalkgen.step_frame hi (by trivial) hs
    obtain ⟨s, h1, hs⟩ := bind_eq_ok.1 hs
    obtain ⟨-, rfl⟩ := Prod.mk.inj (Except.ok.inj hs)
    exact h.of hf.N hf.maxCtr (.inl rfl) rfl
  | setKin left g =>
    obtain ⟨-, rfl⟩ := Prod.mk.inj (Except.ok.inj hs)
    exact h.of rfl rfl (.inl rfl) rfl
  | setCop left g =>
    obtain ⟨-, rfl⟩ := Prod.mk.inj (Except.ok.inj hs)
    exact h.of rfl rfl (.inl rfl) rfl
  | setVelRef v =>
    obtain ⟨_, -, hs⟩ := bind_eq_ok.1 hs
    obtain ⟨-, rfl⟩ := Prod.mk.inj (Except.ok.inj hs)
    exact h.of rfl rfl (.inl rfl) rfl
  | setAngularVelRef v =>
    obtain ⟨_, -, hs⟩ := bind_eq_ok.1 hs
    obtain ⟨-, rfl⟩ := Prod.mk.inj (Except.ok.inj hs)
    exact h
  | setFootState left a v =>
    obtain ⟨_, -, hs⟩ := bind_eq_ok.1 hs
    obtain ⟨-, rfl⟩ := Prod.mk.inj (Except.ok.inj hs)
    exact h.of rfl rfl (.inl rfl) rfl
  | setComState a v =>
    have hf := HWalkgen.step_frame hi (by trivial) hs
    cases a with
    | x =>
      obtain ⟨l, hl, hs⟩ := bind_eq_ok.1 hs
      obtain ⟨-, rfl⟩ := Prod.mk.inj (Except.ok.inj hs)
      exact h.of hf.N hf.maxCtr (.inl rfl) rfl
    | y =>
      obtain ⟨l, hl, hs⟩ := bind_eq_ok.1 hs
      obtain ⟨-, rfl⟩ := Prod.mk.inj (Except.ok.inj hs)
      exact h.of hf.N hf.maxCtr (.inl rfl) rfl
    | z =>
      obtain ⟨_, -, hs⟩ := bind_eq_ok.1 hs
      obtain ⟨_, -, hs⟩ := bind_eq_ok.1 hs
      obtain ⟨_, -, hs⟩ := bind_eq_ok.1 hs
      obtain ⟨l, hl, hs⟩ := bind_eq_ok.1 hs
      obtain ⟨-, rfl⟩ := Prod.mk.inj (Except.ok.inj hs)
      exact h.of hf.N hf.maxCtr (.inl rfl) rfl
  | setMaxHeight left x =>
    obtain ⟨-, rfl⟩ := Prod.mk.inj (Except.ok.inj hs)
    exact h.of rfl rfl (.inl rfl) rfl
  | setWeightings wt =>
    obtain ⟨_, -, hs⟩ := bind_eq_ok.1 hs
    obtain ⟨_, -, hs⟩ := bind_eq_ok.1 hs
    obtain ⟨_, -, hs⟩ := bind_eq_ok.1 hs
    obtain ⟨-, rfl⟩ := Prod.mk.inj (Except.ok.inj hs)
    exact h.of rfl rfl (.inl rfl) rfl
  | setMove m =>
    obtain ⟨ds, -, hs⟩ := bind_eq_ok.1 hs
    obtain ⟨-, rfl⟩ := Prod.mk.inj (Except.ok.inj hs)
    exact h.of rfl rfl (.inl rfl) rfl

theorem HumTab.make {w : HWalkgen K} (h : HWalkgen.make = .ok w) : HumTab w := by
  unfold HWalkgen.make at h
  obtain ⟨s, hs, h⟩ := bind_eq_ok.1 h
  obtain ⟨l, hl, h⟩ := bind_eq_ok.1 h
  obtain ⟨_, hN, h⟩ := bind_eq_ok.1 h
  obtain ⟨_, -, h⟩ := bind_eq_ok.1 h
  obtain rfl := Except.ok.inj h
  exact HumTab.constantPart rfl (require_eq_ok.1 hN)

theorem HumTab.run {hull : Vec (Pt K) → Res (Polygon K)} {o : Oracle K} {cs : List (HCall K)} :
    ∀ {w w' : HWalkgen K}, HumInv w → HumTab w → w.run hull o cs = .ok w' → HumTab w' := by
  induction cs with
  | nil => intro w w' h ht hr; obtain rfl := Except.ok.inj hr; exact ht
  | cons c cs ih =>
    intro w w' h ht hr
    obtain ⟨⟨b, w₁⟩, h1, hr⟩ := bind_eq_ok.1 hr
    exact ih (h.step h1) (HumTab.step h ht h1) hr

theorem HumHistory.tab {hull : Vec (Pt K) → Res (Polygon K)} {w : HWalkgen K} (h : HumHistory hull w) : HumTab w := by
  induction h with
  | make h0 => exact HumTab.make h0
  | call h h1 ih => exact HumTab.step h.inv ih h1
  | solvers S _ ih => exact ⟨ih.1, ih.2⟩

end Tab

/-! ### The QP -/

section Fill
variable [IsStrictOrderedRing K] [FloorRing K] {hull : Vec (Pt K) → Res (Polygon K)} {w : HWalkgen K}
  {nb : ℤ} {dx dy dv : LinearDynamic K} {Bx By : Mat K} {px py : State3 K}

/-- The polygons of the constraints can be computed and fit. -/
structure HumPolygons (hull : Vec (Pt K) → Res (Polygon K)) (w : HWalkgen K) : Prop where
  cop : w.withCop = true → ∃ ps, w.sup.copPolygons hull w.lip.N = .ok ps ∧ ps.size = w.lip.N ∧
    ∀ i < w.lip.N, (ps.get i).Fits w.sup.maxNbCop
  kin : w.withFeet = true → ∃ ps, w.sup.kinPolygons = .ok ps ∧ ps.size = w.sup.M ∧
    ∀ i < w.sup.M, (ps.get i).Fits w.sup.maxNbKin

theorem nbCtrE (hp : HumPolygons hull w) (hM : w.sup.M ≤ w.lip.N) :
    ∃ a b, w.nbCtr hull = .ok (a, b) ∧ a ≤ (if w.withCop then w.sup.maxNbCop * w.lip.N else 0) ∧
      b ≤ (if w.withFeet then w.sup.maxNbKin * w.lip.N else 0) ∧
      (w.withCop = true → ∀ ps, w.sup.copPolygons hull w.lip.N = .ok ps → a = nbRows ps) ∧
      (w.withFeet = true → ∀ ps, w.sup.kinPolygons = .ok ps → b = nbRows ps) := by
  obtain ⟨a, ha, hale, hae⟩ : ∃ a, (if w.withCop then do pure (nbRows (← w.sup.copPolygons hull w.lip.N))
      else (pure 0 : Res ℕ)) = .ok a ∧ a ≤ (if w.withCop then w.sup.maxNbCop * w.lip.N else 0) ∧
      (w.withCop = true → ∀ ps, w.sup.copPolygons hull w.lip.N = .ok ps → a = nbRows ps) := by
    cases hc : w.withCop
    · exact ⟨0, rfl, le_rfl, fun h => by cases h⟩
    · obtain ⟨ps, e, z, hf⟩ := hp.cop hc
      refine ⟨nbRows ps, by rw [if_pos rfl, e, ok_bind]; rfl, ?_, fun _ ps' h => by rw [e] at h; cases h; rfl⟩
      rw [if_pos rfl]
      exact nbRows_le z fun i hi => (hf i hi).2
  obtain ⟨b, hb, hble, hbe⟩ : ∃ b, (if w.withFeet then do pure (nbRows (← w.sup.kinPolygons))
      else (pure 0 : Res ℕ)) = .ok b ∧ b ≤ (if w.withFeet then w.sup.maxNbKin * w.lip.N else 0) ∧
      (w.withFeet = true → ∀ ps, w.sup.kinPolygons = .ok ps → b = nbRows ps) := by
    cases hc : w.withFeet
    · exact ⟨0, rfl, le_rfl, fun h => by cases h⟩
    · obtain ⟨ps, e, z, hf⟩ := hp.kin hc
      refine ⟨nbRows ps, by rw [if_pos rfl, e, ok_bind]; rfl, ?_, fun _ ps' h => by rw [e] at h; cases h; rfl⟩
      rw [if_pos rfl]
      exact (nbRows_le z fun i hi => (hf i hi).2).trans (Nat.mul_le_mul_left _ hM)
  refine ⟨a, b, ?_, hale, hble, hae, hbe⟩
  unfold HWalkgen.nbCtr
  cases hc : w.withCop <;> cases hf : w.withFeet <;> rw [hc] at ha <;> rw [hf] at hb <;>
    simp only [Bool.false_eq_true, if_false, if_true] at ha hb ⊢
  · cases ha
    cases hb
    rfl
  · rw [ha, ok_bind]
    obtain ⟨p, e, hb⟩ := bind_eq_ok.1 hb
    cases hb
    rw [e]; rfl
  · obtain ⟨p, e, ha⟩ := bind_eq_ok.1 ha
    cases ha
    rw [e, ok_bind, res_pure, ok_bind, hb]; rfl
  · obtain ⟨p, e, ha⟩ := bind_eq_ok.1 ha
    obtain ⟨p', e', hb⟩ := bind_eq_ok.1 hb
    cases ha
    cases hb
    rw [e, ok_bind, res_pure, ok_bind, e']; rfl

theorem fillQPE (hD : HumData w.lip w.sup nb dx dy Bx By px py) (hdv : w.lip.dyn w.lip.vel nb = .ok dv)
    (hv : VelDyn w.lip.N dv) (hSr : dv.S.rows = w.lip.N) (hSc : dv.S.cols = 3) (hs : w.sup.Shaped)
    (hN : w.sup.N = w.lip.N) (hX : w.X.size = 2 * w.lip.N + 2 * w.sup.M)
    (href : 0 < w.weighting.velocityTracking → w.velRef.size = 2 * w.lip.N) (hb : w.boundSize = 2 * w.lip.N)
    (hp : HumPolygons hull w) {a b m : ℕ}
    (ha : w.withCop = true → ∀ ps, w.sup.copPolygons hull w.lip.N = .ok ps → a = nbRows ps)
    (hf : w.withFeet = true → ∀ ps, w.sup.kinPolygons = .ok ps → b = nbRows ps) (hm : a + b ≤ m)
    {q : QPMatrices K} (hq : q.DimensionsAreConsistent (2 * w.lip.N + 2 * w.sup.M) m) :
    ∃ q', w.fillQP hull a b q = .ok q' ∧ q'.DimensionsAreConsistent (2 * w.lip.N + 2 * w.sup.M) m := by
  unfold HWalkgen.fillQP
  dsimp only
  obtain ⟨q1, e1, d1⟩ := addObjectiveE (q := q.reset) (w := w.weighting.velocityTracking) (m := m)
    (n := 2 * w.lip.N + 2 * w.sup.M) hq (fun _ => velHessianE hD hdv hv hs hN)
    (fun h0 => velGradientE hD hdv hv hSr hSc hs hN (href h0) hX)
  rw [e1, ok_bind]
  obtain ⟨q2, e2, d2⟩ := addObjectiveE (w := w.weighting.jerkMinimization) d1 (fun _ => jerkHessianE hD hs hN)
    (fun _ => jerkGradientE hD hs hN hX)
  rw [e2, ok_bind]
  obtain ⟨q3, e3, d3⟩ := addObjectiveE (w := w.weighting.copCentering) d2
    (fun _ => centeringHessianE w.lip w.sup) (fun _ => centeringGradientE hN hX)
  rw [e3, ok_bind]
  have hfeet : ∀ q4 : QPMatrices K, q4.DimensionsAreConsistent (2 * w.lip.N + 2 * w.sup.M) m →
      ∃ q', (if w.withFeet then do
        let c ← footConstraint w.lip w.sup w.X
        q4.addConstraint a b (2 * w.lip.N) (2 * w.sup.M) (2 * w.lip.N + 2 * w.sup.M) c
      else pure q4) = .ok q' ∧ q'.DimensionsAreConsistent (2 * w.lip.N + 2 * w.sup.M) m := by
    intro q4 d4
    cases hc : w.withFeet
    · exact ⟨q4, rfl, d4⟩
    · obtain ⟨ps, e, z, hfit⟩ := hp.kin hc
      obtain ⟨c, ec, hcs⟩ := footConstraintE hN hX e z (fun i hi => (hfit i hi).1) hD.hpx hD.hpy
      rw [← hf hc ps e] at hcs
      obtain ⟨q5, e5, d5⟩ := addConstraintE (r0 := a) (c0 := 2 * w.lip.N) d4 hcs (by omega) (by omega)
      exact ⟨q5, by rw [if_pos rfl, ec, ok_bind, e5], d5⟩
  cases hc : w.withCop
  · simp only [Bool.false_eq_true, if_false]
    exact hfeet q3 d3
  · simp only [if_true]
    obtain ⟨ps, e, z, hfit⟩ := hp.cop hc
    obtain ⟨c, ec, hcs⟩ := copConstraintE hN hX e z (fun i hi => (hfit i hi).1) hb
    rw [← ha hc ps e] at hcs
    obtain ⟨q4, e4, d4⟩ := addConstraintE (r0 := 0) (c0 := 0) d3 hcs (by omega) (by omega)
    rw [ec, ok_bind, e4, ok_bind]
    exact hfeet q4 d4

end Fill

end MPC
