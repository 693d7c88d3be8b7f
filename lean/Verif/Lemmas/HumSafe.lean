import Verif.Lemmas.HumConvert
import Verif.Lemmas.HumTable
import Verif.Lemmas.SupCovers
import Verif.Spec.HumRun

/-! # The steps of `HumanoidWalkgen::solve` do not fault when the sizes are right -/

set_option linter.unusedSectionVars false

namespace MPC

open Finset

variable {K : Type} [Field K] [LinearOrder K]

/-! ### Matrices -/

theorem mulE {A B : Mat K} (h : A.cols = B.rows) :
    ∃ C, A.mul? B = .ok C ∧ C.rows = A.rows ∧ C.cols = B.cols :=
  ⟨_, Mat.mul?_ok h, rfl, rfl⟩

theorem setBlockE {A B : Mat K} {r c h w : ℕ} (hr : r + h ≤ A.rows) (hc : c + w ≤ A.cols) (hB : B.rows = h)
    (hB' : B.cols = w) : ∃ C, A.setBlock? r c h w B = .ok C ∧ C.rows = A.rows ∧ C.cols = A.cols :=
  ⟨_, Mat.setBlock?_ok hr hc hB hB', rfl, rfl⟩

theorem toVecE {A : Mat K} (h : A.cols = 1) : ∃ v, A.toVec? = .ok v ∧ v.size = A.rows := by
  unfold Mat.toVec?
  rw [requireSize_pos h, ok_bind]
  exact ⟨_, rfl, rfl⟩

theorem copMapE {s : Sup K} {N : ℕ} (hs : s.Shaped) (hN : s.N = N) :
    ∃ t, s.copMap N = .ok t ∧ t.rows = 2 * N ∧ t.cols = 2 * N + 2 * s.M := by
  subst hN
  unfold Sup.copMap
  obtain ⟨t1, e1, r1, c1⟩ := setBlockE (A := (Mat.zero (2 * s.N) (2 * s.N + 2 * s.M) : Mat K))
    (B := s.rotation.transpose) (r := 0) (c := 0) (h := 2 * s.N) (w := 2 * s.N) (by simp [Mat.zero])
    (by simp [Mat.zero]) rfl rfl
  have r1 : t1.rows = 2 * s.N := r1
  have c1 : t1.cols = 2 * s.N + 2 * s.M := c1
  obtain ⟨t2, e2, r2, c2⟩ := setBlockE (A := t1) (B := s.V) (r := 0) (c := 2 * s.N) (h := s.N) (w := s.M)
    (by omega) (by omega) hs.Vr hs.Vc
  obtain ⟨t3, e3, r3, c3⟩ := setBlockE (A := t2) (B := s.V) (r := s.N) (c := 2 * s.N + s.M) (h := s.N)
    (w := s.M) (by omega) (by omega) hs.Vr hs.Vc
  exact ⟨t3, by dsimp only; rw [e1, ok_bind, e2, ok_bind, e3], by omega, by omega⟩

theorem copMapTE {s : Sup K} {N : ℕ} (hs : s.Shaped) (hN : s.N = N) :
    ∃ t, s.copMapT N = .ok t ∧ t.rows = 2 * N + 2 * s.M ∧ t.cols = 2 * N := by
  subst hN
  unfold Sup.copMapT
  have hr : s.VT.rows = s.M := by rw [hs.VT]; exact hs.Vc
  have hc : s.VT.cols = s.N := by rw [hs.VT]; exact hs.Vr
  obtain ⟨t1, e1, r1, c1⟩ := setBlockE (A := (Mat.zero (2 * s.N + 2 * s.M) (2 * s.N) : Mat K))
    (B := s.rotation) (r := 0) (c := 0) (h := 2 * s.N) (w := 2 * s.N) (by simp [Mat.zero])
    (by simp [Mat.zero]) rfl rfl
  have r1 : t1.rows = 2 * s.N + 2 * s.M := r1
  have c1 : t1.cols = 2 * s.N := c1
  obtain ⟨t2, e2, r2, c2⟩ := setBlockE (A := t1) (B := s.VT) (r := 2 * s.N) (c := 0) (h := s.M) (w := s.N)
    (by omega) (by omega) hr hc
  obtain ⟨t3, e3, r3, c3⟩ := setBlockE (A := t2) (B := s.VT) (r := 2 * s.N + s.M) (c := s.N) (h := s.M)
    (w := s.N) (by omega) (by omega) hr hc
  exact ⟨t3, by dsimp only; rw [e1, ok_bind, e2, ok_bind, e3], by omega, by omega⟩

theorem blockDiagE {N : ℕ} {A B : Mat K} (a1 : A.rows = N) (a2 : A.cols = N) (b1 : B.rows = N)
    (b2 : B.cols = N) : ∃ m, blockDiag N A B = .ok m ∧ m.rows = 2 * N ∧ m.cols = 2 * N := by
  unfold blockDiag
  obtain ⟨t1, e1, r1, c1⟩ := setBlockE (A := (Mat.zero (2 * N) (2 * N) : Mat K)) (B := A) (r := 0) (c := 0)
    (h := N) (w := N) (by simp only [Mat.zero]; omega) (by simp only [Mat.zero]; omega) a1 a2
  have r1 : t1.rows = 2 * N := r1
  have c1 : t1.cols = 2 * N := c1
  obtain ⟨t2, e2, r2, c2⟩ := setBlockE (A := t1) (B := B) (r := N) (c := N) (h := N) (w := N) (by omega)
    (by omega) b1 b2
  exact ⟨t2, by dsimp only; rw [e1, ok_bind, e2], by omega, by omega⟩

theorem stackE {N : ℕ} {a b : Vec K} (ha : a.size = N) (hb : b.size = N) :
    ∃ v, stack N a b = .ok v ∧ v.size = 2 * N := by
  unfold stack
  obtain ⟨t1, e1, z1, -⟩ := setSeg (t := Vec.const (2 * N) (0 : K)) (v := a) (o := 0) (N := N)
    (by simp only [Vec.const]; omega) ha
  have z1 : t1.size = 2 * N := z1
  obtain ⟨t2, e2, z2, -⟩ := setSeg (t := t1) (v := b) (o := N) (N := N) (by omega) hb
  exact ⟨t2, by dsimp only; rw [e1, ok_bind, e2], by omega⟩

theorem sandwichE {t m : Mat K} (h1 : m.rows = t.rows) (h2 : m.cols = t.rows) :
    ∃ H, sandwich t m = .ok H ∧ H.rows = t.cols ∧ H.cols = t.cols := by
  unfold sandwich
  obtain ⟨P, e1, r1, c1⟩ := mulE (A := t.transpose) (B := m) h1.symm
  obtain ⟨H, e2, r2, c2⟩ := mulE (A := P) (B := t) (c1.trans h2)
  exact ⟨H, by rw [e1, ok_bind, e2], r2.trans r1, c2⟩

/-! ### Objectives -/

theorem jerkBlockE {N : ℕ} {d : LinearDynamic K} {B W : Mat K} (hd : AxisDyn N d B) (hWr : W.rows = N)
    (hWc : W.cols = N) : ∃ Q, jerkBlock d W = .ok Q ∧ Q.rows = N ∧ Q.cols = N := by
  unfold jerkBlock
  rw [hd.inv, hd.invT]
  simp only [getInv, ok_bind]
  obtain ⟨P, e1, r1, c1⟩ := mulE (A := B.transpose) (B := W) (hd.rows.trans hWr.symm)
  obtain ⟨Q, e2, r2, c2⟩ := mulE (A := P) (B := B) ((c1.trans hWc).trans hd.rows.symm)
  exact ⟨Q, by rw [e1, ok_bind, e2], (r2.trans r1).trans hd.cols, c2.trans hd.cols⟩

theorem freeE {N : ℕ} {d : LinearDynamic K} (h1 : d.S.rows = N) (h2 : d.S.cols = 3) (h3 : d.C.size = N)
    (st : State3 K) :
    ∃ m b, d.S.mulVec? st.toVec = .ok m ∧ m.size = N ∧ m.add? d.C = .ok b ∧ b.size = N := by
  obtain ⟨m, e1, z1, -⟩ := mvE (A := d.S) (x := st.toVec) (by rw [h2]; rfl)
  obtain ⟨b, e2, z2, -⟩ := addE (u := m) (v := d.C) (by omega)
  exact ⟨m, b, e1, by omega, e2, by omega⟩

theorem jerkSegmentE {N : ℕ} {d : LinearDynamic K} {B W V0 : Mat K} (s0 : K) (st : State3 K)
    (hd : AxisDyn N d B) (hWr : W.rows = N) (hWc : W.cols = N) (hVr : V0.rows = N) (hVc : V0.cols = 1) :
    ∃ v, jerkSegment d W V0 s0 st = .ok v ∧ v.size = N := by
  unfold jerkSegment
  obtain ⟨Q, e1, r1, c1⟩ := jerkBlockE hd hWr hWc
  obtain ⟨P, e2, r2, c2⟩ := mulE (A := Q) (B := V0) (c1.trans hVr.symm)
  obtain ⟨a, e3, z3⟩ := toVecE (A := P) (c2.trans hVc)
  obtain ⟨m, b, e4, z4, e5, z5⟩ := freeE hd.Sr hd.Sc hd.C st
  obtain ⟨c, e6, z6, -⟩ := mvE (A := Q) (x := b) (c1.trans z5.symm)
  obtain ⟨v, e7, z7, -⟩ := subE (u := Vec.smul s0 a) (v := c) (by show a.size = _; omega)
  refine ⟨v, ?_, ?_⟩
  · rw [e1, ok_bind, e2, ok_bind, e3, ok_bind, e4, ok_bind, e5, ok_bind, e6, ok_bind, e7]
  · rw [z7]; show a.size = N; omega

theorem velBlockE {N : ℕ} {d dv : LinearDynamic K} {B W : Mat K} (hd : AxisDyn N d B) (hv : VelDyn N dv)
    (hWr : W.rows = N) (hWc : W.cols = N) : ∃ Q, velBlock d dv W = .ok Q ∧ Q.rows = N ∧ Q.cols = N := by
  unfold velBlock
  rw [hd.inv, hd.invT, hv.UT]
  simp only [getInv, ok_bind]
  obtain ⟨P1, e1, r1, c1⟩ := mulE (A := B.transpose) (B := dv.U.transpose) (hd.rows.trans hv.cols.symm)
  obtain ⟨P2, e2, r2, c2⟩ := mulE (A := P1) (B := W) ((c1.trans hv.rows).trans hWr.symm)
  obtain ⟨P3, e3, r3, c3⟩ := mulE (A := P2) (B := dv.U) ((c2.trans hWc).trans hv.rows.symm)
  obtain ⟨Q, e4, r4, c4⟩ := mulE (A := P3) (B := B) ((c3.trans hv.cols).trans hd.rows.symm)
  exact ⟨Q, by rw [e1, ok_bind, e2, ok_bind, e3, ok_bind, e4],
    (r4.trans (r3.trans (r2.trans r1))).trans hd.cols, c4.trans hd.cols⟩

theorem velSegmentE {N : ℕ} {d dv : LinearDynamic K} {B W V0 : Mat K} (s0 : K) (st : State3 K) {ref : Vec K}
    (hd : AxisDyn N d B) (hv : VelDyn N dv) (hSr : dv.S.rows = N) (hSc : dv.S.cols = 3) (hWr : W.rows = N)
    (hWc : W.cols = N) (hVr : V0.rows = N) (hVc : V0.cols = 1) (href : ref.size = N) :
    ∃ v, velSegment d dv W V0 s0 st ref = .ok v ∧ v.size = N := by
  unfold velSegment
  rw [hd.inv, hd.invT, hv.UT]
  simp only [getInv, ok_bind]
  obtain ⟨P, e1, r1, c1⟩ := mulE (A := dv.U) (B := B) (hv.cols.trans hd.rows.symm)
  have r1 := r1.trans hv.rows
  have c1 := c1.trans hd.cols
  rw [e1, ok_bind]; clear e1
  obtain ⟨m, c, e2, z2, e3, z3⟩ := freeE hd.Sr hd.Sc hd.C st
  rw [e2, ok_bind, e3, ok_bind]; clear e2 e3
  obtain ⟨g, e4, z4, -⟩ := mvE (A := dv.S) (x := st.toVec) (hSc.trans rfl)
  have z4 := z4.trans hSr
  rw [e4, ok_bind]; clear e4
  obtain ⟨f, e5, z5, -⟩ := mvE (A := P) (x := c) (c1.trans z3.symm)
  have z5 := z5.trans r1
  rw [e5, ok_bind]; clear e5
  obtain ⟨x1, e6, z6, -⟩ := subE (u := g) (v := f) (z4.trans z5.symm)
  have z6 := z6.trans z4
  rw [e6, ok_bind]; clear e6
  obtain ⟨R, e7, r7, c7⟩ := mulE (A := P) (B := V0) (c1.trans hVr.symm)
  have r7 := r7.trans r1
  rw [e7, ok_bind]; clear e7
  obtain ⟨a, e8, z8⟩ := toVecE (A := R) (c7.trans hVc)
  have z8 := z8.trans r7
  rw [e8, ok_bind]; clear e8
  obtain ⟨x2, e9, z9, -⟩ := addE (u := x1) (v := Vec.smul s0 a) (z6.trans z8.symm)
  have z9 := z9.trans z6
  rw [e9, ok_bind]; clear e9
  obtain ⟨x3, e10, z10, -⟩ := subE (u := x2) (v := ref) (z9.trans href.symm)
  have z10 := z10.trans z9
  rw [e10, ok_bind]; clear e10
  obtain ⟨x4, e11, z11, -⟩ := mvE (A := W) (x := x3) (hWc.trans z10.symm)
  have z11 := z11.trans hWr
  rw [e11, ok_bind]; clear e11
  obtain ⟨P', e12, r12, c12⟩ := mulE (A := B.transpose) (B := dv.U.transpose) (hd.rows.trans hv.cols.symm)
  have r12 := r12.trans hd.cols
  have c12 := c12.trans hv.rows
  rw [e12, ok_bind]; clear e12
  obtain ⟨v, e13, z13, -⟩ := mvE (A := P') (x := x4) (c12.trans z11.symm)
  exact ⟨v, e13, z13.trans r12⟩

section Objectives
variable [IsStrictOrderedRing K] [FloorRing K] {l : Lip K} {s : Sup K} {nb : ℤ} {dx dy dv : LinearDynamic K}
  {Bx By : Mat K} {px py : State3 K}

theorem jerkHessianE (hD : HumData l s nb dx dy Bx By px py) (hs : s.Shaped) (hN : s.N = l.N) :
    ∃ H, jerkHessian l s = .ok H ∧ H.rows = 2 * l.N + 2 * s.M ∧ H.cols = 2 * l.N + 2 * s.M := by
  unfold jerkHessian
  rw [require_pos hN, ok_bind, hD.hnb, ok_bind, hD.hdx, ok_bind, hD.hdy, ok_bind]
  obtain ⟨t, e1, r1, c1⟩ := copMapE hs hN
  obtain ⟨A, e2, r2, c2⟩ := jerkBlockE hD.hBx (hs.Wr.trans hN) (hs.Wc.trans hN)
  obtain ⟨B, e3, r3, c3⟩ := jerkBlockE hD.hBy (hs.Wr.trans hN) (hs.Wc.trans hN)
  obtain ⟨m, e4, r4, c4⟩ := blockDiagE r2 c2 r3 c3
  obtain ⟨H, e5, r5, c5⟩ := sandwichE (t := t) (m := m) (r4.trans r1.symm) (c4.trans r1.symm)
  exact ⟨H, by rw [e1, ok_bind, e2, ok_bind, e3, ok_bind, e4, ok_bind, e5], r5.trans c1, c5.trans c1⟩

theorem jerkGradientE (hD : HumData l s nb dx dy Bx By px py) (hs : s.Shaped) (hN : s.N = l.N) {X : Vec K}
    (hX : X.size = 2 * l.N + 2 * s.M) : ∃ G, jerkGradient l s X = .ok G ∧ G.size = 2 * l.N + 2 * s.M := by
  unfold jerkGradient
  rw [require_pos hX, ok_bind, hD.hnb, ok_bind, hD.hdx, ok_bind, hD.hdy, ok_bind]
  obtain ⟨t, e1, r1, c1⟩ := copMapTE hs hN
  obtain ⟨a, e2, z2⟩ := jerkSegmentE px.p l.x hD.hBx (hs.Wr.trans hN) (hs.Wc.trans hN) (hs.V0r.trans hN) hs.V0c
  obtain ⟨b, e3, z3⟩ := jerkSegmentE py.p l.y hD.hBy (hs.Wr.trans hN) (hs.Wc.trans hN) (hs.V0r.trans hN) hs.V0c
  obtain ⟨st, e4, z4⟩ := stackE z2 z3
  obtain ⟨g, e5, z5, -⟩ := mvE (A := t) (x := st) (c1.trans z4.symm)
  obtain ⟨H, e6, r6, c6⟩ := jerkHessianE hD hs hN
  obtain ⟨h, e7, z7, -⟩ := mvE (A := H) (x := X) (c6.trans hX.symm)
  obtain ⟨G, e8, z8, -⟩ := addE (u := g) (v := h) (by omega)
  refine ⟨G, ?_, by omega⟩
  rw [e1, ok_bind, hD.hpx, ok_bind, e2, ok_bind, hD.hpy, ok_bind, e3, ok_bind, e4, ok_bind, e5, ok_bind, e6,
    ok_bind, e7, ok_bind, e8]

theorem velHessianE (hD : HumData l s nb dx dy Bx By px py) (hdv : l.dyn l.vel nb = .ok dv) (hv : VelDyn l.N dv)
    (hs : s.Shaped) (hN : s.N = l.N) :
    ∃ H, velHessian l s = .ok H ∧ H.rows = 2 * l.N + 2 * s.M ∧ H.cols = 2 * l.N + 2 * s.M := by
  unfold velHessian
  rw [require_pos hN, ok_bind, hD.hnb, ok_bind, hD.hdx, ok_bind, hD.hdy, ok_bind, hdv, ok_bind]
  obtain ⟨t, e1, r1, c1⟩ := copMapE hs hN
  obtain ⟨A, e2, r2, c2⟩ := velBlockE hD.hBx hv (hs.Wr.trans hN) (hs.Wc.trans hN)
  obtain ⟨B, e3, r3, c3⟩ := velBlockE hD.hBy hv (hs.Wr.trans hN) (hs.Wc.trans hN)
  obtain ⟨m, e4, r4, c4⟩ := blockDiagE r2 c2 r3 c3
  obtain ⟨H, e5, r5, c5⟩ := sandwichE (t := t) (m := m) (r4.trans r1.symm) (c4.trans r1.symm)
  exact ⟨H, by rw [e1, ok_bind, e2, ok_bind, e3, ok_bind, e4, ok_bind, e5], r5.trans c1, c5.trans c1⟩

theorem velGradientE (hD : HumData l s nb dx dy Bx By px py) (hdv : l.dyn l.vel nb = .ok dv) (hv : VelDyn l.N dv)
    (hSr : dv.S.rows = l.N) (hSc : dv.S.cols = 3) (hs : s.Shaped) (hN : s.N = l.N) {ref X : Vec K}
    (href : ref.size = 2 * l.N) (hX : X.size = 2 * l.N + 2 * s.M) :
    ∃ G, velGradient l s ref X = .ok G ∧ G.size = 2 * l.N + 2 * s.M := by
  unfold velGradient
  rw [require_pos href, ok_bind, require_pos (by rw [hN]; exact hX), ok_bind, hD.hnb, ok_bind, hD.hdx, ok_bind,
    hD.hdy, ok_bind, hdv, ok_bind]
  obtain ⟨ra, ea, za, -⟩ := segE (t := ref) (o := 0) (n := l.N) (by omega)
  obtain ⟨rb, eb, zb, -⟩ := segE (t := ref) (o := l.N) (n := l.N) (by omega)
  obtain ⟨t, e1, r1, c1⟩ := copMapTE hs hN
  obtain ⟨a, e2, z2⟩ := velSegmentE px.p l.x hD.hBx hv hSr hSc (hs.Wr.trans hN) (hs.Wc.trans hN)
    (hs.V0r.trans hN) hs.V0c za
  obtain ⟨b, e3, z3⟩ := velSegmentE py.p l.y hD.hBy hv hSr hSc (hs.Wr.trans hN) (hs.Wc.trans hN)
    (hs.V0r.trans hN) hs.V0c zb
  obtain ⟨st, e4, z4⟩ := stackE z2 z3
  obtain ⟨g, e5, z5, -⟩ := mvE (A := t) (x := st) (c1.trans z4.symm)
  obtain ⟨H, e6, r6, c6⟩ := velHessianE hD hdv hv hs hN
  obtain ⟨h, e7, z7, -⟩ := mvE (A := H) (x := X) (c6.trans hX.symm)
  obtain ⟨G, e8, z8, -⟩ := addE (u := g) (v := h) (by omega)
  refine ⟨G, ?_, by omega⟩
  rw [hD.hpx, ok_bind, ea, ok_bind, e2, ok_bind, hD.hpy, ok_bind, eb, ok_bind, e3, ok_bind, e1, ok_bind, e4,
    ok_bind, e5, ok_bind, e6, ok_bind, e7, ok_bind, e8]

theorem centeringHessianE (l : Lip K) (s : Sup K) :
    ∃ H, centeringHessian l s = .ok H ∧ H.rows = 2 * l.N + 2 * s.M ∧ H.cols = 2 * l.N + 2 * s.M := by
  unfold centeringHessian
  exact setBlockE (A := (Mat.one (2 * l.N + 2 * s.M) : Mat K)) (by simp [Mat.one]) (by simp [Mat.one]) rfl rfl

theorem centeringGradientE (hN : s.N = l.N) {X : Vec K} (hX : X.size = 2 * l.N + 2 * s.M) :
    ∃ G, centeringGradient l s X = .ok G ∧ G.size = 2 * l.N + 2 * s.M := by
  unfold centeringGradient
  rw [require_pos hN, ok_bind, require_pos hX, ok_bind]
  obtain ⟨H, e, r, c⟩ := centeringHessianE l s
  obtain ⟨G, e2, z, -⟩ := mvE (A := H) (x := X) (c.trans hX.symm)
  exact ⟨G, by rw [e, ok_bind, e2], z.trans r⟩

theorem addObjectiveE {q : QPMatrices K} {w : K} {h : Res (Mat K)} {g : Res (Vec K)} {n m : ℕ}
    (hq : q.DimensionsAreConsistent n m) (hh : 0 < w → ∃ H, h = .ok H ∧ H.rows = n ∧ H.cols = n)
    (hg : 0 < w → ∃ G, g = .ok G ∧ G.size = n) :
    ∃ q', q.addObjective w h g = .ok q' ∧ q'.DimensionsAreConsistent n m := by
  by_cases hw : 0 < w
  · obtain ⟨H, rfl, r1, c1⟩ := hh hw
    obtain ⟨G, rfl, z1⟩ := hg hw
    have e : ∃ q', q.addObjective w (.ok H) (.ok G) = .ok q' := by
      unfold QPMatrices.addObjective
      rw [if_pos hw, ok_bind, Mat.add?_ok (by show _ = H.rows; rw [r1]; exact hq.1)
        (by show _ = H.cols; rw [c1]; exact hq.2.1), ok_bind, ok_bind,
        Vec.add?_ok (by show _ = G.size; rw [z1]; exact hq.2.2.1), ok_bind]
      exact ⟨_, rfl⟩
    obtain ⟨q', e⟩ := e
    exact ⟨q', e, addObjective_dims e hq⟩
  · refine ⟨q, ?_, hq⟩
    unfold QPMatrices.addObjective
    rw [if_neg hw]
    rfl

end Objectives

/-! ### Constraints -/

variable [IsStrictOrderedRing K]

/-- Sizes of a polygon with `n` general constraints. -/
def Polygon.HasRows (g : Polygon K) : Prop := g.nbGeneral ≤ g.coefX.size ∧ g.nbGeneral ≤ g.coefY.size

theorem vecAtE {α : Type} {v : Vec α} {i : ℕ} (h : i < v.size) : v.at? i = .ok (v.get i) := by
  unfold Vec.at?
  rw [requireIndex_pos h]
  rfl

theorem rowsLoopE {step : ℕ → Polygon K → Rows K → Res (Rows K)} {F : ℕ → Polygon K → ℕ → ℕ → K → K}
    {B : ℕ → Polygon K → ℕ → K} (hs : StepSpec step F B) {ps : Vec (Polygon K)} {n R : ℕ} {r₀ : Rows K}
    (h1 : r₀.A.rows = R) (h2 : r₀.A.cols = n) (h3 : r₀.b.size = R) (h4 : r₀.since = 0)
    (hst : ∀ k < ps.size, ∀ r : Rows K, r.A.rows = R → r.A.cols = n → r.b.size = R → r.since = rowStart ps k →
      ∃ r', step k (ps.get k) r = .ok r') :
    ∀ k ≤ ps.size, ∃ r, rowsLoop step ps r₀ k = .ok r ∧ r.A.rows = R ∧ r.A.cols = n ∧ r.b.size = R ∧
      r.since = rowStart ps k
  | 0, _ => ⟨r₀, rfl, h1, h2, h3, by rw [h4]; rfl⟩
  | k + 1, hk => by
    obtain ⟨r, e, a1, a2, a3, a4⟩ := rowsLoopE hs h1 h2 h3 h4 hst k (by omega)
    obtain ⟨r', e'⟩ := hst k (by omega) r a1 a2 a3 a4
    obtain ⟨d1, d2, d3⟩ := hs.dims e'
    refine ⟨r', ?_, d1.trans a1, d2.trans a2, d3.trans a3, ?_⟩
    · unfold rowsLoop
      rw [e, ok_bind, vecAtE (by omega), ok_bind, e']
    · rw [hs.since e', a4, rowStart_succ]

theorem copRowsE {ps : Vec (Polygon K)} {N n : ℕ} (hps : ps.size = N) (hn : 2 * N ≤ n)
    (hw : ∀ i < N, (ps.get i).HasRows) :
    ∃ r, generalRows (copStep N) ps n = .ok r ∧ r.A.rows = nbRows ps ∧ r.A.cols = n ∧ r.b.size = nbRows ps := by
  have hst : ∀ k < ps.size, ∀ r : Rows K, r.A.rows = nbRows ps → r.A.cols = n → r.b.size = nbRows ps →
      r.since = rowStart ps k → ∃ r', copStep N k (ps.get k) r = .ok r' := by
    intro k hk r a1 a2 a3 a4
    have hle : rowStart ps (k + 1) ≤ rowStart ps ps.size := rowStart_mono ps (by omega)
    rw [rowStart_succ] at hle
    have hle : r.since + (ps.get k).nbGeneral ≤ nbRows ps := by rw [a4]; exact hle
    unfold copStep
    dsimp only
    rw [requireIndex_pos (show _ ∧ _ from hw k (by omega)), ok_bind, requireIndex_pos (Or.inr ⟨by omega, by omega, by omega⟩),
      ok_bind]
    exact ⟨_, rfl⟩
  obtain ⟨r, e, b1, b2, b3, -⟩ := rowsLoopE (copStep_spec N)
    (r₀ := ⟨Mat.zero (nbRows ps) n, Vec.const (nbRows ps) MAXBOUND, 0⟩) rfl rfl rfl rfl hst ps.size le_rfl
  exact ⟨r, e, b1, b2, b3⟩

theorem footRowsE {ps : Vec (Polygon K)} {N M n : ℕ} (sx sy : K) (hps : ps.size = M) (hn : 2 * N + 2 * M ≤ n)
    (hw : ∀ i < M, (ps.get i).HasRows) :
    ∃ r, generalRows (footStep N M sx sy) ps n = .ok r ∧ r.A.rows = nbRows ps ∧ r.A.cols = n ∧
      r.b.size = nbRows ps := by
  have hst : ∀ k < ps.size, ∀ r : Rows K, r.A.rows = nbRows ps → r.A.cols = n → r.b.size = nbRows ps →
      r.since = rowStart ps k → ∃ r', footStep N M sx sy k (ps.get k) r = .ok r' := by
    intro k hk r a1 a2 a3 a4
    have hle : rowStart ps (k + 1) ≤ rowStart ps ps.size := rowStart_mono ps (by omega)
    rw [rowStart_succ] at hle
    have hle : r.since + (ps.get k).nbGeneral ≤ nbRows ps := by rw [a4]; exact hle
    unfold footStep
    dsimp only
    rw [requireIndex_pos (show _ ∧ _ from hw k (by omega)), ok_bind, requireIndex_pos (Or.inr ⟨by omega, by omega, by omega⟩),
      ok_bind]
    exact ⟨_, rfl⟩
  obtain ⟨r, e, b1, b2, b3, -⟩ := rowsLoopE (footStep_spec N M sx sy)
    (r₀ := ⟨Mat.zero (nbRows ps) n, Vec.const (nbRows ps) MAXBOUND, 0⟩) rfl rfl rfl rfl hst ps.size le_rfl
  exact ⟨r, e, b1, b2, b3⟩

/-- The sizes that `addConstraint` expects. -/
structure ConstraintAt.HasRows (c : ConstraintAt K) (n sz len : ℕ) : Prop where
  Ar : c.A.rows = n
  Ac : c.A.cols = sz
  f : c.f.size = n
  inf : c.inf.size = len
  sup : c.sup.size = len

theorem copConstraintE {hull : Vec (Pt K) → Res (Polygon K)} {l : Lip K} {s : Sup K} {bs : ℕ} {X : Vec K}
    {ps : Vec (Polygon K)} (hN : s.N = l.N) (hX : X.size = 2 * l.N + 2 * s.M)
    (hps : s.copPolygons hull l.N = .ok ps) (hsz : ps.size = l.N) (hw : ∀ i < l.N, (ps.get i).HasRows)
    (hb : bs = 2 * l.N) :
    ∃ c, copConstraint hull l s bs X = .ok c ∧ c.HasRows (nbRows ps) (2 * l.N + 2 * s.M) (2 * l.N) := by
  unfold copConstraint
  rw [require_pos hN, ok_bind, require_pos hX, ok_bind, hps, ok_bind]
  obtain ⟨r, e1, a1, a2, a3⟩ := copRowsE (n := X.size) hsz (by omega) hw
  rw [e1, ok_bind]
  obtain ⟨m, e2, z2, -⟩ := mvE (A := r.A) (x := X) a2
  rw [e2, ok_bind]
  obtain ⟨f, e3, z3, -⟩ := addE (u := m) (v := r.b) (by omega)
  rw [e3, ok_bind]
  obtain ⟨x0, e4, z4, -⟩ := segE (t := X) (o := 0) (n := 2 * l.N) (by omega)
  rw [e4, ok_bind]
  unfold copBounds
  dsimp only
  rw [require_pos z4, ok_bind, requireIndex_pos (by omega), ok_bind, Vec.sub?_ok (by dsimp only; omega), ok_bind,
    Vec.sub?_ok (by dsimp only; omega)]
  exact ⟨_, rfl, a1, a2.trans hX, by dsimp only; omega, hb, hb⟩

theorem footConstraintE {l : Lip K} {s : Sup K} {X : Vec K} {ps : Vec (Polygon K)} {px py : State3 K}
    (hN : s.N = l.N) (hX : X.size = 2 * l.N + 2 * s.M)
    (hps : s.kinPolygons = .ok ps) (hsz : ps.size = s.M) (hw : ∀ i < s.M, (ps.get i).HasRows)
    (hpx : s.supportX = .ok px) (hpy : s.supportY = .ok py) :
    ∃ c, footConstraint l s X = .ok c ∧ c.HasRows (nbRows ps) (2 * l.N + 2 * s.M) (2 * s.M) := by
  unfold footConstraint
  rw [require_pos hN, ok_bind, require_pos hX, ok_bind, hps, ok_bind, hpx, ok_bind, hpy, ok_bind]
  dsimp only
  obtain ⟨r, e1, a1, a2, a3⟩ := footRowsE (N := s.N) (n := X.size) px.p py.p hsz (by omega) hw
  rw [e1, ok_bind]
  obtain ⟨m, e2, z2, -⟩ := mvE (A := r.A) (x := X) a2
  rw [e2, ok_bind]
  obtain ⟨f, e3, z3, -⟩ := addE (u := m) (v := r.b) (by omega)
  rw [e3, ok_bind]
  obtain ⟨x0, e4, z4, -⟩ := segE (t := X) (o := 2 * l.N) (n := 2 * s.M) (by omega)
  rw [e4, ok_bind]
  unfold footBounds
  dsimp only
  rw [require_pos z4, ok_bind, Vec.sub?_ok (by dsimp only; omega), ok_bind, Vec.sub?_ok (by dsimp only; omega)]
  exact ⟨_, rfl, a1, a2.trans hX, by dsimp only; omega, rfl, rfl⟩

theorem addConstraintE {q : QPMatrices K} {r0 n c0 len sz m : ℕ} {c : ConstraintAt K}
    (hq : q.DimensionsAreConsistent sz m) (hc : c.HasRows n sz len) (hr : r0 + n ≤ m) (hl : c0 + len ≤ sz) :
    ∃ q', q.addConstraint r0 n c0 len sz c = .ok q' ∧ q'.DimensionsAreConsistent sz m := by
  obtain ⟨q1, q2, q3, q4, q5, q6, q7, q8, q9⟩ := hq
  have hA : ∃ A, q.A.addBlock? r0 0 n sz c.A = .ok A := by
    unfold Mat.addBlock?
    rw [requireIndex_pos ⟨by omega, by omega⟩, ok_bind, requireSize_pos ⟨hc.Ar, hc.Ac⟩]
    exact ⟨_, rfl⟩
  obtain ⟨A, hA⟩ := hA
  have hmin : ∀ (u v : Vec K) (k : ℕ), u.size = k → v.size = k → ∃ w, u.cwiseMin? v = .ok w ∧ w.size = k := by
    intro u v k h1 h2
    unfold Vec.cwiseMin?
    rw [requireSize_pos (h1.trans h2.symm)]
    exact ⟨_, rfl, h1⟩
  have hmax : ∀ (u v : Vec K) (k : ℕ), u.size = k → v.size = k → ∃ w, u.cwiseMax? v = .ok w ∧ w.size = k := by
    intro u v k h1 h2
    unfold Vec.cwiseMax?
    rw [requireSize_pos (h1.trans h2.symm)]
    exact ⟨_, rfl, h1⟩
  have e : ∃ q', q.addConstraint r0 n c0 len sz c = .ok q' := by
    unfold QPMatrices.addConstraint
    rw [hA, ok_bind]
    obtain ⟨u1, e1, z1, -⟩ := segE (t := q.bu) (o := r0) (n := n) (by omega)
    obtain ⟨v1, f1, y1⟩ := hmin u1 c.f.neg n z1 hc.f
    obtain ⟨w1, g1, -⟩ := setSeg (t := q.bu) (v := v1) (o := r0) (N := n) (by omega) y1
    rw [e1, ok_bind, f1, ok_bind, g1, ok_bind]
    obtain ⟨u2, e2, z2, -⟩ := segE (t := q.xl) (o := c0) (n := len) (by omega)
    obtain ⟨v2, f2, y2⟩ := hmax u2 c.inf len z2 hc.inf
    obtain ⟨w2, g2, -⟩ := setSeg (t := q.xl) (v := v2) (o := c0) (N := len) (by omega) y2
    rw [e2, ok_bind, f2, ok_bind, g2, ok_bind]
    obtain ⟨u3, e3, z3, -⟩ := segE (t := q.xu) (o := c0) (n := len) (by omega)
    obtain ⟨v3, f3, y3⟩ := hmin u3 c.sup len z3 hc.sup
    obtain ⟨w3, g3, -⟩ := setSeg (t := q.xu) (v := v3) (o := c0) (N := len) (by omega) y3
    rw [e3, ok_bind, f3, ok_bind, g3, ok_bind]
    exact ⟨_, rfl⟩
  obtain ⟨q', e⟩ := e
  exact ⟨q', e, (addConstraint_dims e).2 ⟨q1, q2, q3, q4, q5, q6, q7, q8, q9⟩⟩

theorem buildVecE {α : Type} {d : α} {f : ℕ → Res α} {n : ℕ} {P : α → Prop}
    (h : ∀ i < n, ∃ a, f i = .ok a ∧ P a) :
    ∃ v, buildVec d f n = .ok v ∧ v.size = n ∧ ∀ i < n, P (v.get i) := by
  obtain ⟨v, e, z, g⟩ := buildVec_of (d := d) (f := f) (n := n)
    (fun i => if hi : i < n then (h i hi).choose else d) (fun i hi => by
      rw [dif_pos hi]; exact (h i hi).choose_spec.1)
  refine ⟨v, e, z, fun i hi => ?_⟩
  rw [g i hi, dif_pos hi]
  exact (h i hi).choose_spec.2

theorem nbRows_le {ps : Vec (Polygon K)} {n c : ℕ} (hs : ps.size = n) (h : ∀ i < n, (ps.get i).nbGeneral ≤ c) :
    nbRows ps ≤ c * n := by
  unfold nbRows
  rw [hs]
  calc ∑ i ∈ range n, (ps.get i).nbGeneral ≤ ∑ _i ∈ range n, c :=
        sum_le_sum fun i hi => h i (mem_range.1 hi)
    _ = c * n := by rw [sum_const, card_range, smul_eq_mul, mul_comm]

end MPC
