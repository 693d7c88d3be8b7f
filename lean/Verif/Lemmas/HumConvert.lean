import Verif.Lemmas.HumCost

/-! # `convertCopInLFtoComJerk`, and the data shared by the objectives -/

set_option linter.unusedSectionVars false

namespace MPC

open Finset

variable {K : Type} [Field K] [LinearOrder K]

theorem getInv_eq_ok {o : Option (Mat K)} {B : Mat K} (h : getInv o = .ok B) : o = some B := by
  cases o with
  | none => cases h
  | some A => exact congrArg some (Except.ok.inj h)

theorem inverseLU_dims {A B : Mat K} {e : K} (h : inverseLU A e = some B) :
    B.rows = A.rows ∧ B.cols = A.rows := by
  unfold inverseLU at h
  obtain ⟨C, hC, rfl⟩ := Option.map_eq_some_iff.1 h
  unfold Mat.inverse at hC
  dsimp only at hC
  split at hC
  · cases hC
  · have := Option.some.inj hC
    subst this
    exact ⟨rfl, rfl⟩

theorem copDyn_axis {S T : K} {N : ℕ} {h gx gz m : K} {B : Mat K}
    (hB : (copDyn S T N h gx gz m).Uinv = some B) : AxisDyn N (copDyn S T N h gx gz m) B := by
  have hB' : inverseLU ⟨N, N, copU S T h gz m⟩ EPS = some B := hB
  obtain ⟨h1, h2⟩ := inverseLU_dims hB'
  refine ⟨hB, ?_, h1, h2, rfl, rfl, rfl⟩
  show (inverseLU ⟨N, N, copU S T h gz m⟩ EPS).map Mat.transpose = _
  rw [hB']
  rfl

section Fresh
variable [IsStrictOrderedRing K] [FloorRing K] {l : Lip K} {s : Sup K} {nb : ℤ}

theorem Lip.Fresh.axisX (hf : l.Fresh) {d : LinearDynamic K} {B : Mat K} (hd : l.dyn l.copX nb = .ok d)
    (hB : d.Uinv = some B) : AxisDyn l.N d B := by
  obtain ⟨k, -, hk, rfl⟩ := Lip.dyn_ok hd
  rw [hf.copX k hk] at hB ⊢
  exact copDyn_axis hB

theorem Lip.Fresh.axisY (hf : l.Fresh) {d : LinearDynamic K} {B : Mat K} (hd : l.dyn l.copY nb = .ok d)
    (hB : d.Uinv = some B) : AxisDyn l.N d B := by
  obtain ⟨k, -, hk, rfl⟩ := Lip.dyn_ok hd
  rw [hf.copY k hk] at hB ⊢
  exact copDyn_axis hB

theorem Lip.Fresh.velDyn (hf : l.Fresh) {d : LinearDynamic K} (hd : l.dyn l.vel nb = .ok d) :
    VelDyn l.N d := by
  obtain ⟨k, -, hk, rfl⟩ := Lip.dyn_ok hd
  rw [hf.vel k hk]
  exact ⟨rfl, rfl, rfl⟩

theorem jerkBlock_inv {d : LinearDynamic K} {W Q : Mat K} (h : jerkBlock d W = .ok Q) :
    ∃ B, d.Uinv = some B := by
  unfold jerkBlock at h
  obtain ⟨_, -, h⟩ := bind_eq_ok.1 h
  obtain ⟨_, -, h⟩ := bind_eq_ok.1 h
  obtain ⟨B, hB, h⟩ := bind_eq_ok.1 h
  exact ⟨B, getInv_eq_ok hB⟩

theorem velBlock_inv {d dv : LinearDynamic K} {W Q : Mat K} (h : velBlock d dv W = .ok Q) :
    ∃ B, d.Uinv = some B := by
  unfold velBlock at h
  obtain ⟨_, -, h⟩ := bind_eq_ok.1 h
  obtain ⟨_, -, h⟩ := bind_eq_ok.1 h
  obtain ⟨_, -, h⟩ := bind_eq_ok.1 h
  obtain ⟨_, -, h⟩ := bind_eq_ok.1 h
  obtain ⟨B, hB, h⟩ := bind_eq_ok.1 h
  exact ⟨B, getInv_eq_ok hB⟩

/-- The jerk objective reads the data. -/
theorem jerk_data (hf : l.Fresh) {H : Mat K} {x0 G : Vec K} (hH : jerkHessian l s = .ok H)
    (hG : jerkGradient l s x0 = .ok G) : ∃ nb dx dy Bx By px py, HumData l s nb dx dy Bx By px py := by
  unfold jerkHessian at hH
  obtain ⟨_, -, hH⟩ := bind_eq_ok.1 hH
  obtain ⟨nb, hnb, hH⟩ := bind_eq_ok.1 hH
  obtain ⟨dx, hdx, hH⟩ := bind_eq_ok.1 hH
  obtain ⟨dy, hdy, hH⟩ := bind_eq_ok.1 hH
  obtain ⟨_, -, hH⟩ := bind_eq_ok.1 hH
  obtain ⟨_, hA, hH⟩ := bind_eq_ok.1 hH
  obtain ⟨_, hB, hH⟩ := bind_eq_ok.1 hH
  obtain ⟨Bx, hBx⟩ := jerkBlock_inv hA
  obtain ⟨By, hBy⟩ := jerkBlock_inv hB
  unfold jerkGradient at hG
  obtain ⟨_, -, hG⟩ := bind_eq_ok.1 hG
  obtain ⟨_, -, hG⟩ := bind_eq_ok.1 hG
  obtain ⟨_, -, hG⟩ := bind_eq_ok.1 hG
  obtain ⟨_, -, hG⟩ := bind_eq_ok.1 hG
  obtain ⟨_, -, hG⟩ := bind_eq_ok.1 hG
  obtain ⟨px, hpx, hG⟩ := bind_eq_ok.1 hG
  obtain ⟨_, -, hG⟩ := bind_eq_ok.1 hG
  obtain ⟨py, hpy, hG⟩ := bind_eq_ok.1 hG
  exact ⟨nb, dx, dy, Bx, By, px, py, hnb, hdx, hdy, hf.axisX hdx hBx, hf.axisY hdy hBy, hpx, hpy⟩

/-- The velocity objective reads the data. -/
theorem vel_data (hf : l.Fresh) {H : Mat K} {x0 G ref : Vec K} (hH : velHessian l s = .ok H)
    (hG : velGradient l s ref x0 = .ok G) :
    ∃ nb dx dy Bx By px py dv, HumData l s nb dx dy Bx By px py ∧ l.dyn l.vel nb = .ok dv := by
  unfold velHessian at hH
  obtain ⟨_, -, hH⟩ := bind_eq_ok.1 hH
  obtain ⟨nb, hnb, hH⟩ := bind_eq_ok.1 hH
  obtain ⟨dx, hdx, hH⟩ := bind_eq_ok.1 hH
  obtain ⟨dy, hdy, hH⟩ := bind_eq_ok.1 hH
  obtain ⟨dv, hdv, hH⟩ := bind_eq_ok.1 hH
  obtain ⟨_, -, hH⟩ := bind_eq_ok.1 hH
  obtain ⟨_, hA, hH⟩ := bind_eq_ok.1 hH
  obtain ⟨_, hB, hH⟩ := bind_eq_ok.1 hH
  obtain ⟨Bx, hBx⟩ := velBlock_inv hA
  obtain ⟨By, hBy⟩ := velBlock_inv hB
  unfold velGradient at hG
  obtain ⟨_, -, hG⟩ := bind_eq_ok.1 hG
  obtain ⟨_, -, hG⟩ := bind_eq_ok.1 hG
  obtain ⟨_, -, hG⟩ := bind_eq_ok.1 hG
  obtain ⟨_, -, hG⟩ := bind_eq_ok.1 hG
  obtain ⟨_, -, hG⟩ := bind_eq_ok.1 hG
  obtain ⟨_, -, hG⟩ := bind_eq_ok.1 hG
  obtain ⟨px, hpx, hG⟩ := bind_eq_ok.1 hG
  obtain ⟨_, -, hG⟩ := bind_eq_ok.1 hG
  obtain ⟨_, -, hG⟩ := bind_eq_ok.1 hG
  obtain ⟨py, hpy, hG⟩ := bind_eq_ok.1 hG
  exact ⟨nb, dx, dy, Bx, By, px, py, dv,
    ⟨hnb, hdx, hdy, hf.axisX hdx hBx, hf.axisY hdy hBy, hpx, hpy⟩, hdv⟩

end Fresh

/-! ### Conversion -/

theorem setSeg {t v : Vec K} {o N : ℕ} (h : o + N ≤ t.size) (hv : v.size = N) :
    ∃ t', t.setSegment? o N v = .ok t' ∧ t'.size = t.size ∧ (∀ i < N, t'.get (o + i) = v.get i) ∧
      ∀ i, i < o ∨ o + N ≤ i → t'.get i = t.get i := by
  refine ⟨_, Vec.setSegment?_ok h hv, rfl, fun i hi => ?_, fun i hi => ?_⟩
  · simp only
    rw [if_pos (by omega), Nat.add_sub_cancel_left]
  · simp only
    rw [if_neg (by omega)]

theorem mvE {A : Mat K} {x : Vec K} (h : A.cols = x.size) :
    ∃ v, A.mulVec? x = .ok v ∧ v.size = A.rows ∧ ∀ i, v.get i = mv A x.get i :=
  ⟨_, Mat.mulVec?_ok h, rfl, fun _ => rfl⟩

theorem segE {t : Vec K} {o n : ℕ} (h : o + n ≤ t.size) :
    ∃ v, t.segment? o n = .ok v ∧ v.size = n ∧ ∀ i, v.get i = t.get (o + i) :=
  ⟨_, Vec.segment?_ok h, rfl, fun _ => rfl⟩

theorem addE {u v : Vec K} (h : u.size = v.size) :
    ∃ r, u.add? v = .ok r ∧ r.size = u.size ∧ ∀ i, r.get i = u.get i + v.get i :=
  ⟨_, Vec.add?_ok h, rfl, fun _ => rfl⟩

theorem subE {u v : Vec K} (h : u.size = v.size) :
    ∃ r, u.sub? v = .ok r ∧ r.size = u.size ∧ ∀ i, r.get i = u.get i - v.get i :=
  ⟨_, Vec.sub?_ok h, rfl, fun _ => rfl⟩

theorem blkE {A : Mat K} {r c h w : ℕ} (hr : r + h ≤ A.rows) (hc : c + w ≤ A.cols) :
    ∃ B, A.block? r c h w = .ok B ∧ B.rows = h ∧ B.cols = w ∧ ∀ i j, B.get i j = A.get (r + i) (c + j) :=
  ⟨_, Mat.block?_ok hr hc, rfl, rfl, fun _ _ => rfl⟩

theorem rot_diag {N o : ℕ} {s : Sup K} {B : Mat K} (hc : B.cols = N)
    (hB : ∀ i j, B.get i j = s.rotation.transpose.get (o + i) (o + j)) (x : ℕ → K) {i : ℕ} (hi : i < N) :
    mv B x i = x i := by
  unfold mv
  rw [hc]
  simp only [hB, Sup.rotation, Mat.transpose, Mat.one]
  rw [sum_eq_single i]
  · rw [if_pos rfl, one_mul]
  · intro j _ hj
    rw [if_neg (by omega), zero_mul]
  · intro h; exact absurd (mem_range.2 hi) h

theorem rot_off {N : ℕ} {s : Sup K} {B : Mat K} (hc : B.cols = N)
    (hB : ∀ i j, B.get i j = s.rotation.transpose.get (0 + i) (N + j)) (x : ℕ → K) {i : ℕ} (hi : i < N) :
    mv B x i = 0 := by
  unfold mv
  rw [hc]
  simp only [hB, Sup.rotation, Mat.transpose, Mat.one]
  exact sum_eq_zero fun j _ => by rw [if_neg (by omega), zero_mul]

theorem addSeg {t v : Vec K} {o N : ℕ} (h : o + N ≤ t.size) (hv : v.size = N) :
    ∃ t', t.addSegment? o N v = .ok t' ∧ t'.size = t.size ∧
      (∀ i < N, t'.get (o + i) = t.get (o + i) + v.get i) ∧
      ∀ i, i < o ∨ o + N ≤ i → t'.get i = t.get i := by
  obtain ⟨p, e1, z1, g1⟩ := segE h
  obtain ⟨u, e2, z2, g2⟩ := addE (u := p) (v := v) (by omega)
  obtain ⟨t', e3, z3, g3, b3⟩ := setSeg (t := t) (v := u) h (by omega)
  refine ⟨t', ?_, z3, fun i hi => by rw [g3 i hi, g2, g1], b3⟩
  unfold Vec.addSegment?
  rw [e1, ok_bind, e2, ok_bind, e3]

theorem subSeg {t v : Vec K} {o N : ℕ} (h : o + N ≤ t.size) (hv : v.size = N) :
    ∃ t', t.subSegment? o N v = .ok t' ∧ t'.size = t.size ∧
      (∀ i < N, t'.get (o + i) = t.get (o + i) - v.get i) ∧
      ∀ i, i < o ∨ o + N ≤ i → t'.get i = t.get i := by
  obtain ⟨p, e1, z1, g1⟩ := segE h
  obtain ⟨u, e2, z2, g2⟩ := subE (u := p) (v := v) (by omega)
  obtain ⟨t', e3, z3, g3, b3⟩ := setSeg (t := t) (v := u) h (by omega)
  refine ⟨t', ?_, z3, fun i hi => by rw [g3 i hi, g2, g1], b3⟩
  unfold Vec.subSegment?
  rw [e1, ok_bind, e2, ok_bind, e3]

theorem rotated_ok {w : HWalkgen K} {N : ℕ} (hN : w.sup.N = N) (hX : 2 * N ≤ w.X.size) :
    ∃ t, w.rotated N = .ok t ∧ t.size = w.X.size ∧ ∀ i, t.get i = w.X.get i := by
  have hrr : w.sup.rotation.transpose.rows = 2 * N := by rw [← hN]; rfl
  have hrc : w.sup.rotation.transpose.cols = 2 * N := by rw [← hN]; rfl
  have k0 : 0 + N ≤ w.X.size := by omega
  have k1 : N + N ≤ w.X.size := by omega
  have k2 : 0 + N ≤ w.sup.rotation.transpose.rows := by omega
  have k3 : 0 + N ≤ w.sup.rotation.transpose.cols := by omega
  have k4 : N + N ≤ w.sup.rotation.transpose.rows := by omega
  have k5 : N + N ≤ w.sup.rotation.transpose.cols := by omega
  have k6 : ∀ i, ¬ i < N → i < 2 * N → ∃ j < N, i = N + j := fun i h h' => ⟨i - N, by omega, by omega⟩
  have k7 : ∀ i, ¬ i < 2 * N → N + N ≤ i ∧ 0 + N ≤ i := fun i h => by omega
  unfold HWalkgen.rotated
  dsimp only
  obtain ⟨X0, e, zX0, gX0⟩ := segE (t := w.X) (o := 0) (n := N) k0
  rw [e, ok_bind]; clear e
  obtain ⟨X1, e, zX1, gX1⟩ := segE (t := w.X) (o := N) (n := N) k1
  rw [e, ok_bind]; clear e
  obtain ⟨R01, e, r01, c01, g01⟩ := blkE (A := w.sup.rotation.transpose) (r := 0) (c := N)
    (h := N) (w := N) k2 k5
  rw [e, ok_bind]; clear e
  obtain ⟨R00, e, r00, c00, g00⟩ := blkE (A := w.sup.rotation.transpose) (r := 0) (c := 0) (h := N)
    (w := N) k2 k3
  rw [e, ok_bind]; clear e
  obtain ⟨u0, e, zu0, gu0⟩ := mvE (A := R00) (x := X0) (c00.trans zX0.symm)
  rw [e, ok_bind]; clear e
  obtain ⟨u1, e, zu1, gu1⟩ := mvE (A := R01) (x := X1) (c01.trans zX1.symm)
  rw [e, ok_bind]; clear e
  obtain ⟨v1, e, zv1, gv1⟩ := addE (u := u0) (v := u1) ((zu0.trans r00).trans (zu1.trans r01).symm)
  rw [e, ok_bind]; clear e
  obtain ⟨t1, e, z1, a1, b1⟩ := setSeg (t := w.X) (o := 0) (N := N) (v := v1) k0
    (zv1.trans (zu0.trans r00))
  rw [e, ok_bind]; clear e
  obtain ⟨u2, e, zu2, gu2⟩ := mvE (A := R01) (x := X0) (c01.trans zX0.symm)
  rw [e, ok_bind]; clear e
  obtain ⟨R11, e, r11, c11, g11⟩ := blkE (A := w.sup.rotation.transpose) (r := N) (c := N)
    (h := N) (w := N) k4 k5
  rw [e, ok_bind]; clear e
  obtain ⟨u3, e, zu3, gu3⟩ := mvE (A := R11) (x := X1) (c11.trans zX1.symm)
  rw [e, ok_bind]; clear e
  obtain ⟨v2, e, zv2, gv2⟩ := addE (u := u2) (v := u3) ((zu2.trans r01).trans (zu3.trans r11).symm)
  rw [e, ok_bind]; clear e
  obtain ⟨t2, e, z2, a2, b2⟩ := setSeg (t := t1) (o := N) (N := N) (v := v2) (z1 ▸ k1)
    (zv2.trans (zu2.trans r01))
  rw [e]; clear e
  refine ⟨t2, rfl, z2.trans z1, fun i => ?_⟩
  by_cases h0 : i < N
  · have := a1 i h0
    rw [zero_add] at this
    rw [b2 _ (Or.inl h0), this, gv1, gu0, gu1, rot_diag c00 g00 _ h0, rot_off c01 g01 _ h0, gX0,
      zero_add, add_zero]
  by_cases h1 : i < 2 * N
  · obtain ⟨j, hj, rfl⟩ := k6 i h0 h1
    rw [a2 j hj, gv2, gu2, gu3, rot_off c01 g01 _ hj, rot_diag c11 g11 _ hj, gX1, zero_add]
  · rw [b2 _ (Or.inr (k7 i h1).1), b1 _ (Or.inr (k7 i h1).2)]

section Convert
variable [IsStrictOrderedRing K] [FloorRing K] {w : HWalkgen K} {nb : ℤ}
  {dx dy : LinearDynamic K} {Bx By : Mat K} {px py : State3 K}

/-- The conversion of a plan into jerks. -/
theorem convert_ok (hD : HumData w.lip w.sup nb dx dy Bx By px py) (hs : w.sup.Shaped)
    (hN : w.sup.N = w.lip.N) (hX : 2 * w.lip.N + 2 * w.sup.M ≤ w.X.size) :
    ∃ t, w.convert = .ok t ∧ t.size = w.X.size ∧
      (∀ i < w.lip.N, t.get i = jerkX w.lip w.sup dx Bx px w.X.get i) ∧
      (∀ i < w.lip.N, t.get (w.lip.N + i) = jerkY w.lip w.sup dy By py w.X.get i) ∧
      ∀ i, 2 * w.lip.N ≤ i → t.get i = w.X.get i := by
  have hVr : w.sup.V.rows = w.lip.N := hs.Vr.trans hN
  have hVc := hs.Vc
  have hV0 : w.sup.V0.toVec? = .ok ⟨w.sup.V0.rows, fun i => w.sup.V0.get i 0⟩ := by
    simp [Mat.toVec?, requireSize, hs.V0c]
  have hV0r : w.sup.V0.rows = w.lip.N := hs.V0r.trans hN
  obtain ⟨bx1, bx2, bx3, bx4, bx5, bx6, bx7⟩ := hD.hBx
  obtain ⟨by1, by2, by3, by4, by5, by6, by7⟩ := hD.hBy
  have k0 : 0 + w.lip.N ≤ w.X.size := by omega
  have k1 : w.lip.N + w.lip.N ≤ w.X.size := by omega
  have k2 : 2 * w.lip.N + w.sup.M ≤ w.X.size := by omega
  have k3 : 2 * w.lip.N + w.sup.M + w.sup.M ≤ w.X.size := by omega
  have k4 : 2 * w.lip.N ≤ w.X.size := by omega
  have k5 : ∀ i, 2 * w.lip.N ≤ i → w.lip.N + w.lip.N ≤ i ∧ 0 + w.lip.N ≤ i := fun i h => by omega
  have k6 : ∀ i, i < w.lip.N → 0 + i < w.lip.N := fun i h => by omega
  have k7 : ∀ i, 0 + w.lip.N ≤ w.lip.N + i := fun i => by omega
  unfold HWalkgen.convert
  dsimp only
  rw [hD.hnb, ok_bind, hD.hdx, ok_bind, hD.hdy, ok_bind]
  obtain ⟨t2, e, z2, a2⟩ := rotated_ok (w := w) hN k4
  rw [e, ok_bind]; clear e
  -- footsteps
  obtain ⟨f3, e, zf3, gf3⟩ := segE (t := w.X) (o := 2 * w.lip.N) (n := w.sup.M) k2
  rw [e, ok_bind]; clear e
  obtain ⟨m3, e, zm3, gm3⟩ := mvE (A := w.sup.V) (x := f3) (hVc.trans zf3.symm)
  rw [e, ok_bind]; clear e
  obtain ⟨t3, e, z3, a3, b3⟩ := addSeg (t := t2) (o := 0) (N := w.lip.N) (v := m3) (z2 ▸ k0) (zm3.trans hVr)
  have z3 := z3.trans z2
  rw [e, ok_bind]; clear e
  obtain ⟨f4, e, zf4, gf4⟩ := segE (t := w.X) (o := 2 * w.lip.N + w.sup.M) (n := w.sup.M) k3
  rw [e, ok_bind]; clear e
  obtain ⟨m4, e, zm4, gm4⟩ := mvE (A := w.sup.V) (x := f4) (hVc.trans zf4.symm)
  rw [e, ok_bind]; clear e
  obtain ⟨t4, e, z4, a4, b4⟩ := addSeg (t := t3) (o := w.lip.N) (N := w.lip.N) (v := m4) (z3 ▸ k1) (zm4.trans hVr)
  have z4 := z4.trans z3
  rw [e, ok_bind]; clear e
  -- support foot
  rw [hV0, ok_bind, hD.hpx, ok_bind]
  obtain ⟨t5, e, z5, a5, b5⟩ := addSeg (t := t4) (o := 0) (N := w.lip.N)
    (v := Vec.smul px.p ⟨w.sup.V0.rows, fun i => w.sup.V0.get i 0⟩) (z4 ▸ k0) hV0r
  have z5 := z5.trans z4
  rw [e, ok_bind, hD.hpy, ok_bind]; clear e
  obtain ⟨t6, e, z6, a6, b6⟩ := addSeg (t := t5) (o := w.lip.N) (N := w.lip.N)
    (v := Vec.smul py.p ⟨w.sup.V0.rows, fun i => w.sup.V0.get i 0⟩) (z5 ▸ k1) hV0r
  have z6 := z6.trans z5
  rw [e, ok_bind]; clear e
  -- free motion
  obtain ⟨q7, e, zq7, gq7⟩ := mvE (A := dx.S) (x := w.lip.x.toVec) (by rw [bx6]; rfl)
  rw [e, ok_bind]; clear e
  obtain ⟨r7, e, zr7, gr7⟩ := addE (u := q7) (v := dx.C) ((zq7.trans bx5).trans bx7.symm)
  rw [e, ok_bind]; clear e
  obtain ⟨t7, e, z7, a7, b7⟩ := subSeg (t := t6) (o := 0) (N := w.lip.N) (v := r7) (z6 ▸ k0) (zr7.trans (zq7.trans bx5))
  have z7 := z7.trans z6
  rw [e, ok_bind]; clear e
  obtain ⟨q8, e, zq8, gq8⟩ := mvE (A := dy.S) (x := w.lip.y.toVec) (by rw [by6]; rfl)
  rw [e, ok_bind]; clear e
  obtain ⟨r8, e, zr8, gr8⟩ := addE (u := q8) (v := dy.C) ((zq8.trans by5).trans by7.symm)
  rw [e, ok_bind]; clear e
  obtain ⟨t8, e, z8, a8, b8⟩ := subSeg (t := t7) (o := w.lip.N) (N := w.lip.N) (v := r8) (z7 ▸ k1) (zr8.trans (zq8.trans by5))
  have z8 := z8.trans z7
  rw [e, ok_bind]; clear e
  -- inverse
  rw [bx1, by1]
  simp only [getInv, ok_bind]
  obtain ⟨p9, e, zp9, gp9⟩ := segE (t := t8) (o := 0) (n := w.lip.N) (z8 ▸ k0)
  rw [e, ok_bind]; clear e
  obtain ⟨v9, e, zv9, gv9⟩ := mvE (A := Bx) (x := p9) (bx4.trans zp9.symm)
  rw [e, ok_bind]; clear e
  obtain ⟨p10, e, zp10, gp10⟩ := segE (t := t8) (o := w.lip.N) (n := w.lip.N) (z8 ▸ k1)
  rw [e, ok_bind]; clear e
  obtain ⟨v10, e, zv10, gv10⟩ := mvE (A := By) (x := p10) (by4.trans zp10.symm)
  rw [e, ok_bind]; clear e
  obtain ⟨t9, e, z9, a9, b9⟩ := setSeg (t := t8) (o := 0) (N := w.lip.N) (v := v9) (z8 ▸ k0) (zv9.trans bx3)
  have z9 := z9.trans z8
  rw [e, ok_bind]; clear e
  obtain ⟨t10, e, z10, a10, b10⟩ := setSeg (t := t9) (o := w.lip.N) (N := w.lip.N) (v := v10) (z9 ▸ k1) (zv10.trans by3)
  have z10 := z10.trans z9
  rw [e]; clear e
  have cx : ∀ i < w.lip.N, p9.get i
      = planT w.sup.M w.sup.V 0 (2 * w.lip.N) w.X.get i + axisOff dx w.sup.V0 px.p w.lip.x i := by
    intro i hi
    have hi' := k6 i hi
    rw [gp9, b8 _ (Or.inl hi'), a7 i hi, gr7, gq7, b6 _ (Or.inl hi'), a5 i hi,
      b4 _ (Or.inl hi'), a3 i hi, gm3, a2]
    unfold planT axisOff mv
    rw [hVc]
    simp only [gf3, Vec.smul]
    ring
  have cy : ∀ i < w.lip.N, p10.get i
      = planT w.sup.M w.sup.V w.lip.N (2 * w.lip.N + w.sup.M) w.X.get i
        + axisOff dy w.sup.V0 py.p w.lip.y i := by
    intro i hi
    have hi' := k7 i
    rw [gp10, a8 i hi, gr8, gq8, b7 _ (Or.inr hi'), a6 i hi, b5 _ (Or.inr hi'),
      a4 i hi, gm4, b3 _ (Or.inr hi'), a2]
    unfold planT axisOff mv
    rw [hVc]
    simp only [gf4, Vec.smul]
    ring
  refine ⟨t10, rfl, z10, fun i hi => ?_, fun i hi => ?_, fun i hi => ?_⟩
  · have h9 := a9 i hi
    rw [zero_add] at h9
    rw [b10 _ (Or.inl hi), h9, gv9]
    exact mv_congr (fun j hj => cx j (by rwa [bx4] at hj)) i
  · rw [a10 i hi, gv10]
    exact mv_congr (fun j hj => cy j (by rwa [by4] at hj)) i
  · obtain ⟨h1, h0⟩ := k5 i hi
    rw [b10 _ (Or.inr h1), b9 _ (Or.inr h0), b8 _ (Or.inr h1), b7 _ (Or.inr h0), b6 _ (Or.inr h1),
      b5 _ (Or.inr h0), b4 _ (Or.inr h1), b3 _ (Or.inr h0), a2]

/-- A conversion that succeeds reads the data. -/
theorem convert_data (hf : w.lip.Fresh) {t : Vec K} (h : w.convert = .ok t) :
    2 * w.lip.N + 2 * w.sup.M ≤ w.X.size ∧
      ∃ nb dx dy Bx By px py, HumData w.lip w.sup nb dx dy Bx By px py := by
  unfold HWalkgen.convert at h
  dsimp only at h
  obtain ⟨nb, hnb, h⟩ := bind_eq_ok.1 h
  obtain ⟨dx, hdx, h⟩ := bind_eq_ok.1 h
  obtain ⟨dy, hdy, h⟩ := bind_eq_ok.1 h
  obtain ⟨t2, -, h⟩ := bind_eq_ok.1 h
  iterate 3 obtain ⟨_, -, h⟩ := bind_eq_ok.1 h
  obtain ⟨f4, h4, h⟩ := bind_eq_ok.1 h
  obtain ⟨hX, -⟩ := Vec.segment?_eq_ok h4
  obtain ⟨_, -, h⟩ := bind_eq_ok.1 h
  obtain ⟨t4, -, h⟩ := bind_eq_ok.1 h
  obtain ⟨v0, -, h⟩ := bind_eq_ok.1 h
  obtain ⟨px, hpx, h⟩ := bind_eq_ok.1 h
  obtain ⟨t5, -, h⟩ := bind_eq_ok.1 h
  obtain ⟨py, hpy, h⟩ := bind_eq_ok.1 h
  obtain ⟨t6, -, h⟩ := bind_eq_ok.1 h
  iterate 3 obtain ⟨_, -, h⟩ := bind_eq_ok.1 h
  iterate 3 obtain ⟨_, -, h⟩ := bind_eq_ok.1 h
  obtain ⟨Bx, hBx, h⟩ := bind_eq_ok.1 h
  iterate 2 obtain ⟨_, -, h⟩ := bind_eq_ok.1 h
  obtain ⟨By, hBy, h⟩ := bind_eq_ok.1 h
  exact ⟨by omega, nb, dx, dy, Bx, By, px, py, hnb, hdx, hdy, hf.axisX hdx (getInv_eq_ok hBx),
    hf.axisY hdy (getInv_eq_ok hBy), hpx, hpy⟩

end Convert

end MPC
