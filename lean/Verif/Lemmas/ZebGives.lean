import Verif.Lemmas.ZebTiltEq

/-! # What `ZebulonWalkgen` gives to the solver, and on what it depends -/

set_option linter.unusedSectionVars false

namespace MPC

open Finset

variable {K : Type} [Field K] [LinearOrder K] [IsStrictOrderedRing K] [FloorRing K]

variable {tr : Trig K} {s : Spec.ZebSettings K} {L : K} {k : K × K} {w : Zeb K}

/-- `qp` is the QP that `solve(fb)` gives to qpOASES: for every qpOASES, `solve` succeeds and adds to the jerks
the answer of qpOASES for `qp`. -/
def ZebGives (tr : Trig K) (w : Zeb K) (fb : K) (qp : QPMatrices K) : Prop :=
  ∀ o : Oracle K, ∃ b w', w.solve o tr fb = .ok (b, w') ∧ w'.X.size = w.X.size ∧
    ∀ i < w.X.size, w'.X.get i = w.X.get i + (o w.solver.calls qp 10000).2 i

theorem zebGives_of_inv (h : ZInv tr s L k w) (hr : s.RefsCurrent) {fb : K} (hfb : 0 < fb) :
    ∃ qp u ps v qs, ZebGives tr w fb qp ∧ ZPrep tr s L k w u ps v qs qp ∧
      ∀ o, w.solve o tr fb = .ok (true, zSolveResult o s.nbSamples w qp fb) := by
  obtain ⟨qp, u, ps, v, qs, e, hq⟩ := zPrepare_ok h hr hfb
  have hs := fun o => zSolve_of_prepare o h hfb e hq
  refine ⟨qp, u, ps, v, qs, fun o => ⟨_, _, hs o, rfl, fun i hi => ?_⟩, hq, hs⟩
  have : i < w.solver.nbVar := by rw [h.qp.nbVar, ← h.part.user.X]; exact hi
  simp [zSolveResult, this]

/-- The QP is determined by `ZebGives`. -/
theorem ZebGives.unique (h : ZInv tr s L k w) {fb : K} {qp qp' : QPMatrices K} (hg : ZebGives tr w fb qp)
    (hg' : ZebGives tr w fb qp') : qp = qp' := by
  classical
  by_contra hne
  obtain ⟨_, w1, e1, -, h1⟩ := hg fun _ q _ => (true, fun _ => if q = qp then 1 else 0)
  obtain ⟨_, w2, e2, -, h2⟩ := hg' fun _ q _ => (true, fun _ => if q = qp then 1 else 0)
  have hN : 0 < w.X.size := by rw [h.part.user.X]; have := h.part.user.model.N_pos; omega
  rw [e1] at e2
  cases e2
  have a := h1 0 hN
  have b := h2 0 hN
  rw [a] at b
  simp only [if_true, if_neg (Ne.symm hne)] at b
  exact one_ne_zero (add_left_cancel b)

/-! ### Uniqueness of the tilt matrices -/

theorem inverse_unique' {N : ℕ} {U v v' : ℕ → ℕ → K} (h : ∀ i < N, ∀ j < N, mm N v U i j = ide i j)
    (h' : ∀ i < N, ∀ j < N, mm N U v' i j = ide i j) : ∀ i < N, ∀ j < N, v i j = v' i j := by
  intro i hi j hj
  have h1 := toM_inverse h
  have h2 := toM_inverse h'
  have : toM N v = toM N v' := by
    calc toM N v = toM N v * (toM N U * toM N v') := by rw [h2, mul_one]
      _ = toM N v' := by rw [← mul_assoc, h1, one_mul]
  exact congrFun (congrFun this ⟨i, hi⟩) ⟨j, hj⟩

theorem TiltSol.unique {u ps u' ps' : ℕ → ℕ → K} (h : TiltSol s L u ps) (h' : TiltSol s L u' ps') :
    (∀ i < s.nbSamples, ∀ j < s.nbSamples, u i j = u' i j) ∧ (∀ i < s.nbSamples, ∀ j < 2, ps i j = ps' i j) := by
  obtain ⟨⟨m, h1, -, h3⟩, h4⟩ := h
  obtain ⟨⟨m', h1', h2', -⟩, h4'⟩ := h'
  have e := inverse_unique' h3 h2'
  have eu : ∀ i < s.nbSamples, ∀ j < s.nbSamples, u i j = u' i j := fun i hi j hj => by
    rw [h1 i hi j hj, h1' i hi j hj, e i hi j hj]
  refine ⟨eu, fun i hi j hj => ?_⟩
  rw [h4 i hi j hj, h4' i hi j hj]
  exact sum_congr rfl fun q hq => by rw [eu i hi q (mem_range.1 hq)]

theorem TiltVelSol.unique {u ps u' ps' : ℕ → ℕ → K} (h : TiltVelSol s L u ps) (h' : TiltVelSol s L u' ps') :
    (∀ i < s.nbSamples, ∀ j < s.nbSamples, u i j = u' i j) ∧ (∀ i < s.nbSamples, ∀ j < 2, ps i j = ps' i j) := by
  obtain ⟨⟨m, h1, -, h3⟩, h4⟩ := h
  obtain ⟨⟨m', h1', h2', -⟩, h4'⟩ := h'
  have e := inverse_unique' h3 h2'
  have eu : ∀ i < s.nbSamples, ∀ j < s.nbSamples, u i j = u' i j := fun i hi j hj => by
    rw [h1 i hi j hj, h1' i hi j hj, e i hi j hj]
  refine ⟨eu, fun i hi j hj => ?_⟩
  rw [h4 i hi j hj, h4' i hi j hj]
  congr 2
  exact sum_congr rfl fun q hq => by rw [eu i hi q (mem_range.1 hq)]

/-- The prediction matrix of a tilt objective depends on the first rows and columns of its inverse. -/
theorem zTiltD_congr {u u' : ℕ → ℕ → K} (h : ∀ i < s.nbSamples, ∀ j < s.nbSamples, u i j = u' i j) {r : ℕ}
    (hr : r < 2 * s.nbSamples) (c : ℕ) : zTiltD s L u r c = zTiltD s L u' r c := by
  have hm : ∀ (R : ℕ → ℕ → K) {i : ℕ} (j : ℕ), i < s.nbSamples → mm s.nbSamples u R i j = mm s.nbSamples u' R i j :=
    fun R i j hi => sum_congr rfl fun q hq => by rw [h i hi q (mem_range.1 hq)]
  unfold zTiltD coupledD
  by_cases c1 : r < s.nbSamples
  · rw [if_pos c1, if_pos c1, hm _ _ c1, hm _ _ c1]
  · have c2 : r - s.nbSamples < s.nbSamples := by omega
    rw [if_neg c1, if_neg c1, hm _ _ c2, hm _ _ c2]

theorem gram_zTiltD_congr {u u' : ℕ → ℕ → K} (h : ∀ i < s.nbSamples, ∀ j < s.nbSamples, u i j = u' i j) (i j : ℕ) :
    gram (2 * s.nbSamples) (zTiltD s L u) i j = gram (2 * s.nbSamples) (zTiltD s L u') i j :=
  sum_congr rfl fun r hr => by rw [zTiltD_congr h (mem_range.1 hr), zTiltD_congr h (mem_range.1 hr)]

theorem zQ_congr {u u' v v' : ℕ → ℕ → K} (h : ∀ i < s.nbSamples, ∀ j < s.nbSamples, u i j = u' i j)
    (h' : ∀ i < s.nbSamples, ∀ j < s.nbSamples, v i j = v' i j) (i j : ℕ) :
    zQ s (zTiltD s L u) (zTiltD s L v) i j = zQ s (zTiltD s L u') (zTiltD s L v') i j := by
  unfold zQ
  rw [gram_zTiltD_congr h, gram_zTiltD_congr h']

theorem tiltOff_congr {u u' ps ps' : ℕ → ℕ → K} (h : ∀ i < s.nbSamples, ∀ j < s.nbSamples, u i j = u' i j)
    (hp : ∀ i < s.nbSamples, ∀ j < 2, ps i j = ps' i j) (com base tilt : State3 K) (c : K) {i : ℕ}
    (hi : i < s.nbSamples) : tiltOff s L u ps com base tilt c i = tiltOff s L u' ps' com base tilt c i := by
  have hm : ∀ (R : ℕ → ℕ → K) (j : ℕ), mm s.nbSamples u R i j = mm s.nbSamples u' R i j :=
    fun R j => sum_congr rfl fun q hq => by rw [h i hi q (mem_range.1 hq)]
  unfold tiltOff
  simp only [hm]
  rw [sum_congr (s₂ := range 2) rfl fun j hj => by rw [hp i hi j (mem_range.1 hj)],
    sum_congr (s₂ := range s.nbSamples) rfl fun j hj => by rw [h i hi j (mem_range.1 hj)]]

theorem LsqGrad_zTilt_congr {u u' ps ps' : ℕ → ℕ → K} (h : ∀ i < s.nbSamples, ∀ j < s.nbSamples, u i j = u' i j)
    (hp : ∀ i < s.nbSamples, ∀ j < 2, ps i j = ps' i j) (cx bx cy by_ roll pitch : State3 K) (dx dy : K) (x : ℕ → K)
    (r : ℕ) : LsqGrad (2 * s.nbSamples) (4 * s.nbSamples) (zTiltD s L u)
        (zStack s.nbSamples (tiltOff s L u ps cx bx roll dx) (tiltOff s L u ps cy by_ pitch dy)) x r
      = LsqGrad (2 * s.nbSamples) (4 * s.nbSamples) (zTiltD s L u')
        (zStack s.nbSamples (tiltOff s L u' ps' cx bx roll dx) (tiltOff s L u' ps' cy by_ pitch dy)) x r := by
  unfold LsqGrad
  congr 1
  · exact sum_congr rfl fun j _ => by rw [gram_zTiltD_congr h]
  · refine sum_congr rfl fun j hj => ?_
    have hj := mem_range.1 hj
    rw [zTiltD_congr h hj]
    congr 1
    exact zStack_congr (fun i hi => tiltOff_congr h hp _ _ _ _ hi) (fun i hi => tiltOff_congr h hp _ _ _ _ hi) hj

/-! ### Normalisation -/

theorem foldl_range_congr {α : Type} {n : ℕ} {f g : α → ℕ → α} (h : ∀ a, ∀ i < n, f a i = g a i) (a : α) :
    (List.range n).foldl f a = (List.range n).foldl g a := by
  induction n generalizing a with
  | zero => rfl
  | succ n ih =>
    rw [List.range_succ, List.foldl_append, List.foldl_append, ih (fun a i hi => h a i (by omega))]
    exact h _ n (by omega)

theorem smallestSignificant_congr {A B : Mat K} (h : A.Same B) (eps : K) :
    smallestSignificant A eps = smallestSignificant B eps := by
  obtain ⟨h1, h2, h3⟩ := h
  unfold smallestSignificant
  rw [← h1, ← h2]
  exact foldl_range_congr (fun a i hi => foldl_range_congr (fun b j hj => by rw [h3 i hi j hj]) a) 1

theorem Mat.Is.same {A B : Mat K} {n m : ℕ} {f g : ℕ → ℕ → K} (hA : A.Is n m f) (hB : B.Is n m g)
    (h : ∀ i < n, ∀ j < m, f i j = g i j) : A.Same B := by
  refine ⟨hA.1.trans hB.1.symm, hA.2.1.trans hB.2.1.symm, fun i hi j hj => ?_⟩
  rw [hA.1] at hi
  rw [hA.2.1] at hj
  rw [hA.2.2 i hi j hj, hB.2.2 i hi j hj, h i hi j hj]

/-- The cached matrices and the normalisation factors. -/
theorem zMats (h : ZInv tr s L k w) : ∃ u ps v qs, TiltSol s L u ps ∧ TiltVelSol s L v qs ∧
    w.invObj = 1 / smallestSignificant ⟨4 * s.nbSamples, 4 * s.nbSamples, zQ s (zTiltD s L u) (zTiltD s L v)⟩ EPS ∧
    w.invCtr = 1 / smallestSignificant ⟨zM s, 4 * s.nbSamples, zA tr s⟩ EPS ∧
    w.qp.Q.Is (4 * s.nbSamples) (4 * s.nbSamples) (fun i j => w.invObj * zQ s (zTiltD s L u) (zTiltD s L v) i j) ∧
    w.qp.A.Is (zM s) (4 * s.nbSamples) fun i j => w.invCtr * zA tr s i j := by
  obtain ⟨u, ps, ht, hts⟩ : ∃ u ps, w.tiltObj.Is s L s.contactX s.contactY u ps ∧ TiltSol s L u ps :=
    h.part.fresh .tilt trivial
  obtain ⟨v, qs, hv, hvs⟩ : ∃ u ps, w.tiltVelObj.Is s L s.contactX s.contactY u ps ∧ TiltVelSol s L u ps :=
    h.part.fresh .tiltVel trivial
  obtain ⟨Q, eQ, hQ⟩ := zBuildQ_ok h.part ht.hessian hv.hessian
  obtain ⟨A, eA, hA⟩ := zBuildA_ok h.part
  obtain ⟨Q', eQ', fQ, hQ'⟩ := h.qp.Q
  obtain ⟨A', eA', fA, hA'⟩ := h.qp.A
  rw [eQ] at eQ'; cases eQ'
  rw [eA] at eA'; cases eA'
  rw [getNormalizationFactor_ok Q EPS EPS_pos.le] at fQ
  rw [getNormalizationFactor_ok A EPS EPS_pos.le] at fA
  have fQ := Except.ok.inj fQ
  have fA := Except.ok.inj fA
  have sQ : Q.Same ⟨4 * s.nbSamples, 4 * s.nbSamples, zQ s (zTiltD s L u) (zTiltD s L v)⟩ :=
    hQ.same ⟨rfl, rfl, fun _ _ _ _ => rfl⟩ fun _ _ _ _ => rfl
  have sA : A.Same ⟨zM s, 4 * s.nbSamples, zA tr s⟩ := hA.same ⟨rfl, rfl, fun _ _ _ _ => rfl⟩ fun _ _ _ _ => rfl
  refine ⟨u, ps, v, qs, hts, hvs, ?_, ?_, ?_, ?_⟩
  · rw [← fQ, smallestSignificant_congr sQ]
  · rw [← fA, smallestSignificant_congr sA]
  · rw [hQ']; exact hQ.smul _
  · rw [hA']; exact hA.smul _

/-- Cached matrices and factors only depend on settings and base height used by the tilt objectives. -/
theorem zMats_same {s' : Spec.ZebSettings K} {k' : K × K} {w' : Zeb K} (h : ZInv tr s L k w) (h' : ZInv tr s' L k' w')
    (hs : s' = { s with velRef := s'.velRef, posRef := s'.posRef, copRef := s'.copRef, comRef := s'.comRef
                        velLimit := s'.velLimit, accLimit := s'.accLimit, jerkLimit := s'.jerkLimit, roll := s'.roll
                        pitch := s'.pitch, contactX := s'.contactX, contactY := s'.contactY }) :
    w.invObj = w'.invObj ∧ w.invCtr = w'.invCtr ∧ w.qp.Q.Same w'.qp.Q ∧ w.qp.A.Same w'.qp.A := by
  obtain ⟨u, ps, v, qs, t1, t2, e1, e2, hQ, hA⟩ := zMats h
  obtain ⟨u', ps', v', qs', t1', t2', e1', e2', hQ', hA'⟩ := zMats h'
  generalize s'.velRef = a1 at hs
  generalize s'.posRef = a2 at hs
  generalize s'.copRef = a3 at hs
  generalize s'.comRef = a4 at hs
  generalize s'.velLimit = a5 at hs
  generalize s'.accLimit = a6 at hs
  generalize s'.jerkLimit = a7 at hs
  generalize s'.roll = a8 at hs
  generalize s'.pitch = a9 at hs
  generalize s'.contactX = a10 at hs
  generalize s'.contactY = a11 at hs
  subst hs
  have t1'' : TiltSol s L u' ps' := ⟨t1'.inv, t1'.ps⟩
  have t2'' : TiltVelSol s L v' qs' := ⟨t2'.inv, t2'.ps⟩
  have c1 := (t1.unique t1'').1
  have c2 := (t2.unique t2'').1
  have cQ := zQ_congr (L := L) c1 c2
  have hQ'' : w'.qp.Q.Is (4 * s.nbSamples) (4 * s.nbSamples)
      (fun i j => w'.invObj * zQ s (zTiltD s L u') (zTiltD s L v') i j) := hQ'
  have hA'' : w'.qp.A.Is (zM s) (4 * s.nbSamples) (fun i j => w'.invCtr * zA tr s i j) := hA'
  have e1'' : w'.invObj = 1 / smallestSignificant ⟨4 * s.nbSamples, 4 * s.nbSamples,
    zQ s (zTiltD s L u') (zTiltD s L v')⟩ EPS := e1'
  have e2'' : w'.invCtr = 1 / smallestSignificant ⟨zM s, 4 * s.nbSamples, zA tr s⟩ EPS := e2'
  have i1 : w.invObj = w'.invObj := by
    have hh : Mat.Same ⟨4 * s.nbSamples, 4 * s.nbSamples, zQ s (zTiltD s L u) (zTiltD s L v)⟩
        ⟨4 * s.nbSamples, 4 * s.nbSamples, zQ s (zTiltD s L u') (zTiltD s L v')⟩ :=
      ⟨rfl, rfl, fun i _ j _ => cQ i j⟩
    rw [e1, e1'', smallestSignificant_congr hh]
  have i2 : w.invCtr = w'.invCtr := by rw [e2, e2'']
  refine ⟨i1, i2, hQ.same hQ'' fun i _ j _ => ?_, hA.same hA'' fun i _ j _ => ?_⟩
  · rw [i1, cQ]
  · rw [i2]

/-- The vectors of the QP only depend on settings, base height and shift used by the objectives, states and
jerks. -/
theorem zPrep_same {w' : Zeb K} (h : ZInv tr s L k w) (h' : ZInv tr s L k w') {u ps v qs u' ps' v' qs' : ℕ → ℕ → K}
    {qp qp' : QPMatrices K} (hq : ZPrep tr s L k w u ps v qs qp) (hq' : ZPrep tr s L k w' u' ps' v' qs' qp')
    (hz : w'.state = w.state) (hX : ∀ i < 4 * s.nbSamples, w'.X.get i = w.X.get i) :
    qp.Q.Same qp'.Q ∧ qp.A.Same qp'.A ∧ qp.p.Same qp'.p ∧ qp.bl.Same qp'.bl ∧ qp.bu.Same qp'.bu ∧
      qp.xl.Same qp'.xl ∧ qp.xu.Same qp'.xu := by
  obtain ⟨i1, i2, h1, h2⟩ := zMats_same h h' rfl
  have hs : ∀ {a b : Vec K} {n : ℕ} {f g : ℕ → K}, a.Is n f → b.Is n g → (∀ i < n, f i = g i) → a.Same b := by
    intro a b n f g ha hb hfg
    refine ⟨ha.1.trans hb.1.symm, fun i hi => ?_⟩
    rw [ha.1] at hi
    rw [ha.2 i hi, hb.2 i hi, hfg i hi]
  obtain ⟨c1, c1'⟩ := hq.sol.unique hq'.sol
  obtain ⟨c2, c2'⟩ := hq.velSol.unique hq'.velSol
  have z1 : w'.lip.x = w.lip.x := congrArg Spec.ZebState.cx hz
  have z2 : w'.lip.y = w.lip.y := congrArg Spec.ZebState.cy hz
  have z3 : w'.base.x = w.base.x := congrArg Spec.ZebState.bx hz
  have z4 : w'.base.y = w.base.y := congrArg Spec.ZebState.by_ hz
  have hsum : ∀ f : ℕ → K, ∑ c ∈ range (4 * s.nbSamples), f c * w'.X.get c = ∑ c ∈ range (4 * s.nbSamples), f c * w.X.get c :=
    fun f => sum_congr rfl fun c hc => by rw [hX c (mem_range.1 hc)]
  have hsum2 : ∀ f : ℕ → K, ∑ c ∈ range (2 * s.nbSamples), f c * w'.X.get (2 * s.nbSamples + c)
      = ∑ c ∈ range (2 * s.nbSamples), f c * w.X.get (2 * s.nbSamples + c) :=
    fun f => sum_congr rfl fun c hc => by rw [hX _ (by have := mem_range.1 hc; omega)]
  have hpoly : ∀ (p : Vec (Pt K)) (D : ℕ → ℕ → K) (t : ℕ → K) (r : ℕ),
      polyF s.nbSamples p D t w'.X.get r = polyF s.nbSamples p D t w.X.get r := by
    intro p D t r; unfold polyF; simp only [hsum]
  have hhead : ∀ (a b : K) (r : ℕ), headingK s a b w'.lip w'.base r = headingK s a b w.lip w.base r := by
    intro a b r; unfold headingK; rw [z1, z2, z3, z4]
  refine ⟨by rw [hq.Q0, hq'.Q0]; exact h1, by rw [hq.A0, hq'.A0]; exact h2, hs hq.p hq'.p fun i hi => ?_,
    hs hq.bl hq'.bl fun i hi => ?_, hs hq.bu hq'.bu fun i hi => ?_, hs hq.xl hq'.xl fun i hi => ?_,
    hs hq.xu hq'.xu fun i hi => ?_⟩
  · have g : ∀ (n : ℕ) (D : ℕ → ℕ → K) (o : ℕ → K) (r : ℕ),
        LsqGrad n (4 * s.nbSamples) D o w'.X.get r = LsqGrad n (4 * s.nbSamples) D o w.X.get r :=
      fun n D o r => LsqGrad_congr (fun _ _ => rfl) hX r
    have g2 : ∀ (n : ℕ) (D : ℕ → ℕ → K) (o : ℕ → K) (r : ℕ),
        LsqGrad n (2 * s.nbSamples) D o (fun j => w'.X.get (2 * s.nbSamples + j)) r
        = LsqGrad n (2 * s.nbSamples) D o (fun j => w.X.get (2 * s.nbSamples + j)) r :=
      fun n D o r => LsqGrad_congr (fun _ _ => rfl) (fun j hj => hX _ (by omega)) r
    have o1 : copOff s w'.lip w'.base s.copRef = copOff s w.lip w.base s.copRef := by
      unfold copOff; rw [z1, z2, z3, z4]
    have o2 : comOff s w'.lip w'.base (zShifted s k) = comOff s w.lip w.base (zShifted s k) := by
      unfold comOff; rw [z1, z2, z3, z4]
    rw [i1]
    unfold zP
    rw [LsqGrad_zTilt_congr c1 c1', LsqGrad_zTilt_congr c2 c2', o1, o2, z1, z2, z3, z4]
    simp only [g, g2, hX i hi]
  · rw [i2]; unfold zBl; simp only [hsum, hsum2, hpoly, hhead, z1, z2, z3, z4]
  · rw [i2]; unfold zBu; simp only [hsum, hsum2, hpoly, hhead, z1, z2, z3, z4]
  · unfold zX; rw [hX i hi]
  · unfold zX; rw [hX i hi]

end MPC
