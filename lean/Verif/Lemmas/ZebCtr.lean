import Verif.Lemmas.ZebCop

/-! # The constraints of `ZebulonWalkgen` -/

set_option linter.unusedSectionVars false
set_option linter.unusedSimpArgs false

namespace MPC

open Finset

variable {K : Type} [Field K] [LinearOrder K] [IsStrictOrderedRing K] [FloorRing K]

/-! ### Polygons -/

/-- Row `r` of the polygon matrix against `2N` values. -/
theorem polyA_row {N : ℕ} (p : Vec (Pt K)) (z : ℕ → K) {r : ℕ} (hN : 0 < N) :
    ∑ k ∈ range (2 * N), polyA N p r k * z k
      = ((p.get ((r / N + 1) % p.size)).y - (p.get (r / N)).y) * z (r % N)
        - ((p.get ((r / N + 1) % p.size)).x - (p.get (r / N)).x) * z (N + r % N) := by
  have hj : r % N < N := Nat.mod_lt _ hN
  rw [sum_range_two]
  have h1 : ∑ i ∈ range N, polyA N p r i * z i
      = ((p.get ((r / N + 1) % p.size)).y - (p.get (r / N)).y) * z (r % N) := by
    rw [sum_eq_single_of_mem (r % N) (mem_range.2 hj)]
    · unfold polyA; simp
    · intro k hk hne
      have := mem_range.1 hk
      unfold polyA
      dsimp only
      rw [if_neg hne, if_neg (by omega), zero_mul]
  have h2 : ∑ i ∈ range N, polyA N p r (N + i) * z (N + i)
      = (-(p.get ((r / N + 1) % p.size)).x + (p.get (r / N)).x) * z (N + r % N) := by
    rw [sum_eq_single_of_mem (r % N) (mem_range.2 hj)]
    · unfold polyA; dsimp only; rw [if_neg (by omega), if_pos (by omega)]
    · intro k hk hne
      unfold polyA
      dsimp only
      rw [if_neg (by omega), if_neg (by omega), zero_mul]
  rw [h1, h2]; ring

/-- What is known of an up-to-date polygon constraint. -/
structure PolyConstraint.Is (c : PolyConstraint K) (N : ℕ) (p : Vec (Pt K)) (D : ℕ → ℕ → K) : Prop where
  A : c.A.Is (p.size * N) (2 * N) (polyA N p)
  b : c.b.Is (p.size * N) (polyB N p)
  gradient : c.gradient.Is (p.size * N) (4 * N) fun r q => ∑ k ∈ range (2 * N), polyA N p r k * D k q
  tmp : c.tmpSize = 2 * N

theorem CopConstraint.compute_ok {s : Spec.ZebSettings K} {l : Lip K} {b : Base K} (h : ZModel s l b) :
    ∃ c, CopConstraint.compute l b = .ok c ∧ c.Is s.nbSamples b.copPoly
      (coupledD s.nbSamples (copC s) (copC s) (copB s) (copB s)) := by
  have hx := copDyn_is (Spec.comFirst s.period) s.period s.nbSamples s.bodyHeight s.gx s.gz
    (s.bodyMass / (s.bodyMass + s.baseMass))
  have hy := copDyn_is (Spec.comFirst s.period) s.period s.nbSamples s.bodyHeight s.gy s.gz
    (s.bodyMass / (s.bodyMass + s.baseMass))
  have hp := posDyn_is s.period s.period s.nbSamples
  have hbx := copDyn_is s.period s.period s.nbSamples s.baseHeight s.gx s.gz
    (s.baseMass / (s.bodyMass + s.baseMass))
  have hby := copDyn_is s.period s.period s.nbSamples s.baseHeight s.gy s.gz
    (s.baseMass / (s.bodyMass + s.baseMass))
  unfold CopConstraint.compute
  rw [h.same, ok_bind, h.last_copX, h.last_copY, h.pos, h.copX, h.copY, h.lN, h.bm]
  unfold PolyConstraint.matrices
  dsimp only
  rw [ok_bind, ok_bind]
  have hA := Mat.Is.of (b.copPoly.size * s.nbSamples) (2 * s.nbSamples) (polyA s.nbSamples b.copPoly)
  have fin : ∀ {D : Mat K}, D.Is (2 * s.nbSamples) (4 * s.nbSamples)
      (coupledD s.nbSamples (copC s) (copC s) (copB s) (copB s)) →
      ∃ c : PolyConstraint K, (do
        let g ← (Mat.mk (b.copPoly.size * s.nbSamples) (2 * s.nbSamples) (polyA s.nbSamples b.copPoly)).mul? D
        pure ⟨⟨b.copPoly.size * s.nbSamples, 2 * s.nbSamples, polyA s.nbSamples b.copPoly⟩,
          ⟨b.copPoly.size * s.nbSamples, polyB s.nbSamples b.copPoly⟩, g, 2 * s.nbSamples⟩ :
        Res (PolyConstraint K)) = .ok c ∧ c.Is s.nbSamples b.copPoly
      (coupledD s.nbSamples (copC s) (copC s) (copB s) (copB s)) := by
    intro D hD
    obtain ⟨G, eG, hG⟩ := hA.mul hD
    rw [eG, ok_bind]
    exact ⟨_, rfl, hA, .of _ _, hG, rfl⟩
  by_cases hm : EPS < s.baseMass
  · rw [if_pos hm]
    obtain ⟨E, eE, hE⟩ := hbx.U.sub hp.U
    obtain ⟨E', eE', hE'⟩ := hby.U.sub hp.U
    rw [eE, ok_bind, eE', ok_bind]
    have eB : ∀ i j, copU s.period s.period s.baseHeight s.gz
        (s.baseMass / (s.bodyMass + s.baseMass)) i j - posU s.period s.period i j = copB s i j := by
      intro i j; unfold copB; rw [if_pos hm]
    obtain ⟨D, eD, hD⟩ := relative4_ok (C0 := copC s) (C1 := copC s) hx.U hy.U
      (hE.congr fun i _ j _ => eB i j) (hE'.congr fun i _ j _ => eB i j)
    rw [eD, ok_bind]
    exact fin hD
  · rw [if_neg hm]
    have eB : ∀ i j, - posU s.period s.period i j = copB s i j := by
      intro i j; unfold copB; rw [if_neg hm, zero_sub]
    obtain ⟨D, eD, hD⟩ := relative4_ok (C0 := copC s) (C1 := copC s) hx.U hy.U
      (hp.U.neg.congr fun i _ j _ => eB i j) (hp.U.neg.congr fun i _ j _ => eB i j)
    rw [eD, ok_bind]
    exact fin hD

theorem ComConstraint.compute_ok {s : Spec.ZebSettings K} {l : Lip K} {b : Base K} (h : ZModel s l b) :
    ∃ c, ComConstraint.compute l b = .ok c ∧ c.Is s.nbSamples b.comPoly
      (coupledD s.nbSamples (posU (Spec.comFirst s.period) s.period)
        (posU (Spec.comFirst s.period) s.period) (fun i j => -posU s.period s.period i j)
        (fun i j => -posU s.period s.period i j)) := by
  have hc := posDyn_is (Spec.comFirst s.period) s.period s.nbSamples
  have hp := posDyn_is s.period s.period s.nbSamples
  unfold ComConstraint.compute
  rw [h.same, ok_bind, h.last_pos, h.pos, h.lN]
  unfold PolyConstraint.matrices
  dsimp only
  rw [ok_bind]
  have hA := Mat.Is.of (b.comPoly.size * s.nbSamples) (2 * s.nbSamples) (polyA s.nbSamples b.comPoly)
  obtain ⟨D, eD, hD⟩ := relative4_ok hc.U hc.U hp.U.neg hp.U.neg
  obtain ⟨G, eG, hG⟩ := hA.mul hD
  rw [eD, ok_bind, eG, ok_bind]
  exact ⟨_, rfl, hA, .of _ _, hG, rfl⟩

/-- The value of the constraint function at `x0` for offsets `t`. -/
def polyF (N : ℕ) (p : Vec (Pt K)) (D : ℕ → ℕ → K) (t x : ℕ → K) (r : ℕ) : K :=
  -polyB N p r - ∑ k ∈ range (2 * N), polyA N p r k * (∑ c ∈ range (4 * N), D k c * x c + t k)

theorem PolyConstraint.finish_ok {c : PolyConstraint K} {N : ℕ} {p : Vec (Pt K)} {D : ℕ → ℕ → K}
    (hc : c.Is N p D) {x0 tmp : Vec K} {t : ℕ → K} (hx : x0.size = 4 * N) (ht : tmp.Is (2 * N) t) :
    ∃ f, c.finish x0 tmp = .ok f ∧ f.Is (p.size * N) (polyF N p D t x0.get) := by
  obtain ⟨a, ea, ha⟩ := hc.gradient.mulVec (x0.is hx)
  obtain ⟨d, ed, hd⟩ := hc.b.neg.sub ha
  obtain ⟨e, ee, he⟩ := hc.A.mulVec ht
  obtain ⟨f, ef, hf⟩ := hd.sub he
  refine ⟨f, ?_, hf.congr fun r _ => ?_⟩
  · unfold PolyConstraint.finish
    rw [ea, ok_bind, ed, ok_bind, ee, ok_bind, ef]
  · unfold polyF
    have : ∑ q ∈ range (4 * N), (∑ k ∈ range (2 * N), polyA N p r k * D k q) * x0.get q
        = ∑ k ∈ range (2 * N), polyA N p r k * ∑ q ∈ range (4 * N), D k q * x0.get q := by
      simp only [sum_mul, mul_sum]
      rw [sum_comm]
      exact sum_congr rfl fun _ _ => sum_congr rfl fun _ _ => by ring
    rw [this]
    simp only [mul_add, sum_add_distrib]
    ring

/-- Two assignments of halves. -/
theorem zStack_seg {N : ℕ} (a b : ℕ → K) {k : ℕ} (hk : k < 2 * N) (f : ℕ → K) :
    (if N ≤ k ∧ k < N + N then b (k - N) else if 0 ≤ k ∧ k < 0 + N then a (k - 0) else f k)
      = zStack N a b k := by
  unfold zStack
  by_cases h : k < N
  · rw [if_neg (by omega), if_pos (by omega), if_pos h]; rfl
  · rw [if_pos (by omega), if_neg h]

theorem CopConstraint.getFunction_ok {s : Spec.ZebSettings K} {l : Lip K} {b : Base K} (h : ZModel s l b)
    {c : PolyConstraint K} {p : Vec (Pt K)} {D : ℕ → ℕ → K} (hc : c.Is s.nbSamples p D) {x0 : Vec K}
    (hx0 : x0.size = 4 * s.nbSamples) :
    ∃ f, CopConstraint.getFunction c l b x0 = .ok f ∧ f.Is (p.size * s.nbSamples)
      (polyF s.nbSamples p D (zStack s.nbSamples (copK s s.gx l.x b.x) (copK s s.gy l.y b.y)) x0.get) := by
  have hx := copDyn_is (Spec.comFirst s.period) s.period s.nbSamples s.bodyHeight s.gx s.gz
    (s.bodyMass / (s.bodyMass + s.baseMass))
  have hy := copDyn_is (Spec.comFirst s.period) s.period s.nbSamples s.bodyHeight s.gy s.gz
    (s.bodyMass / (s.bodyMass + s.baseMass))
  have hp := posDyn_is s.period s.period s.nbSamples
  have hbx := copDyn_is s.period s.period s.nbSamples s.baseHeight s.gx s.gz
    (s.baseMass / (s.bodyMass + s.baseMass))
  have hby := copDyn_is s.period s.period s.nbSamples s.baseHeight s.gy s.gz
    (s.baseMass / (s.bodyMass + s.baseMass))
  unfold CopConstraint.getFunction
  rw [require_pos (by rw [h.bN]; omega), ok_bind, h.same, ok_bind]
  dsimp only
  rw [h.last_copX, h.last_copY, h.pos, h.copX, h.copY, h.lN, h.bm, ok_bind, ok_bind]
  have h0 : (Vec.const c.tmpSize (0 : K)).Is (2 * s.nbSamples) fun _ => 0 := ⟨hc.tmp, fun _ _ => rfl⟩
  obtain ⟨a1, e1, h1⟩ := hx.S.mulVec l.x.is
  obtain ⟨a2, e2, h2⟩ := h1.add hx.C
  obtain ⟨t1, f1, g1⟩ := h0.setSeg h2 (s := 0) (by omega)
  obtain ⟨a3, e3, h3⟩ := hy.S.mulVec l.y.is
  obtain ⟨a4, e4, h4⟩ := h3.add hy.C
  by_cases hm : EPS < s.baseMass
  · obtain ⟨b1, i1, j1⟩ := hbx.S.sub hp.S
    obtain ⟨b2, i2, j2⟩ := j1.mulVec b.x.is
    obtain ⟨b3, i3, j3⟩ := j2.add hbx.C
    obtain ⟨t2, f2, g2⟩ := g1.incSeg j3 (s := 0) (by omega)
    obtain ⟨t3, f3, g3⟩ := g2.setSeg h4 (s := s.nbSamples) (by omega)
    obtain ⟨d1, k1, m1⟩ := hby.S.sub hp.S
    obtain ⟨d2, k2, m2⟩ := m1.mulVec b.y.is
    obtain ⟨d3, k3, m3⟩ := m2.add hby.C
    obtain ⟨t4, f4, g4⟩ := g3.incSeg m3 (s := s.nbSamples) (by omega)
    simp only [e1, e2, f1, e3, e4, if_pos hm, ok_bind, i1, i2, i3, f2, f3, k1, k2, k3, f4]
    refine PolyConstraint.finish_ok hc hx0 (g4.congr fun k hk => ?_)
    rw [← zStack_seg _ _ hk (fun _ => 0)]
    unfold copK
    simp only [if_pos hm]
    split_ifs
    · simp only [sub_mul, sum_sub_distrib]; ring
    · simp only [sub_mul, sum_sub_distrib]; ring
    · rfl
  · obtain ⟨b2, i2, j2⟩ := hp.S.mulVec b.x.is
    obtain ⟨t2, f2, g2⟩ := g1.decSeg j2 (s := 0) (by omega)
    obtain ⟨t3, f3, g3⟩ := g2.setSeg h4 (s := s.nbSamples) (by omega)
    obtain ⟨d2, k2, m2⟩ := hp.S.mulVec b.y.is
    obtain ⟨t4, f4, g4⟩ := g3.decSeg m2 (s := s.nbSamples) (by omega)
    simp only [e1, e2, f1, e3, e4, if_neg hm, ok_bind, i2, f2, f3, k2, f4]
    refine PolyConstraint.finish_ok hc hx0 (g4.congr fun k hk => ?_)
    rw [← zStack_seg _ _ hk (fun _ => 0)]
    unfold copK
    simp only [if_neg hm]
    split_ifs
    · ring
    · ring
    · rfl

/-- Offsets of the CoM relative to the base. -/
def comK (s : Spec.ZebSettings K) (com base : State3 K) (k : ℕ) : K :=
  ∑ i ∈ range 3, posS (Spec.comFirst s.period) s.period k i * com.toVec.get i
    - ∑ i ∈ range 3, posS s.period s.period k i * base.toVec.get i

theorem ComConstraint.getFunction_ok {s : Spec.ZebSettings K} {l : Lip K} {b : Base K} (h : ZModel s l b)
    {c : PolyConstraint K} {p : Vec (Pt K)} {D : ℕ → ℕ → K} (hc : c.Is s.nbSamples p D) {x0 : Vec K}
    (hx0 : x0.size = 4 * s.nbSamples) :
    ∃ f, ComConstraint.getFunction c l b x0 = .ok f ∧ f.Is (p.size * s.nbSamples)
      (polyF s.nbSamples p D (zStack s.nbSamples (comK s l.x b.x) (comK s l.y b.y)) x0.get) := by
  have hd := posDyn_is (Spec.comFirst s.period) s.period s.nbSamples
  have hp := posDyn_is s.period s.period s.nbSamples
  unfold ComConstraint.getFunction
  rw [require_pos (by rw [h.bN]; omega), ok_bind, h.same, ok_bind]
  dsimp only
  rw [h.last_pos, h.pos, h.lN, ok_bind]
  have h0 : (Vec.const c.tmpSize (0 : K)).Is (2 * s.nbSamples) fun _ => 0 := ⟨hc.tmp, fun _ _ => rfl⟩
  obtain ⟨a1, e1, h1⟩ := hd.S.mulVec l.x.is
  obtain ⟨t1, f1, g1⟩ := h0.setSeg h1 (s := 0) (by omega)
  obtain ⟨b2, i2, j2⟩ := hp.S.mulVec b.x.is
  obtain ⟨t2, f2, g2⟩ := g1.decSeg j2 (s := 0) (by omega)
  obtain ⟨a3, e3, h3⟩ := hd.S.mulVec l.y.is
  obtain ⟨t3, f3, g3⟩ := g2.setSeg h3 (s := s.nbSamples) (by omega)
  obtain ⟨d2, k2, m2⟩ := hp.S.mulVec b.y.is
  obtain ⟨t4, f4, g4⟩ := g3.decSeg m2 (s := s.nbSamples) (by omega)
  simp only [e1, f1, e3, ok_bind, i2, f2, f3, k2, f4]
  refine PolyConstraint.finish_ok hc hx0 (g4.congr fun k hk => ?_)
  rw [← zStack_seg _ _ hk (fun _ => 0)]
  unfold comK
  split_ifs <;> rfl

/-! ### Base motion -/

/-- Velocity and acceleration of the base as functions of its `2N` jerks. -/
def motionD (N : ℕ) (u v : ℕ → ℕ → K) (r c : ℕ) : K :=
  if r < 2 * N then blkD N u r c else blkD N v (r - 2 * N) c

theorem motionD_lo {N : ℕ} (u v : ℕ → ℕ → K) {r : ℕ} (h : r < 2 * N) (c : ℕ) :
    motionD N u v r c = blkD N u r c := if_pos h
theorem motionD_hi {N : ℕ} (u v : ℕ → ℕ → K) (r c : ℕ) :
    motionD N u v (2 * N + r) c = blkD N v r c := by
  unfold motionD; rw [if_neg (by omega), Nat.add_sub_cancel_left]

theorem BaseMotion.compute_ok {s : Spec.ZebSettings K} {l : Lip K} {b : Base K} (h : ZModel s l b) :
    ∃ g, BaseMotion.compute b = .ok ⟨g, s.nbSamples⟩ ∧ g.Is (4 * s.nbSamples) (2 * s.nbSamples)
      (motionD s.nbSamples (velU s.period s.period) (accU s.period s.period)) := by
  have hv := velDyn_is s.period s.period s.nbSamples
  have ha := accDyn_is s.period s.period s.nbSamples
  unfold BaseMotion.compute
  rw [h.vel, h.acc, h.bN]
  dsimp only
  generalize s.nbSamples = N at *
  have h0 : (Mat.zero (N * 4) (2 * N)).Is (4 * N) (2 * N) fun _ _ => (0 : K) :=
    ⟨mul_comm _ _, rfl, fun _ _ _ _ => rfl⟩
  obtain ⟨g1, e1, h1⟩ := h0.setBlk hv.U (r := 0) (c := 0) (by omega) (by omega)
  obtain ⟨g2, e2, h2⟩ := h1.setBlk hv.U (r := N) (c := N) (by omega) (by omega)
  obtain ⟨g3, e3, h3⟩ := h2.setBlk ha.U (r := 2 * N) (c := 0) (by omega) (by omega)
  obtain ⟨g4, e4, h4⟩ := h3.setBlk ha.U (r := 3 * N) (c := N) (by omega) (by omega)
  rw [e1, ok_bind, e2, ok_bind, e3, ok_bind, e4, ok_bind]
  refine ⟨g4, rfl, h4.congr ?_⟩
  intro r hr c hc
  obtain ⟨i, hi, hr⟩ := four_cases hr
  obtain ⟨j, hj, hc⟩ := two_cases hc
  obtain ⟨p00, p01, p02, p03, p10, p11, p12, p13, p20, p21, p22, p23, p30, p31, p32, p33⟩ := in_block hi
  obtain ⟨q00, q01, -, -, q10, q11, -⟩ := in_block hj
  have z : ∀ n : ℕ, n - 0 = n := fun n => rfl
  have y1 : N + i - N = i := by omega
  have y2 : 2 * N + i - 2 * N = i := by omega
  have y3 : 3 * N + i - 3 * N = i := by omega
  have y1' : N + j - N = j := by omega
  have m0 : ∀ c, motionD N (velU s.period s.period) (accU s.period s.period) i c
      = blkD N (velU s.period s.period) i c := motionD_lo _ _ (by omega)
  have m1 : ∀ c, motionD N (velU s.period s.period) (accU s.period s.period) (N + i) c
      = blkD N (velU s.period s.period) (N + i) c := motionD_lo _ _ (by omega)
  have m2 : ∀ c, motionD N (velU s.period s.period) (accU s.period s.period) (2 * N + i) c
      = blkD N (accU s.period s.period) i c := motionD_hi _ _ _
  have m3 : ∀ c, motionD N (velU s.period s.period) (accU s.period s.period) (3 * N + i) c
      = blkD N (accU s.period s.period) (N + i) c := by
    intro c; rw [show 3 * N + i = 2 * N + (N + i) by ring]; exact motionD_hi _ _ _ _
  have d00 := fun u : ℕ → ℕ → K => blkD_00 u hi hj
  have d01 := fun u : ℕ → ℕ → K => blkD_01 (i := j) u hi
  have d10 := fun u : ℕ → ℕ → K => blkD_10 (k := i) u hj
  have d11 := fun u : ℕ → ℕ → K => blkD_11 (N := N) (k := i) (i := j) u
  rcases hr with rfl | rfl | rfl | rfl <;> rcases hc with rfl | rfl <;>
    simp only [m0, m1, m2, m3, d00, d01, d10, d11, p00, p01, p02, p03, p10, p11, p12, p13, p20, p21, p22,
      p23, p30, p31, p32, p33, q00, q01, q10, q11, and_true, and_false, if_true, if_false, z, y1, y2, y3,
      y1']

/-- The part of the bounds that does not depend on the limits. -/
def motionK (N : ℕ) (T : K) (bx by_ : State3 K) (r : ℕ) : K :=
  if r < 2 * N then zStack N (fun k => ∑ l ∈ range 3, velS T T k l * bx.toVec.get l)
      (fun k => ∑ l ∈ range 3, velS T T k l * by_.toVec.get l) r
  else zStack N (fun k => ∑ l ∈ range 3, (accS k l : K) * bx.toVec.get l)
      (fun k => ∑ l ∈ range 3, (accS k l : K) * by_.toVec.get l) (r - 2 * N)

theorem BaseMotion.computeFunction_ok {s : Spec.ZebSettings K} {l : Lip K} {b : Base K} (h : ZModel s l b)
    {g : Mat K} {D : ℕ → ℕ → K} (hg : g.Is (4 * s.nbSamples) (2 * s.nbSamples) D) {x0 : Vec K}
    (hx : x0.size = 2 * s.nbSamples) (vl al : K) :
    ∃ f, BaseMotion.computeFunction ⟨g, s.nbSamples⟩ b x0 vl al = .ok f ∧ f.Is (4 * s.nbSamples) fun r =>
      (if r < 2 * s.nbSamples then vl else al) - ∑ c ∈ range (2 * s.nbSamples), D r c * x0.get c
        - motionK s.nbSamples s.period b.x b.y r := by
  have hv := velDyn_is s.period s.period s.nbSamples
  have ha := accDyn_is s.period s.period s.nbSamples
  unfold BaseMotion.computeFunction
  rw [h.vel, h.acc, h.bN]
  dsimp only
  generalize s.nbSamples = N at *
  obtain ⟨v, ev, hvv⟩ := hg.neg.mulVec (x0.is hx)
  have hvl : (Vec.const N vl).Is N fun _ => vl := ⟨rfl, fun _ _ => rfl⟩
  have hal : (Vec.const N al).Is N fun _ => al := ⟨rfl, fun _ _ => rfl⟩
  obtain ⟨u1, k1, m1⟩ := hv.S.mulVec b.x.is
  obtain ⟨u2, k2, m2⟩ := hv.S.mulVec b.y.is
  obtain ⟨u3, k3, m3⟩ := ha.S.mulVec b.x.is
  obtain ⟨u4, k4, m4⟩ := ha.S.mulVec b.y.is
  obtain ⟨f1, e1, h1⟩ := hvv.incSeg hvl (s := 0) (by omega)
  obtain ⟨f2, e2, h2⟩ := h1.decSeg m1 (s := 0) (by omega)
  obtain ⟨f3, e3, h3⟩ := h2.incSeg hvl (s := N) (by omega)
  obtain ⟨f4, e4, h4⟩ := h3.decSeg m2 (s := N) (by omega)
  obtain ⟨f5, e5, h5⟩ := h4.incSeg hal (s := 2 * N) (by omega)
  obtain ⟨f6, e6, h6⟩ := h5.decSeg m3 (s := 2 * N) (by omega)
  obtain ⟨f7, e7, h7⟩ := h6.incSeg hal (s := 3 * N) (by omega)
  obtain ⟨f8, e8, h8⟩ := h7.decSeg m4 (s := 3 * N) (by omega)
  simp only [ev, ok_bind, k1, k2, k3, k4, e1, e2, e3, e4, e5, e6, e7]
  refine ⟨f8, e8, h8.congr ?_⟩
  intro r hr
  obtain ⟨i, hi, hr⟩ := four_cases hr
  obtain ⟨p00, p01, p02, p03, p10, p11, p12, p13, p20, p21, p22, p23, p30, p31, p32, p33⟩ := in_block hi
  have z : ∀ n : ℕ, n - 0 = n := fun n => rfl
  have y1 : N + i - N = i := by omega
  have y2 : 2 * N + i - 2 * N = i := by omega
  have y3 : 3 * N + i - 3 * N = i := by omega
  have y4 : 3 * N + i - 2 * N = N + i := by omega
  have c0 : i < 2 * N := by omega
  have c1 : N + i < 2 * N := by omega
  have c2 : ¬ 2 * N + i < 2 * N := by omega
  have c3 : ¬ 3 * N + i < 2 * N := by omega
  have s0 := fun a b : ℕ → K => zStack_lo a b hi
  have s1 := fun a b : ℕ → K => zStack_hi (N := N) a b i
  unfold motionK
  rcases hr with hr | hr | hr | hr <;> rw [hr] <;>
    simp only [p00, p01, p02, p03, p10, p11, p12, p13, p20, p21, p22, p23, p30, p31, p32, p33, if_true,
      if_false, z, y1, y2, y3, y4, c0, c1, c2, c3, s0, s1, neg_mul, sum_neg_distrib] <;> ring

/-! ### Tilt motion -/

/-- Velocities orthogonal to the heading. -/
def headingD (N : ℕ) (sn cs : K) (u w : ℕ → ℕ → K) (k c : ℕ) : K :=
  if k < N then
    if c < N then sn * u k c else if c < 2 * N then cs * -u k (c - N) else 0
  else if c < 2 * N then 0 else if c < 3 * N then sn * w (k - N) (c - 2 * N)
  else cs * -w (k - N) (c - 3 * N)

theorem TiltMotion.compute_ok {s : Spec.ZebSettings K} {l : Lip K} {b : Base K} (tr : Trig K)
    (h : ZModel s l b) :
    ∃ g, TiltMotion.compute tr l b = .ok g ∧ g.Is (2 * s.nbSamples) (4 * s.nbSamples)
      (headingD s.nbSamples (tr.sin b.yaw.p) (tr.cos b.yaw.p) (velU (Spec.comFirst s.period) s.period)
        (velU s.period s.period)) := by
  have hd := velDyn_is (Spec.comFirst s.period) s.period s.nbSamples
  have hv := velDyn_is s.period s.period s.nbSamples
  unfold TiltMotion.compute
  rw [h.same, ok_bind, h.last_vel, ok_bind, h.vel, h.bN]
  dsimp only
  generalize s.nbSamples = N at *
  generalize tr.sin b.yaw.p = sn
  generalize tr.cos b.yaw.p = cs
  have h0 : (Mat.zero (N * 2) (4 * N)).Is (2 * N) (4 * N) fun _ _ => (0 : K) :=
    ⟨mul_comm _ _, rfl, fun _ _ _ _ => rfl⟩
  obtain ⟨g1, e1, h1⟩ := h0.setBlk (hd.U.smul sn) (r := 0) (c := 0) (by omega) (by omega)
  obtain ⟨g2, e2, h2⟩ := h1.setBlk (hd.U.neg.smul cs) (r := 0) (c := N) (by omega) (by omega)
  obtain ⟨g3, e3, h3⟩ := h2.setBlk (hv.U.smul sn) (r := N) (c := 2 * N) (by omega) (by omega)
  obtain ⟨g4, e4, h4⟩ := h3.setBlk (hv.U.neg.smul cs) (r := N) (c := 3 * N) (by omega) (by omega)
  rw [e1, ok_bind, e2, ok_bind, e3, ok_bind, e4]
  refine ⟨g4, rfl, h4.congr ?_⟩
  intro r hr c hc
  obtain ⟨i, hi, hr⟩ := two_cases hr
  obtain ⟨j, hj, hc⟩ := four_cases hc
  obtain ⟨p00, p01, -, -, p10, p11, -⟩ := in_block hi
  obtain ⟨q00, q01, q02, q03, q10, q11, q12, q13, q20, q21, q22, q23, q30, q31, q32, q33⟩ := in_block hj
  have z : ∀ n : ℕ, n - 0 = n := fun n => rfl
  have y1 : N + i - N = i := by omega
  have y1' : N + j - N = j := by omega
  have y2' : 2 * N + j - 2 * N = j := by omega
  have y3' : 3 * N + j - 3 * N = j := by omega
  have c0 : ¬ N + i < N := by omega
  have d0 : ¬ N + j < N := by omega
  have d1 : N + j < 2 * N := by omega
  have d2 : ¬ 2 * N + j < N := by omega
  have d3 : ¬ 2 * N + j < 2 * N := by omega
  have d4 : 2 * N + j < 3 * N := by omega
  have d5 : ¬ 3 * N + j < N := by omega
  have d6 : ¬ 3 * N + j < 2 * N := by omega
  have d7 : ¬ 3 * N + j < 3 * N := by omega
  have d8 : j < 2 * N := by omega
  unfold headingD
  rcases hr with hr | hr <;> rcases hc with hc | hc | hc | hc <;> rw [hr, hc] <;>
    simp only [p00, p01, p10, p11, q00, q01, q02, q03, q10, q11, q12, q13, q20, q21, q22, q23, q30, q31,
      q32, q33, and_true, and_false, true_and, false_and, if_true, if_false, z, y1, y1', y2', y3', hi, hj,
      c0, d0, d1, d2, d3, d4, d5, d6, d7, d8]

/-- Velocities orthogonal to the heading without jerk. -/
def headingK (s : Spec.ZebSettings K) (sn cs : K) (l : Lip K) (b : Base K) : ℕ → K :=
  zStack s.nbSamples
    (fun k => sn * (∑ i ∈ range 3, velS (Spec.comFirst s.period) s.period k i * l.x.toVec.get i)
      - cs * (∑ i ∈ range 3, velS (Spec.comFirst s.period) s.period k i * l.y.toVec.get i))
    (fun k => sn * (∑ i ∈ range 3, velS s.period s.period k i * b.x.toVec.get i)
      - cs * (∑ i ∈ range 3, velS s.period s.period k i * b.y.toVec.get i))

theorem TiltMotion.getFunction_ok {s : Spec.ZebSettings K} {l : Lip K} {b : Base K} (tr : Trig K)
    (h : ZModel s l b) {g : Mat K} {D : ℕ → ℕ → K} (hg : g.Is (2 * s.nbSamples) (4 * s.nbSamples) D)
    {x0 : Vec K} (hx : x0.size = 4 * s.nbSamples) :
    ∃ f, TiltMotion.getFunction tr g l b x0 = .ok f ∧ f.Is (2 * s.nbSamples) fun k =>
      -∑ c ∈ range (4 * s.nbSamples), D k c * x0.get c
        - headingK s (tr.sin b.yaw.p) (tr.cos b.yaw.p) l b k := by
  have hd := velDyn_is (Spec.comFirst s.period) s.period s.nbSamples
  have hv := velDyn_is s.period s.period s.nbSamples
  unfold TiltMotion.getFunction
  rw [require_pos (by rw [h.bN]; omega), ok_bind, h.same, ok_bind]
  dsimp only
  rw [h.last_vel, ok_bind, h.vel, h.bN]
  obtain ⟨v, ev, hvv⟩ := hg.neg.mulVec (x0.is hx)
  obtain ⟨u1, k1, m1⟩ := hd.S.mulVec l.x.is
  obtain ⟨u2, k2, m2⟩ := hd.S.mulVec l.y.is
  obtain ⟨u3, k3, m3⟩ := hv.S.mulVec b.x.is
  obtain ⟨u4, k4, m4⟩ := hv.S.mulVec b.y.is
  obtain ⟨f1, e1, h1⟩ := hvv.decSeg (m1.smul (tr.sin b.yaw.p)) (s := 0) (by omega)
  obtain ⟨f2, e2, h2⟩ := h1.incSeg (m2.smul (tr.cos b.yaw.p)) (s := 0) (by omega)
  obtain ⟨f3, e3, h3⟩ := h2.decSeg (m3.smul (tr.sin b.yaw.p)) (s := s.nbSamples) (by omega)
  obtain ⟨f4, e4, h4⟩ := h3.incSeg (m4.smul (tr.cos b.yaw.p)) (s := s.nbSamples) (by omega)
  simp only [ev, ok_bind, k1, k2, k3, k4, e1, e2, e3]
  refine ⟨f4, e4, h4.congr ?_⟩
  intro r hr
  obtain ⟨i, hi, hr⟩ := two_cases hr
  obtain ⟨p00, p01, -, -, p10, p11, -⟩ := in_block hi
  have z : ∀ n : ℕ, n - 0 = n := fun n => rfl
  have y1 : s.nbSamples + i - s.nbSamples = i := by omega
  have s0 := fun a b : ℕ → K => zStack_lo a b hi
  have s1 := fun a b : ℕ → K => zStack_hi (N := s.nbSamples) a b i
  unfold headingK
  rcases hr with hr | hr <;> rw [hr] <;>
    simp only [p00, p01, p10, p11, if_true, if_false, z, y1, s0, s1, neg_mul, sum_neg_distrib] <;> ring

end MPC
