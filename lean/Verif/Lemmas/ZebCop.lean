import Verif.Lemmas.ZebObj

/-! # CoP centering and jerk minimisation of `ZebulonWalkgen` -/

set_option linter.unusedSectionVars false
set_option linter.unusedSimpArgs false

namespace MPC

open Finset

variable {K : Type} [Field K] [LinearOrder K] [IsStrictOrderedRing K] [FloorRing K]

/-- CoM part of the CoP matrix. -/
def copC (s : Spec.ZebSettings K) : ℕ → ℕ → K :=
  copU (Spec.comFirst s.period) s.period s.bodyHeight s.gz (s.bodyMass / (s.bodyMass + s.baseMass))

/-- Base part of the matrix of the CoP relative to the base. -/
def copB (s : Spec.ZebSettings K) (i j : ℕ) : K :=
  (if EPS < s.baseMass then
    copU s.period s.period s.baseHeight s.gz (s.baseMass / (s.bodyMass + s.baseMass)) i j else 0)
  - posU s.period s.period i j

/-- Part of the CoP relative to the base that does not depend on the jerks. -/
def copK (s : Spec.ZebSettings K) (g : K) (com base : State3 K) (k : ℕ) : K :=
  (∑ i ∈ range 3, copS (Spec.comFirst s.period) s.period s.bodyHeight s.gz
      (s.bodyMass / (s.bodyMass + s.baseMass)) k i * com.toVec.get i
    + - (s.bodyMass / (s.bodyMass + s.baseMass)) * s.bodyHeight * g / s.gz)
  + ((if EPS < s.baseMass then
      ∑ i ∈ range 3, copS s.period s.period s.baseHeight s.gz
        (s.baseMass / (s.bodyMass + s.baseMass)) k i * base.toVec.get i
      + - (s.baseMass / (s.bodyMass + s.baseMass)) * s.baseHeight * g / s.gz else 0)
    - ∑ i ∈ range 3, posS s.period s.period k i * base.toVec.get i)

theorem CopCentering.compute_ok {s : Spec.ZebSettings K} {l : Lip K} {b : Base K} (h : ZModel s l b)
    (c : CopCentering K) :
    ∃ H, c.compute l b = .ok { c with hessian := H, cgSize := 2 * s.nbSamples } ∧
      H.Is (4 * s.nbSamples) (4 * s.nbSamples)
        (gram (2 * s.nbSamples) (coupledD s.nbSamples (copC s) (copC s) (copB s) (copB s))) := by
  have hx := copDyn_is (Spec.comFirst s.period) s.period s.nbSamples s.bodyHeight s.gx s.gz
    (s.bodyMass / (s.bodyMass + s.baseMass))
  have hy := copDyn_is (Spec.comFirst s.period) s.period s.nbSamples s.bodyHeight s.gy s.gz
    (s.bodyMass / (s.bodyMass + s.baseMass))
  have hp := posDyn_is s.period s.period s.nbSamples
  have hbx := copDyn_is s.period s.period s.nbSamples s.baseHeight s.gx s.gz
    (s.baseMass / (s.bodyMass + s.baseMass))
  have hby := copDyn_is s.period s.period s.nbSamples s.baseHeight s.gy s.gz
    (s.baseMass / (s.bodyMass + s.baseMass))
  unfold CopCentering.compute
  rw [h.same, ok_bind, h.last_copX, ok_bind, h.last_copY, ok_bind, h.pos, h.copX, h.copY, h.lN, h.bm]
  dsimp only
  obtain ⟨A, eA, hA⟩ := hx.UT.mul hx.U
  obtain ⟨A', eA', hA'⟩ := hy.UT.mul hy.U
  by_cases hm : EPS < s.baseMass
  · rw [if_pos hm, eA, eA']
    have eB : copB s = fun i j => copU s.period s.period s.baseHeight s.gz
        (s.baseMass / (s.bodyMass + s.baseMass)) i j - posU s.period s.period i j := by
      funext i j; unfold copB; rw [if_pos hm]
    obtain ⟨D, eD, hD⟩ := hbx.U.sub hp.U
    obtain ⟨D', eD', hD'⟩ := hby.U.sub hp.U
    obtain ⟨E, eE, hE⟩ := hbx.UT.sub hp.UT
    obtain ⟨E', eE', hE'⟩ := hby.UT.sub hp.UT
    obtain ⟨m1, e1, h1⟩ := hE.mul hD
    obtain ⟨m2, e2, h2⟩ := hE'.mul hD'
    obtain ⟨m3, e3, h3⟩ := hE.mul hx.U
    obtain ⟨m4, e4, h4⟩ := hE'.mul hy.U
    obtain ⟨m5, e5, h5⟩ := hx.UT.mul hD
    obtain ⟨m6, e6, h6⟩ := hy.UT.mul hD'
    simp only [eD, eD', eE, eE', ok_bind, e1, e2, e3, e4, e5, e6]
    rw [eB]
    obtain ⟨H, eH, hH⟩ := hessian8_ok (N := s.nbSamples) (C0 := copC s) (C1 := copC s) hA hA' h1 h2 h3 h4 h5 h6
    rw [eH]
    exact ⟨H, rfl, hH⟩
  · rw [if_neg hm, eA, eA']
    have eB : copB s = fun i j => - posU s.period s.period i j := by
      funext i j; unfold copB; rw [if_neg hm, zero_sub]
    obtain ⟨m1, e1, h1⟩ := hp.UT.mul hp.U
    obtain ⟨m3, e3, h3⟩ := hp.UT.neg.mul hx.U
    obtain ⟨m4, e4, h4⟩ := hp.UT.neg.mul hy.U
    obtain ⟨m5, e5, h5⟩ := hx.UT.neg.mul hp.U
    obtain ⟨m6, e6, h6⟩ := hy.UT.neg.mul hp.U
    simp only [ok_bind, e1, e3, e4, e5, e6]
    rw [eB]
    have h1' := h1.congr (g := cross s.nbSamples (fun i j => -posU s.period s.period i j)
      (fun i j => -posU s.period s.period i j)) fun i _ j _ => sum_congr rfl fun k _ => by ring
    have h5' := h5.congr (g := cross s.nbSamples (copC s)
      (fun i j => -posU s.period s.period i j)) fun i _ j _ => sum_congr rfl fun k _ => by
        unfold copC; ring
    have h6' := h6.congr (g := cross s.nbSamples (copC s)
      (fun i j => -posU s.period s.period i j)) fun i _ j _ => sum_congr rfl fun k _ => by
        unfold copC; ring
    obtain ⟨H, eH, hH⟩ := hessian8_ok (N := s.nbSamples) (C0 := copC s) (C1 := copC s) hA hA' h1' h1' h3 h4
      h5' h6'
    rw [eH]
    exact ⟨H, rfl, hH⟩

/-- Offsets of the CoP centering residuals. -/
def copOff (s : Spec.ZebSettings K) (l : Lip K) (b : Base K) (ref : Vec K) : ℕ → K :=
  zStack s.nbSamples (fun k => copK s s.gx l.x b.x k - ref.get k)
    (fun k => copK s s.gy l.y b.y k - ref.get (s.nbSamples + k))

theorem CopCentering.getGradient_ok {s : Spec.ZebSettings K} {l : Lip K} {b : Base K} {c : CopCentering K}
    {x0 : Vec K} (h : ZModel s l b) (hH' : c.hessian.Is (4 * s.nbSamples) (4 * s.nbSamples)
        (gram (2 * s.nbSamples) (coupledD s.nbSamples (copC s) (copC s) (copB s) (copB s))))
    (hr : c.ref.size = 2 * s.nbSamples) (hx0 : x0.size = 4 * s.nbSamples) :
    ∃ G, c.getGradient l b x0 = .ok G ∧ G.Is (4 * s.nbSamples)
      (LsqGrad (2 * s.nbSamples) (4 * s.nbSamples)
        (coupledD s.nbSamples (copC s) (copC s) (copB s) (copB s)) (copOff s l b c.ref) x0.get) := by
  have hx := copDyn_is (Spec.comFirst s.period) s.period s.nbSamples s.bodyHeight s.gx s.gz
    (s.bodyMass / (s.bodyMass + s.baseMass))
  have hy := copDyn_is (Spec.comFirst s.period) s.period s.nbSamples s.bodyHeight s.gy s.gz
    (s.bodyMass / (s.bodyMass + s.baseMass))
  have hp := posDyn_is s.period s.period s.nbSamples
  have hbx := copDyn_is s.period s.period s.nbSamples s.baseHeight s.gx s.gz
    (s.baseMass / (s.bodyMass + s.baseMass))
  have hby := copDyn_is s.period s.period s.nbSamples s.baseHeight s.gy s.gz
    (s.baseMass / (s.bodyMass + s.baseMass))
  unfold CopCentering.getGradient
  rw [require_pos (by omega), ok_bind, require_pos (by rw [h.bN]; omega), ok_bind, h.same, ok_bind]
  dsimp only
  rw [ok_bind, h.last_copX, h.last_copY, h.pos, h.copX, h.copY, h.lN, h.bm]
  obtain ⟨g, eg, hg⟩ := hH'.mulVec (x0.is hx0)
  obtain ⟨rx, erx, hrx⟩ := (c.ref.is hr).segment (s := 0) (n := s.nbSamples) (by omega)
  obtain ⟨ry, ery, hry⟩ := (c.ref.is hr).segment (s := s.nbSamples) (n := s.nbSamples) (by omega)
  rw [eg, ok_bind, ok_bind, ok_bind, erx, ok_bind, ery, ok_bind]
  have fin : ∀ {v0 v1 v2 v3 : Vec K},
      (v0.Is s.nbSamples fun i => ∑ k ∈ range s.nbSamples, copC s k i * (copK s s.gx l.x b.x k - c.ref.get k)) →
      (v1.Is s.nbSamples fun i => ∑ k ∈ range s.nbSamples,
        copC s k i * (copK s s.gy l.y b.y k - c.ref.get (s.nbSamples + k))) →
      (v2.Is s.nbSamples fun i => ∑ k ∈ range s.nbSamples, copB s k i * (copK s s.gx l.x b.x k - c.ref.get k)) →
      (v3.Is s.nbSamples fun i => ∑ k ∈ range s.nbSamples,
        copB s k i * (copK s s.gy l.y b.y k - c.ref.get (s.nbSamples + k))) →
      ∃ G, gradient4 s.nbSamples g (.ok v0) (.ok v1) (.ok v2) (.ok v3) = .ok G ∧ G.Is (4 * s.nbSamples)
        (LsqGrad (2 * s.nbSamples) (4 * s.nbSamples)
        (coupledD s.nbSamples (copC s) (copC s) (copB s) (copB s)) (copOff s l b c.ref) x0.get) := by
    intro v0 v1 v2 v3 h0 h1 h2 h3
    obtain ⟨G, eG, hG⟩ := gradient4_ok (copC s) (copC s) (copB s) (copB s) hg.1 h0 h1 h2 h3
    exact ⟨G, eG, hG.congr fun r hr => by rw [hg.2 r hr]; rfl⟩
  by_cases hm : EPS < s.baseMass
  · rw [if_pos hm]
    have key : ∀ {rv : Vec K} {f : ℕ → K} (gr : K) (com base : State3 K), rv.Is s.nbSamples f →
        ∃ o, copOffset true rv (copDyn (Spec.comFirst s.period) s.period s.nbSamples s.bodyHeight gr s.gz
          (s.bodyMass / (s.bodyMass + s.baseMass))) (copDyn s.period s.period s.nbSamples s.baseHeight gr s.gz
          (s.baseMass / (s.bodyMass + s.baseMass))) (posDyn s.period s.period s.nbSamples) com base = .ok o ∧
          o.Is s.nbSamples fun k => copK s gr com base k - f k := by
      intro rv f gr com base hf
      have hc := copDyn_is (Spec.comFirst s.period) s.period s.nbSamples s.bodyHeight gr s.gz
        (s.bodyMass / (s.bodyMass + s.baseMass))
      have hb := copDyn_is s.period s.period s.nbSamples s.baseHeight gr s.gz
        (s.baseMass / (s.bodyMass + s.baseMass))
      obtain ⟨a1, e1, h1⟩ := hc.S.mulVec com.is
      obtain ⟨a2, e2, h2⟩ := h1.add hc.C
      obtain ⟨a3, e3, h3⟩ := hf.neg.add h2
      obtain ⟨a4, e4, h4⟩ := hb.S.sub hp.S
      obtain ⟨a5, e5, h5⟩ := h4.mulVec base.is
      obtain ⟨a6, e6, h6⟩ := h5.add hb.C
      obtain ⟨a7, e7, h7⟩ := h3.add h6
      refine ⟨a7, ?_, h7.congr fun k _ => ?_⟩
      · unfold copOffset
        simp only [e1, e2, e3, ok_bind, e4, e5, e6, e7, if_true]
      · unfold copK
        rw [if_pos hm]
        simp only [sub_mul, sum_sub_distrib]
        ring
    obtain ⟨kx, ekx, hkx⟩ := key s.gx l.x b.x hrx
    obtain ⟨ky, eky, hky⟩ := key s.gy l.y b.y hry
    obtain ⟨E, eE, hE⟩ := hbx.UT.sub hp.UT
    obtain ⟨E', eE', hE'⟩ := hby.UT.sub hp.UT
    obtain ⟨v0, ev0, hv0⟩ := hx.UT.mulVec hkx
    obtain ⟨v1, ev1, hv1⟩ := hy.UT.mulVec hky
    obtain ⟨v2, ev2, hv2⟩ := hE.mulVec hkx
    obtain ⟨v3, ev3, hv3⟩ := hE'.mulVec hky
    simp only [ekx, eky, eE, eE', ok_bind, ev0, ev1, ev2, ev3]
    have eB : ∀ i j, copU s.period s.period s.baseHeight s.gz
        (s.baseMass / (s.bodyMass + s.baseMass)) i j - posU s.period s.period i j = copB s i j := by
      intro i j; unfold copB; rw [if_pos hm]
    exact fin (hv0.congr fun i _ => by simp only [zero_add]; rfl) hv1
      (hv2.congr fun i _ => by simp only [zero_add, eB]) (hv3.congr fun i _ => by simp only [eB])
  · rw [if_neg hm]
    have key : ∀ {rv : Vec K} {f : ℕ → K} (gr : K) (com base : State3 K) (bd : LinearDynamic K),
        rv.Is s.nbSamples f →
        (∃ o, copOffset false rv (copDyn (Spec.comFirst s.period) s.period s.nbSamples s.bodyHeight gr s.gz
          (s.bodyMass / (s.bodyMass + s.baseMass))) bd (posDyn s.period s.period s.nbSamples) com base = .ok o ∧
          o.Is s.nbSamples fun k => copK s gr com base k - f k) ∧
        (∃ o, copOffsetNeg rv (copDyn (Spec.comFirst s.period) s.period s.nbSamples s.bodyHeight gr s.gz
          (s.bodyMass / (s.bodyMass + s.baseMass))) (posDyn s.period s.period s.nbSamples) com base = .ok o ∧
          o.Is s.nbSamples fun k => -(copK s gr com base k - f k)) := by
      intro rv f gr com base bd hf
      have hc := copDyn_is (Spec.comFirst s.period) s.period s.nbSamples s.bodyHeight gr s.gz
        (s.bodyMass / (s.bodyMass + s.baseMass))
      obtain ⟨a1, e1, h1⟩ := hc.S.mulVec com.is
      obtain ⟨a2, e2, h2⟩ := h1.add hc.C
      obtain ⟨a3, e3, h3⟩ := hf.neg.add h2
      obtain ⟨a5, e5, h5⟩ := hp.S.mulVec base.is
      obtain ⟨a7, e7, h7⟩ := h3.sub h5
      obtain ⟨b3, e3', h3'⟩ := hf.sub h2
      obtain ⟨b7, e7', h7'⟩ := h3'.add h5
      refine ⟨⟨a7, ?_, h7.congr fun k _ => ?_⟩, ⟨b7, ?_, h7'.congr fun k _ => ?_⟩⟩
      · unfold copOffset
        simp only [e1, e2, e3, ok_bind, e5, e7, Bool.false_eq_true, if_false]
      · unfold copK
        rw [if_neg hm]
        ring
      · unfold copOffsetNeg
        simp only [e1, e2, e3', ok_bind, e5, e7']
      · unfold copK
        rw [if_neg hm]
        ring
    obtain ⟨⟨kx, ekx, hkx⟩, ⟨nx, enx, hnx⟩⟩ := key s.gx l.x b.x (copDyn s.period s.period s.nbSamples
      s.baseHeight s.gx s.gz (s.baseMass / (s.bodyMass + s.baseMass))) hrx
    obtain ⟨⟨ky, eky, hky⟩, ⟨ny, eny, hny⟩⟩ := key s.gy l.y b.y (copDyn s.period s.period s.nbSamples
      s.baseHeight s.gy s.gz (s.baseMass / (s.bodyMass + s.baseMass))) hry
    obtain ⟨v0, ev0, hv0⟩ := hx.UT.mulVec hkx
    obtain ⟨v1, ev1, hv1⟩ := hy.UT.mulVec hky
    obtain ⟨v2, ev2, hv2⟩ := hp.UT.mulVec hnx
    obtain ⟨v3, ev3, hv3⟩ := hp.UT.mulVec hny
    simp only [ekx, eky, enx, eny, ok_bind, ev0, ev1, ev2, ev3]
    have eB : ∀ i j, copB s i j = - posU s.period s.period i j := by
      intro i j; unfold copB; rw [if_neg hm, zero_sub]
    exact fin (hv0.congr fun i _ => by simp only [zero_add]; rfl) hv1
      (hv2.congr fun i _ => by simp only [zero_add, eB, neg_mul, mul_neg])
      (hv3.congr fun i _ => by simp only [eB, neg_mul, mul_neg])

/-! ### Jerk minimisation -/

theorem zJerkCompute_ok {s : Spec.ZebSettings K} {l : Lip K} {b : Base K} (h : ZModel s l b) :
    zJerkCompute l b = .ok (Mat.one (4 * s.nbSamples)) := by
  unfold zJerkCompute
  rw [h.same, ok_bind, h.bN, mul_comm]; rfl

theorem zJerkGradient_ok {s : Spec.ZebSettings K} {l : Lip K} {b : Base K} {x0 : Vec K} (h : ZModel s l b)
    (hx : x0.size = 4 * s.nbSamples) : zJerkGradient l b x0 = .ok x0 := by
  unfold zJerkGradient
  rw [require_pos (by rw [h.bN]; omega), ok_bind, require_pos (h.bN.trans h.lN.symm), ok_bind]; rfl

/-- The identity is the Gram matrix of the identity. -/
theorem gram_one (n : ℕ) {i j : ℕ} (hi : i < n) :
    gram n (fun k c => if k = c then (1 : K) else 0) i j = if i = j then 1 else 0 := by
  unfold gram
  rw [sum_eq_single_of_mem i (mem_range.2 hi) (fun k _ hk => by dsimp only; rw [if_neg hk, zero_mul])]
  simp

end MPC
