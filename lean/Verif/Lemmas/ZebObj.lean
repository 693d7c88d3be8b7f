import Verif.Lemmas.ZebOps

/-! # Hessians and gradients of the objectives of `ZebulonWalkgen` -/

set_option linter.unusedSectionVars false
set_option linter.unusedSimpArgs false

namespace MPC

open Finset

variable {K : Type} [Field K] [LinearOrder K] [IsStrictOrderedRing K] [FloorRing K]

/-! ### Objectives on the base only -/

/-- `2N` residuals on the `2N` unknowns of the base. -/
def blkD (N : ℕ) (u : ℕ → ℕ → K) (k c : ℕ) : K :=
  if k < N then if c < N then u k c else 0 else if c < N then 0 else u (k - N) (c - N)

section
variable {N : ℕ} (u : ℕ → ℕ → K) {k i : ℕ}
theorem blkD_00 (hk : k < N) (hi : i < N) : blkD N u k i = u k i := by
  unfold blkD; rw [if_pos hk, if_pos hi]
theorem blkD_01 (hk : k < N) : blkD N u k (N + i) = 0 := by
  unfold blkD; rw [if_pos hk, if_neg (by omega)]
theorem blkD_10 (hi : i < N) : blkD N u (N + k) i = 0 := by
  unfold blkD; rw [if_neg (by omega), if_pos hi]
theorem blkD_11 : blkD N u (N + k) (N + i) = u k i := by
  unfold blkD; rw [if_neg (by omega), if_neg (by omega), Nat.add_sub_cancel_left, Nat.add_sub_cancel_left]

theorem blkD_row_x (X : ℕ → K) (hk : k < N) :
    ∑ c ∈ range (2 * N), blkD N u k c * X c = ∑ i ∈ range N, u k i * X i := by
  rw [sum_range_two]
  refine (congrArg₂ (· + ·) (sum_congr rfl fun i hi => ?_) (sum_eq_zero fun i _ => ?_)).trans (add_zero _)
  · rw [blkD_00 _ hk (mem_range.1 hi)]
  · rw [blkD_01 _ hk, zero_mul]

theorem blkD_row_y (X : ℕ → K) :
    ∑ c ∈ range (2 * N), blkD N u (N + k) c * X c = ∑ i ∈ range N, u k i * X (N + i) := by
  rw [sum_range_two]
  refine (congrArg₂ (· + ·) (sum_eq_zero fun i hi => ?_) (sum_congr rfl fun i _ => ?_)).trans (zero_add _)
  · rw [blkD_10 _ (mem_range.1 hi), zero_mul]
  · rw [blkD_11]

theorem blkD_col (a b : ℕ → K) (hi : i < N) :
    (∑ k ∈ range (2 * N), blkD N u k i * zStack N a b k = ∑ k ∈ range N, u k i * a k) ∧
    (∑ k ∈ range (2 * N), blkD N u k (N + i) * zStack N a b k = ∑ k ∈ range N, u k i * b k) := by
  simp only [sum_range_two]
  constructor
  · refine (congrArg₂ (· + ·) (sum_congr rfl fun k hk => ?_) (sum_eq_zero fun k _ => ?_)).trans (add_zero _)
    · rw [blkD_00 _ (mem_range.1 hk) hi, zStack_lo _ _ (mem_range.1 hk)]
    · rw [blkD_10 _ hi, zero_mul]
  · refine (congrArg₂ (· + ·) (sum_eq_zero fun k hk => ?_) (sum_congr rfl fun k _ => ?_)).trans (zero_add _)
    · rw [blkD_01 _ (mem_range.1 hk), zero_mul]
    · rw [blkD_11, zStack_hi]

theorem blkD_gram {i j : ℕ} (hi : i < N) (hj : j < N) :
    gram (2 * N) (blkD N u) i j = cross N u u i j ∧ gram (2 * N) (blkD N u) i (N + j) = 0 ∧
    gram (2 * N) (blkD N u) (N + i) j = 0 ∧ gram (2 * N) (blkD N u) (N + i) (N + j) = cross N u u i j := by
  simp only [gram, sum_range_two]
  have m : ∀ {k}, k ∈ range N → k < N := fun h => mem_range.1 h
  refine ⟨?_, ?_, ?_, ?_⟩
  · refine (congrArg₂ (· + ·) (sum_congr rfl fun k hk => ?_) (sum_eq_zero fun k _ => ?_)).trans (add_zero _)
    · rw [blkD_00 _ (m hk) hi, blkD_00 _ (m hk) hj]
    · rw [blkD_10 _ hi, zero_mul]
  · refine (congrArg₂ (· + ·) (sum_eq_zero fun k hk => ?_) (sum_eq_zero fun k _ => ?_)).trans (add_zero _)
    · rw [blkD_01 _ (m hk), mul_zero]
    · rw [blkD_10 _ hi, zero_mul]
  · refine (congrArg₂ (· + ·) (sum_eq_zero fun k hk => ?_) (sum_eq_zero fun k _ => ?_)).trans (add_zero _)
    · rw [blkD_01 _ (m hk), zero_mul]
    · rw [blkD_10 _ hj, mul_zero]
  · refine (congrArg₂ (· + ·) (sum_eq_zero fun k hk => ?_) (sum_congr rfl fun k _ => ?_)).trans (zero_add _)
    · rw [blkD_01 _ (m hk), zero_mul]
    · rw [blkD_11, blkD_11]
end

/-- What is used of a dynamic: its matrices. -/
structure LinearDynamic.Is (d : LinearDynamic K) (N : ℕ) (u sm : ℕ → ℕ → K) (c : ℕ → K) : Prop where
  U : d.U.Is N N u
  UT : d.UT.Is N N fun i j => u j i
  S : d.S.Is N 3 sm
  C : d.C.Is N c

theorem posDyn_is (S T : K) (N : ℕ) : (posDyn S T N).Is N (posU S T) (posS S T) fun _ => 0 :=
  ⟨.of _ _ _, (Mat.Is.of _ _ _).transpose, .of _ _ _, .of _ _⟩
theorem velDyn_is (S T : K) (N : ℕ) : (velDyn S T N).Is N (velU S T) (velS S T) fun _ => 0 :=
  ⟨.of _ _ _, (Mat.Is.of _ _ _).transpose, .of _ _ _, .of _ _⟩
theorem accDyn_is (S T : K) (N : ℕ) : (accDyn S T N).Is N (accU S T) accS fun _ => 0 :=
  ⟨.of _ _ _, (Mat.Is.of _ _ _).transpose, .of _ _ _, .of _ _⟩
theorem copDyn_is (S T : K) (N : ℕ) (h gx gz m : K) :
    (copDyn S T N h gx gz m).Is N (copU S T h gz m) (copS S T h gz m) fun _ => - m * h * gx / gz :=
  ⟨.of _ _ _, (Mat.Is.of _ _ _).transpose, .of _ _ _, .of _ _⟩

theorem ZTrack.compute_ok {b : Base K} {dyn : LinearDynamic K} {u sm : ℕ → ℕ → K} {c : ℕ → K}
    (hd : dyn.Is b.N u sm c) :
    ∃ H, ZTrack.compute b dyn = .ok H ∧ H.Is (2 * b.N) (2 * b.N) (gram (2 * b.N) (blkD b.N u)) := by
  obtain ⟨P, eP, hP⟩ := hd.UT.mul hd.U
  unfold ZTrack.compute
  simp only [eP, ok_bind]
  generalize b.N = N at *
  obtain ⟨A1, e1, h1⟩ := (Mat.Is.of (2 * N) (2 * N) (fun _ _ => (0 : K))).setBlk hP (r := 0) (c := 0)
    (by omega) (by omega)
  obtain ⟨A2, e2, h2⟩ := h1.setBlk hP (r := N) (c := N) (by omega) (by omega)
  obtain ⟨A3, e3, h3⟩ := h2.setBlk (Mat.Is.of N N (fun _ _ => (0 : K))) (r := 0) (c := N) (by omega) (by omega)
  obtain ⟨A4, e4, h4⟩ := h3.setBlk (Mat.Is.of N N (fun _ _ => (0 : K))) (r := N) (c := 0) (by omega) (by omega)
  refine ⟨A4, ?_, h4.congr ?_⟩
  · unfold Mat.zero; rw [e1, ok_bind, e2, ok_bind, e3, ok_bind, e4]
  · intro r hr q hq
    obtain ⟨i, hi, hr⟩ := two_cases hr
    obtain ⟨j, hj, hq⟩ := two_cases hq
    obtain ⟨g0, g1, g2, g3⟩ := blkD_gram u hi hj
    obtain ⟨p00, p01, -, -, p10, p11, -⟩ := in_block hi
    obtain ⟨q00, q01, -, -, q10, q11, -⟩ := in_block hj
    have y1 : N + i - N = i := by omega
    have y1' : N + j - N = j := by omega
    rcases hr with rfl | rfl <;> rcases hq with rfl | rfl <;>
      simp only [g0, g1, g2, g3, p00, p01, p10, p11, q00, q01, q10, q11, and_true, and_false, true_and,
        false_and, if_true, if_false, y1, y1', cross, Nat.sub_zero]

/-- Offsets of the tracking residuals. -/
def trackOff (N : ℕ) (sm : ℕ → ℕ → K) (bx by_ : State3 K) (ref : Vec K) : ℕ → K :=
  zStack N (fun k => ∑ l ∈ range 3, sm k l * bx.toVec.get l - ref.get k)
    (fun k => ∑ l ∈ range 3, sm k l * by_.toVec.get l - ref.get (N + k))

theorem ZTrack.getGradient_ok {t : ZTrack K} {b : Base K} {dyn : LinearDynamic K} {u sm : ℕ → ℕ → K}
    {c : ℕ → K} {x0 : Vec K} (hd : dyn.Is b.N u sm c)
    (hH : t.hessian.Is (2 * b.N) (2 * b.N) (gram (2 * b.N) (blkD b.N u)))
    (hr : t.ref.size = 2 * b.N) (hx : x0.size = 2 * b.N) :
    ∃ G, t.getGradient b dyn x0 = .ok G ∧
      G.Is (2 * b.N) (LsqGrad (2 * b.N) (2 * b.N) (blkD b.N u) (trackOff b.N sm b.x b.y t.ref) x0.get) := by
  unfold ZTrack.getGradient
  rw [require_pos (hr.trans hx.symm), ok_bind, require_pos (by omega), ok_bind]
  dsimp only
  generalize b.N = N at *
  obtain ⟨g, eg, hg⟩ := hH.mulVec (x0.is hx)
  obtain ⟨a, ea, ha⟩ := hd.S.mulVec b.x.is
  obtain ⟨ra, era, hra⟩ := (t.ref.is hr).segment (s := 0) (n := N) (by omega)
  obtain ⟨da, eda, hda⟩ := ha.sub hra
  obtain ⟨va, eva, hva⟩ := hd.UT.mulVec hda
  obtain ⟨g1, eg1, hg1⟩ := hg.incSeg hva (s := 0) (by omega)
  obtain ⟨b', eb, hb⟩ := hd.S.mulVec b.y.is
  obtain ⟨rb, erb, hrb⟩ := (t.ref.is hr).segment (s := N) (n := N) (by omega)
  obtain ⟨db, edb, hdb⟩ := hb.sub hrb
  obtain ⟨vb, evb, hvb⟩ := hd.UT.mulVec hdb
  obtain ⟨g2, eg2, hg2⟩ := hg1.incSeg hvb (s := N) (by omega)
  refine ⟨g2, ?_, hg2.congr ?_⟩
  · simp only [eg, ea, era, eda, eva, eg1, eb, erb, edb, evb, ok_bind]
    rw [eg2]
  · intro r hr
    obtain ⟨i, hi, hr⟩ := two_cases hr
    obtain ⟨d0, d1⟩ := blkD_col u (fun k => ∑ l ∈ range 3, sm k l * b.x.toVec.get l - t.ref.get k)
      (fun k => ∑ l ∈ range 3, sm k l * b.y.toVec.get l - t.ref.get (N + k)) hi
    obtain ⟨p00, p01, -, -, p10, p11, -⟩ := in_block hi
    have y1 : N + i - N = i := by omega
    have z : ∀ n : ℕ, n - 0 = n := fun n => rfl
    unfold LsqGrad trackOff
    rcases hr with rfl | rfl <;>
      simp only [d0, d1, p00, p01, p10, p11, if_true, if_false, y1, z] <;> simp only [zero_add]

/-! ### CoM centering -/

theorem ComCentering.compute_ok {s : Spec.ZebSettings K} {l : Lip K} {b : Base K} (h : ZModel s l b) :
    ∃ H, ComCentering.compute l b = .ok H ∧ H.Is (4 * s.nbSamples) (4 * s.nbSamples)
      (gram (2 * s.nbSamples) (coupledD s.nbSamples (posU (Spec.comFirst s.period) s.period)
        (posU (Spec.comFirst s.period) s.period) (fun i j => -posU s.period s.period i j)
        (fun i j => -posU s.period s.period i j))) := by
  have hc := posDyn_is (Spec.comFirst s.period) s.period s.nbSamples
  have hp := posDyn_is s.period s.period s.nbSamples
  unfold ComCentering.compute
  rw [h.same, ok_bind, h.last_pos, ok_bind, h.pos, h.lN]
  dsimp only
  obtain ⟨A, eA, hA⟩ := hc.UT.mul hc.U
  obtain ⟨B, eB, hB⟩ := hp.UT.mul hp.U
  obtain ⟨C, eC, hC⟩ := hp.UT.neg.mul hc.U
  obtain ⟨D, eD, hD⟩ := hc.UT.neg.mul hp.U
  rw [eA, eB, eC, eD]
  have hB' := hB.congr (g := cross s.nbSamples (fun i j => -posU s.period s.period i j)
    (fun i j => -posU s.period s.period i j)) fun i _ j _ => sum_congr rfl fun k _ => by ring
  have hD' := hD.congr (g := cross s.nbSamples (posU (Spec.comFirst s.period) s.period)
    (fun i j => -posU s.period s.period i j)) fun i _ j _ => sum_congr rfl fun k _ => by ring
  exact hessian8_ok hA hA hB' hB' hC hC hD' hD'

/-- Offsets of the CoM centering residuals. -/
def comOff (s : Spec.ZebSettings K) (l : Lip K) (b : Base K) (shift : Vec K) : ℕ → K :=
  zStack s.nbSamples
    (fun k => -shift.get k + ∑ i ∈ range 3, posS (Spec.comFirst s.period) s.period k i * l.x.toVec.get i
      - ∑ i ∈ range 3, posS s.period s.period k i * b.x.toVec.get i)
    (fun k => -shift.get (s.nbSamples + k)
      + ∑ i ∈ range 3, posS (Spec.comFirst s.period) s.period k i * l.y.toVec.get i
      - ∑ i ∈ range 3, posS s.period s.period k i * b.y.toVec.get i)

theorem ComCentering.getGradient_ok {s : Spec.ZebSettings K} {l : Lip K} {b : Base K} {c : ComCentering K}
    {x0 : Vec K} (h : ZModel s l b) (hH' : c.hessian.Is (4 * s.nbSamples) (4 * s.nbSamples)
      (gram (2 * s.nbSamples) (coupledD s.nbSamples (posU (Spec.comFirst s.period) s.period)
        (posU (Spec.comFirst s.period) s.period) (fun i j => -posU s.period s.period i j)
        (fun i j => -posU s.period s.period i j))))
    (hr : c.ref.size = 2 * s.nbSamples) (hsh : c.shift.size = 2 * s.nbSamples)
    (hgs : c.gravityShift.size = 2 * s.nbSamples) (hx : x0.size = 4 * s.nbSamples) :
    ∃ G, c.getGradient l b x0 = .ok G ∧ G.Is (4 * s.nbSamples)
      (LsqGrad (2 * s.nbSamples) (4 * s.nbSamples) (coupledD s.nbSamples
        (posU (Spec.comFirst s.period) s.period) (posU (Spec.comFirst s.period) s.period)
        (fun i j => -posU s.period s.period i j) (fun i j => -posU s.period s.period i j))
        (comOff s l b c.shift) x0.get) := by
  have hc := posDyn_is (Spec.comFirst s.period) s.period s.nbSamples
  have hp := posDyn_is s.period s.period s.nbSamples
  unfold ComCentering.getGradient
  rw [require_pos (hsh.trans hr.symm), ok_bind, require_pos (hsh.trans hgs.symm), ok_bind,
    require_pos (by omega), ok_bind, require_pos (by rw [h.bN]; omega), ok_bind, h.same, ok_bind,
    h.last_pos, ok_bind, h.pos, h.lN]
  dsimp only
  rw [ok_bind]
  generalize hN : s.nbSamples = N at *
  obtain ⟨g, eg, hg⟩ := hH'.mulVec (x0.is hx)
  obtain ⟨sx, esx, hsx⟩ := (c.shift.is hsh).segment (s := 0) (n := N) (by omega)
  obtain ⟨sy, esy, hsy⟩ := (c.shift.is hsh).segment (s := N) (n := N) (by omega)
  rw [eg, ok_bind, esx, ok_bind, esy, ok_bind]
  have key : ∀ {sh : Vec K} {f : ℕ → K} (com base : State3 K), sh.Is N f →
      (∃ o, (do (posDyn (Spec.comFirst s.period) s.period N).UT.mulVec? (← comOffset sh
        (posDyn (Spec.comFirst s.period) s.period N) (posDyn s.period s.period N) com base)) = .ok o ∧
        o.Is N fun i => ∑ k ∈ range N, posU (Spec.comFirst s.period) s.period k i *
          (-f k + ∑ i ∈ range 3, posS (Spec.comFirst s.period) s.period k i * com.toVec.get i
            - ∑ i ∈ range 3, posS s.period s.period k i * base.toVec.get i)) ∧
      (∃ o, (do (posDyn s.period s.period N).UT.mulVec? (← comOffsetNeg sh
        (posDyn (Spec.comFirst s.period) s.period N) (posDyn s.period s.period N) com base)) = .ok o ∧
        o.Is N fun i => ∑ k ∈ range N, -posU s.period s.period k i *
          (-f k + ∑ i ∈ range 3, posS (Spec.comFirst s.period) s.period k i * com.toVec.get i
            - ∑ i ∈ range 3, posS s.period s.period k i * base.toVec.get i)) := by
    intro sh f com base hs
    obtain ⟨a, ea, ha⟩ := hc.S.mulVec com.is
    obtain ⟨b, eb, hb⟩ := hp.S.mulVec base.is
    obtain ⟨d, ed, hd⟩ := hs.neg.add ha
    obtain ⟨e, ee, he⟩ := hd.sub hb
    obtain ⟨o, eo, ho⟩ := hc.UT.mulVec he
    obtain ⟨d', ed', hd'⟩ := hs.sub ha
    obtain ⟨e', ee', he'⟩ := hd'.add hb
    obtain ⟨o', eo', ho'⟩ := hp.UT.mulVec he'
    refine ⟨⟨o, ?_, ho⟩, ⟨o', ?_, ho'.congr fun i _ => sum_congr rfl fun k _ => by ring⟩⟩
    · unfold comOffset
      simp only [ea, ok_bind, ed, eb, ee, eo]
    · unfold comOffsetNeg
      simp only [ea, ok_bind, ed', eb, ee', eo']
  obtain ⟨⟨o0, e0, h0⟩, ⟨o2, e2, h2⟩⟩ := key l.x b.x hsx
  obtain ⟨⟨o1, e1, h1⟩, ⟨o3, e3, h3⟩⟩ := key l.y b.y hsy
  rw [e0, e1, e2, e3]
  obtain ⟨G, eG, hG⟩ := gradient4_ok (posU (Spec.comFirst s.period) s.period)
    (posU (Spec.comFirst s.period) s.period) (fun i j => -posU s.period s.period i j)
    (fun i j => -posU s.period s.period i j) hg.1 h0 h1 h2 h3
  refine ⟨G, eG, hG.congr fun r hr => ?_⟩
  rw [hg.2 r hr]
  unfold LsqGrad comOff
  simp only [zero_add, hN]

end MPC
