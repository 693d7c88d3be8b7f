import Verif.Lemmas.ZebBlocks

/-! # Checked operations on vectors and matrices known by their entries -/

set_option linter.unusedSectionVars false

namespace MPC

open Finset

variable {K : Type} [Field K] [LinearOrder K] [IsStrictOrderedRing K]

theorem Mat.Is.of (N M : ℕ) (f : ℕ → ℕ → K) : (Mat.mk N M f).Is N M f :=
  ⟨rfl, rfl, fun _ _ _ _ => rfl⟩

theorem Vec.Is.of (N : ℕ) (f : ℕ → K) : (Vec.mk N f).Is N f := ⟨rfl, fun _ _ => rfl⟩

theorem Mat.Is.congr {A : Mat K} {N M : ℕ} {f g : ℕ → ℕ → K} (h : A.Is N M f)
    (e : ∀ i < N, ∀ j < M, f i j = g i j) : A.Is N M g :=
  ⟨h.1, h.2.1, fun i hi j hj => (h.2.2 i hi j hj).trans (e i hi j hj)⟩

theorem Vec.Is.congr {v : Vec K} {N : ℕ} {f g : ℕ → K} (h : v.Is N f) (e : ∀ i < N, f i = g i) :
    v.Is N g := ⟨h.1, fun i hi => (h.2 i hi).trans (e i hi)⟩

theorem Mat.Is.transpose {A : Mat K} {N M : ℕ} {f : ℕ → ℕ → K} (h : A.Is N M f) :
    A.transpose.Is M N fun i j => f j i :=
  ⟨h.2.1, h.1, fun i hi j hj => h.2.2 j hj i hi⟩

theorem Mat.Is.smul {A : Mat K} {N M : ℕ} {f : ℕ → ℕ → K} (h : A.Is N M f) (c : K) :
    (A.smul c).Is N M fun i j => c * f i j :=
  ⟨h.1, h.2.1, fun i hi j hj => congrArg (c * ·) (h.2.2 i hi j hj)⟩

theorem Mat.Is.neg {A : Mat K} {N M : ℕ} {f : ℕ → ℕ → K} (h : A.Is N M f) :
    A.neg.Is N M fun i j => -f i j :=
  ⟨h.1, h.2.1, fun i hi j hj => congrArg Neg.neg (h.2.2 i hi j hj)⟩

theorem Vec.Is.neg {v : Vec K} {N : ℕ} {f : ℕ → K} (h : v.Is N f) : v.neg.Is N fun i => -f i :=
  ⟨h.1, fun i hi => congrArg Neg.neg (h.2 i hi)⟩

theorem Vec.Is.smul {v : Vec K} {N : ℕ} {f : ℕ → K} (h : v.Is N f) (c : K) :
    (v.smul c).Is N fun i => c * f i :=
  ⟨h.1, fun i hi => congrArg (c * ·) (h.2 i hi)⟩

theorem Mat.Is.mulVec {A : Mat K} {N M : ℕ} {f : ℕ → ℕ → K} {v : Vec K} {g : ℕ → K} (h : A.Is N M f)
    (hv : v.Is M g) :
    ∃ u, A.mulVec? v = .ok u ∧ u.Is N fun i => ∑ k ∈ range M, f i k * g k := by
  refine ⟨_, Mat.mulVec?_ok (h.2.1.trans hv.1.symm), h.1, fun i hi => ?_⟩
  change ∑ k ∈ range A.cols, A.get i k * v.get k = _
  rw [h.2.1]
  exact sum_congr rfl fun k hk => by rw [h.2.2 i hi k (mem_range.1 hk), hv.2 k (mem_range.1 hk)]

theorem Mat.Is.mul {A B : Mat K} {N M P : ℕ} {f g : ℕ → ℕ → K} (h : A.Is N M f) (hB : B.Is M P g) :
    ∃ C, A.mul? B = .ok C ∧ C.Is N P fun i j => ∑ k ∈ range M, f i k * g k j := by
  refine ⟨_, Mat.mul?_ok (h.2.1.trans hB.1.symm), h.1, hB.2.1, fun i hi j hj => ?_⟩
  change ∑ k ∈ range A.cols, A.get i k * B.get k j = _
  rw [h.2.1]
  exact sum_congr rfl fun k hk => by rw [h.2.2 i hi k (mem_range.1 hk), hB.2.2 k (mem_range.1 hk) j hj]

theorem Mat.Is.add {A B : Mat K} {N M : ℕ} {f g : ℕ → ℕ → K} (h : A.Is N M f) (hB : B.Is N M g) :
    ∃ C, A.add? B = .ok C ∧ C.Is N M fun i j => f i j + g i j :=
  ⟨_, Mat.add?_ok (h.1.trans hB.1.symm) (h.2.1.trans hB.2.1.symm), h.1, h.2.1, fun i hi j hj =>
    congrArg₂ (· + ·) (h.2.2 i hi j hj) (hB.2.2 i hi j hj)⟩

theorem Mat.Is.sub {A B : Mat K} {N M : ℕ} {f g : ℕ → ℕ → K} (h : A.Is N M f) (hB : B.Is N M g) :
    ∃ C, A.sub? B = .ok C ∧ C.Is N M fun i j => f i j - g i j :=
  ⟨_, Mat.sub?_ok (h.1.trans hB.1.symm) (h.2.1.trans hB.2.1.symm), h.1, h.2.1, fun i hi j hj =>
    congrArg₂ (· - ·) (h.2.2 i hi j hj) (hB.2.2 i hi j hj)⟩

theorem Vec.Is.add {v w : Vec K} {N : ℕ} {f g : ℕ → K} (h : v.Is N f) (hw : w.Is N g) :
    ∃ u, v.add? w = .ok u ∧ u.Is N fun i => f i + g i :=
  ⟨_, Vec.add?_ok (h.1.trans hw.1.symm), h.1, fun i hi => congrArg₂ (· + ·) (h.2 i hi) (hw.2 i hi)⟩

theorem Vec.Is.sub {v w : Vec K} {N : ℕ} {f g : ℕ → K} (h : v.Is N f) (hw : w.Is N g) :
    ∃ u, v.sub? w = .ok u ∧ u.Is N fun i => f i - g i :=
  ⟨_, Vec.sub?_ok (h.1.trans hw.1.symm), h.1, fun i hi => congrArg₂ (· - ·) (h.2 i hi) (hw.2 i hi)⟩

theorem Vec.Is.segment {v : Vec K} {N : ℕ} {f : ℕ → K} (h : v.Is N f) {s n : ℕ} (hs : s + n ≤ N) :
    ∃ u, v.segment? s n = .ok u ∧ u.Is n fun i => f (s + i) :=
  ⟨_, Vec.segment?_ok (by rw [h.1]; exact hs), rfl, fun i hi => h.2 (s + i) (by omega)⟩

theorem Vec.Is.setSeg {v w : Vec K} {N n s : ℕ} {f g : ℕ → K} (h : v.Is N f) (hw : w.Is n g)
    (hs : s + n ≤ N) :
    ∃ u, v.setSegment? s n w = .ok u ∧ u.Is N fun i => if s ≤ i ∧ i < s + n then g (i - s) else f i := by
  refine ⟨_, Vec.setSegment?_ok (by rw [h.1]; exact hs) hw.1, h.1, fun i hi => ?_⟩
  dsimp only
  split_ifs with c
  · exact hw.2 _ (by omega)
  · exact h.2 i hi

theorem Vec.Is.incSeg {v w : Vec K} {N n s : ℕ} {f g : ℕ → K} (h : v.Is N f) (hw : w.Is n g)
    (hs : s + n ≤ N) :
    ∃ u, v.incSegment? s n w = .ok u ∧
      u.Is N fun i => if s ≤ i ∧ i < s + n then f i + g (i - s) else f i := by
  refine ⟨_, Vec.incSegment?_ok (by rw [h.1]; exact hs) hw.1, h.1, fun i hi => ?_⟩
  dsimp only
  split_ifs with c
  · rw [h.2 i hi, hw.2 _ (by omega)]
  · exact h.2 i hi

theorem Vec.Is.decSeg {v w : Vec K} {N n s : ℕ} {f g : ℕ → K} (h : v.Is N f) (hw : w.Is n g)
    (hs : s + n ≤ N) :
    ∃ u, v.decSegment? s n w = .ok u ∧
      u.Is N fun i => if s ≤ i ∧ i < s + n then f i - g (i - s) else f i := by
  refine ⟨_, Vec.decSegment?_ok (by rw [h.1]; exact hs) hw.1, h.1, fun i hi => ?_⟩
  dsimp only
  split_ifs with c
  · rw [h.2 i hi, hw.2 _ (by omega)]
  · exact h.2 i hi

theorem Mat.Is.setBlk {A B : Mat K} {N M n m r c : ℕ} {f g : ℕ → ℕ → K} (h : A.Is N M f)
    (hB : B.Is n m g) (hr : r + n ≤ N) (hc : c + m ≤ M) :
    ∃ C, A.setBlock? r c n m B = .ok C ∧ C.Is N M fun i j =>
      if (r ≤ i ∧ i < r + n) ∧ (c ≤ j ∧ j < c + m) then g (i - r) (j - c) else f i j := by
  refine ⟨_, Mat.setBlock?_ok (by rw [h.1]; exact hr) (by rw [h.2.1]; exact hc) hB.1 hB.2.1, h.1, h.2.1,
    fun i hi j hj => ?_⟩
  dsimp only
  split_ifs with e
  · exact hB.2.2 _ (by omega) _ (by omega)
  · exact h.2.2 i hi j hj

theorem Mat.Is.incBlk {A B : Mat K} {N M n m r c : ℕ} {f g : ℕ → ℕ → K} (h : A.Is N M f)
    (hB : B.Is n m g) (hr : r + n ≤ N) (hc : c + m ≤ M) :
    ∃ C, A.incBlock? r c n m B = .ok C ∧ C.Is N M fun i j =>
      if (r ≤ i ∧ i < r + n) ∧ (c ≤ j ∧ j < c + m) then f i j + g (i - r) (j - c) else f i j := by
  refine ⟨_, Mat.incBlock?_ok (by rw [h.1]; exact hr) (by rw [h.2.1]; exact hc) hB.1 hB.2.1, h.1, h.2.1,
    fun i hi j hj => ?_⟩
  dsimp only
  split_ifs with e
  · rw [h.2.2 i hi j hj, hB.2.2 _ (by omega) _ (by omega)]
  · exact h.2.2 i hi j hj

theorem State3.is (s : State3 K) : s.toVec.Is 3 s.toVec.get := ⟨rfl, fun _ _ => rfl⟩

theorem Vec.is (v : Vec K) {N : ℕ} (h : v.size = N) : v.Is N v.get := ⟨h, fun _ _ => rfl⟩

/-- The gradient at `x` of `½ Σ (D x + off)²` over `n` rows and `M` unknowns. -/
def LsqGrad (n M : ℕ) (D : ℕ → ℕ → K) (off x : ℕ → K) (r : ℕ) : K :=
  ∑ j ∈ range M, gram n D r j * x j + ∑ k ∈ range n, D k r * off k

end MPC
