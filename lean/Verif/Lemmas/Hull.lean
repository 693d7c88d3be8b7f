import Verif.Lemmas.HullLoop

/-! # The march computes the hull -/

namespace MPC

open Pt

/-- `k` is the vertex after `c`. -/
structure Next (p : Vec (Pt ℝ)) (c k : ℕ) : Prop where
  lt : k < p.size
  ne : p.get k ≠ p.get c
  left : ∀ j < p.size, 0 ≤ ((p.get k).sub (p.get c)).cross ((p.get j).sub (p.get c))
  far : ∀ j < p.size, ∀ s : ℝ, 1 < s → (p.get j).x - (p.get c).x = s * ((p.get k).x - (p.get c).x) →
    (p.get j).y - (p.get c).y = s * ((p.get k).y - (p.get c).y) → False

/-- A point that is not strictly between two others, and the first of its copies. -/
structure Extreme (p : Vec (Pt ℝ)) (c : ℕ) : Prop where
  lt : c < p.size
  first : ∀ j < p.size, p.get j = p.get c → c ≤ j
  between : ∀ i < p.size, ∀ j < p.size, ∀ t : ℝ, 0 < t → t < 1 →
    (p.get c).x = (1 - t) * (p.get i).x + t * (p.get j).x →
    (p.get c).y = (1 - t) * (p.get i).y + t * (p.get j).y → p.get i = p.get j

theorem start_extreme {p : Vec (Pt ℝ)} {s : ℕ} (hs : s < p.size) (h : Start p s) : Extreme p s := by
  refine ⟨hs, h.first, ?_⟩
  intro i hi j hj t h0 h1 hx hy
  have a1 := h.low i hi
  have a2 := h.low j hj
  have yi : (p.get i).y = (p.get s).y := by
    have : (1 - t) * ((p.get i).y - (p.get s).y) + t * ((p.get j).y - (p.get s).y) = 0 := by
      linear_combination -hy
    have b1 : 0 ≤ (1 - t) * ((p.get i).y - (p.get s).y) := mul_nonneg (by linarith) (by linarith)
    have b2 : 0 ≤ t * ((p.get j).y - (p.get s).y) := mul_nonneg (by linarith) (by linarith)
    have b3 : (1 - t) * ((p.get i).y - (p.get s).y) = 0 := by linarith
    rcases mul_eq_zero.1 b3 with h | h <;> linarith
  have yj : (p.get j).y = (p.get s).y := by
    have b3 : t * ((p.get j).y - (p.get s).y) = 0 := by rw [yi] at hy; linear_combination -hy
    rcases mul_eq_zero.1 b3 with h | h <;> linarith
  have a3 := h.left i hi yi
  have a4 := h.left j hj yj
  have xi : (p.get i).x = (p.get s).x := by
    have : (1 - t) * ((p.get i).x - (p.get s).x) + t * ((p.get j).x - (p.get s).x) = 0 := by
      linear_combination -hx
    have b1 : 0 ≤ (1 - t) * ((p.get i).x - (p.get s).x) := mul_nonneg (by linarith) (by linarith)
    have b2 : 0 ≤ t * ((p.get j).x - (p.get s).x) := mul_nonneg (by linarith) (by linarith)
    have b3 : (1 - t) * ((p.get i).x - (p.get s).x) = 0 := by linarith
    rcases mul_eq_zero.1 b3 with h | h <;> linarith
  have xj : (p.get j).x = (p.get s).x := by
    have b3 : t * ((p.get j).x - (p.get s).x) = 0 := by rw [xi] at hx; linear_combination -hx
    rcases mul_eq_zero.1 b3 with h | h <;> linarith
  exact Pt.ext' (xi.trans xj.symm) (yi.trans yj.symm)

/-- Vectors with a zero cross product are proportional. -/
theorem proportional {a b : Pt ℝ} (ha : a ≠ ⟨0, 0⟩) (h : a.cross b = 0) :
    ∃ s : ℝ, b.x = s * a.x ∧ b.y = s * a.y := by
  have hp := normSq_pos ha
  refine ⟨a.dot b / a.normSq, ?_, ?_⟩
  · rw [div_mul_eq_mul_div, eq_div_iff hp.ne']
    unfold cross at h
    unfold dot normSq
    linear_combination -a.y * h
  · rw [div_mul_eq_mul_div, eq_div_iff hp.ne']
    unfold cross at h
    unfold dot normSq
    linear_combination a.x * h

theorem next_extreme {p : Vec (Pt ℝ)} {c k : ℕ} (h : Next p c k)
    (hf : ∀ j < p.size, p.get j = p.get k → k ≤ j) : Extreme p k := by
  refine ⟨h.lt, hf, ?_⟩
  intro i hi j hj t h0 h1 hx hy
  have hne := Pt.sub_ne_zero h.ne
  have l1 := h.left i hi
  have l2 := h.left j hj
  have hsum : (1 - t) * ((p.get k).sub (p.get c)).cross ((p.get i).sub (p.get c)) +
      t * ((p.get k).sub (p.get c)).cross ((p.get j).sub (p.get c)) = 0 := by
    unfold Pt.sub cross
    simp only
    linear_combination (-((p.get k).x - (p.get c).x)) * hy + ((p.get k).y - (p.get c).y) * hx
  have b1 := mul_nonneg (show 0 ≤ 1 - t by linarith) l1
  have b2 := mul_nonneg h0.le l2
  have z1 : ((p.get k).sub (p.get c)).cross ((p.get i).sub (p.get c)) = 0 := by
    rcases mul_eq_zero.1 (le_antisymm (by linarith) b1) with h | h
    · linarith
    · exact h
  have z2 : ((p.get k).sub (p.get c)).cross ((p.get j).sub (p.get c)) = 0 := by
    rcases mul_eq_zero.1 (le_antisymm (by linarith) b2) with h | h
    · linarith
    · exact h
  obtain ⟨s, sx, sy⟩ := proportional hne z1
  obtain ⟨r, rx, ry⟩ := proportional hne z2
  simp only [Pt.sub] at sx sy rx ry
  have hsr : (1 - t) * s + t * r = 1 := by
    have ex : ((1 - t) * s + t * r - 1) * ((p.get k).x - (p.get c).x) = 0 := by
      linear_combination (-(1 - t)) * sx - t * rx - hx
    have ey : ((1 - t) * s + t * r - 1) * ((p.get k).y - (p.get c).y) = 0 := by
      linear_combination (-(1 - t)) * sy - t * ry - hy
    rcases mul_eq_zero.1 ex with h | h
    · linarith
    · rcases mul_eq_zero.1 ey with h' | h'
      · linarith
      · exact absurd (Pt.ext' h h') hne
  have s1 : s ≤ 1 := by
    by_contra hn
    exact h.far i hi s (not_le.1 hn) sx sy
  have r1 : r ≤ 1 := by
    by_contra hn
    exact h.far j hj r (not_le.1 hn) rx ry
  have b3 := mul_nonneg (show 0 ≤ 1 - t by linarith) (show 0 ≤ 1 - s by linarith)
  have b4 := mul_nonneg h0.le (show 0 ≤ 1 - r by linarith)
  have s2 : s = 1 := by
    rcases mul_eq_zero.1 (show (1 - t) * (1 - s) = 0 by linarith) with h | h <;> linarith
  have r2 : r = 1 := by
    rcases mul_eq_zero.1 (show t * (1 - r) = 0 by linarith) with h | h <;> linarith
  rw [s2, one_mul] at sx sy
  rw [r2, one_mul] at rx ry
  exact Pt.ext' (by linarith) (by linarith)

/-- The vertex before `k` is unique. -/
theorem next_inj {p : Vec (Pt ℝ)} {c c' k : ℕ} (hc : Extreme p c) (hc' : Extreme p c')
    (h : Next p c k) (h' : Next p c' k) : c = c' := by
  suffices hp : p.get c = p.get c' from
    le_antisymm (hc.first c' hc'.lt hp.symm) (hc'.first c hc.lt hp)
  have l1 := h.left c' hc'.lt
  have l2 := h'.left c hc.lt
  have hsum : ((p.get k).sub (p.get c)).cross ((p.get c').sub (p.get c)) +
      ((p.get k).sub (p.get c')).cross ((p.get c).sub (p.get c')) = 0 := by
    unfold Pt.sub cross; ring
  have z : ((p.get k).sub (p.get c)).cross ((p.get c').sub (p.get c)) = 0 := by linarith
  obtain ⟨s, sx, sy⟩ := proportional (Pt.sub_ne_zero h.ne) z
  simp only [Pt.sub] at sx sy
  rcases lt_trichotomy s 0 with hs | hs | hs
  · -- `c` strictly between `c'` and `k`
    have d : (0 : ℝ) < 1 - s := by linarith
    exfalso
    have := hc.between c' hc'.lt k h.lt (-s / (1 - s)) (div_pos (by linarith) d)
      (by rw [div_lt_one d]; linarith)
      (by field_simp; linear_combination -sx) (by field_simp; linear_combination -sy)
    exact h'.ne this.symm
  · rw [hs, zero_mul] at sx sy
    exact Pt.ext' (by linarith) (by linarith)
  · rcases lt_trichotomy s 1 with h1 | h1 | h1
    · exfalso
      have := hc'.between c hc.lt k h.lt s hs h1 (by linear_combination sx) (by linear_combination sy)
      exact h.ne this.symm
    · exfalso
      rw [h1, one_mul] at sx sy
      exact h'.ne (Pt.ext' (by linarith) (by linarith))
    · exact (h.far c' hc'.lt s h1 sx sy).elim

/-- One call to `getIndexOfSmallestAngleVertice` from `c`, all points being on the left of the
incoming direction `d`. -/
theorem smallestAngle_next {δ : ℝ} {p : Vec (Pt ℝ)} (hp : Spec.Separated δ p) {c : ℕ}
    (hc : c < p.size) {last d : Pt ℝ} (hd : (p.get c).sub last = d) (hd0 : d ≠ ⟨0, 0⟩)
    (hdz : ¬ d.isZero δ) (hleft : ∀ j < p.size, 0 ≤ d.cross ((p.get j).sub (p.get c)))
    (hap : ∀ j < p.size, d.isApprox ((p.get j).sub (p.get c)) →
      d.cross ((p.get j).sub (p.get c)) = 0)
    (hap' : ∀ j < p.size, d.isApprox ((p.get j).sub (p.get c)).neg →
      d.cross ((p.get j).sub (p.get c)) = 0) :
    ∃ k, smallestAngle δ p c last = .ok k ∧ Next p c k ∧
      ∀ j < p.size, p.get j = p.get k → k ≤ j := by
  have cand : ∀ j < p.size, (¬ (p.get j).isApprox (p.get c)) ↔ p.get j ≠ p.get c := by
    intro j hj
    constructor
    · intro h he; rw [he] at h; exact h (isApprox_self _)
    · exact fun h => hp.approx j hj c hc h
  have ang : ∀ j < p.size, p.get j ≠ p.get c →
      angleBetweenVecs δ ((p.get c).sub last) ((p.get j).sub (p.get c)) =
        theta d ((p.get j).sub (p.get c)) := by
    intro j hj hne
    rw [hd]
    exact angle_eq_theta hd0 (Pt.sub_ne_zero hne) hdz (hp.zero j hj c hc hne) (hleft j hj)
      (hap j hj) (hap' j hj)
  obtain ⟨h, l, e, hr, t⟩ := angleLoop_ok δ p hp.two hc last (p.size - 1) (by have := hp.two; omega)
  have he : ¬ (p.get (if c ≠ 0 then 0 else 1)).isApprox (p.get c) := by
    by_cases h0 : c = 0
    · rw [if_neg (not_not.2 h0), cand 1 hp.two]
      intro h1
      rw [h0] at h1
      exact absurd (hp.first 1 hp.two h1) one_ne_zero
    · rw [if_pos h0, cand 0 (by omega)]
      intro h1
      exact h0 (hp.first c hc h1.symm)
  have t := t (by
    intro i hi j hj ci cj hlt
    rw [cand i hi] at ci
    rw [cand j hj] at cj
    rw [ang i hi ci, ang j hj cj] at hlt ⊢
    exact theta_eq_of_close hd0 (Pt.sub_ne_zero ci) (Pt.sub_ne_zero cj) (hleft i hi) (hleft j hj)
      (hp.angle c hc i hi j hj) hlt) he
  have hm := pick_mem (fun j => -((p.get j).sub (p.get c)).norm) l h
  set k := pick (fun j => -((p.get j).sub (p.get c)).norm) h l with hk
  have hkr := hr k hm
  have hkc := (cand k hkr).1 (t.isCand k hm)
  have hmin : ∀ j < p.size, p.get j ≠ p.get c →
      theta d ((p.get k).sub (p.get c)) ≤ theta d ((p.get j).sub (p.get c)) := by
    intro j hj hne
    have h1 := t.small j (by omega) ((cand j hj).2 hne)
    have h2 := t.eq k hm
    rw [← h2, ang k hkr hkc, ang j hj hne] at h1
    exact h1
  have hall : ∀ j < p.size, p.get j ≠ p.get c →
      theta d ((p.get j).sub (p.get c)) = theta d ((p.get k).sub (p.get c)) → j ∈ h :: l := by
    intro j hj hne he
    apply t.all j (by omega) ((cand j hj).2 hne)
    have h2 := t.eq k hm
    rw [← h2, ang k hkr hkc, ang j hj hne]
    exact he
  refine ⟨k, ?_, ⟨hkr, hkc, ?_, ?_⟩, ?_⟩
  · rw [smallestAngle, e, ok_bind, first?, ok_bind, List.tail_cons, furthestLoop_ok p hc l h hr]
  · intro j hj
    by_cases hne : p.get j = p.get c
    · rw [hne]; unfold Pt.sub cross; simp
    · exact cross_nonneg_of_theta_le hd0 (Pt.sub_ne_zero hkc) (Pt.sub_ne_zero hne) (hleft k hkr)
        (hleft j hj) (hmin j hj hne)
  · intro j hj s hs sx sy
    have hk0 := Pt.sub_ne_zero hkc
    have hjk : (p.get j).sub (p.get c) =
        ⟨s * ((p.get k).sub (p.get c)).x, s * ((p.get k).sub (p.get c)).y⟩ := Pt.ext' sx sy
    have hnorm : ((p.get j).sub (p.get c)).norm = s * ((p.get k).sub (p.get c)).norm := by
      rw [Pt.norm, Pt.norm, show ((p.get j).sub (p.get c)).normSq =
        s ^ 2 * ((p.get k).sub (p.get c)).normSq by rw [hjk]; unfold normSq; ring,
        Real.sqrt_mul (sq_nonneg s), Real.sqrt_sq (by linarith)]
    have hkn := Pt.norm_pos hk0
    have hne : p.get j ≠ p.get c := by
      intro h0
      rw [h0] at hnorm
      have : ((p.get c).sub (p.get c)).norm = 0 := by unfold Pt.sub Pt.norm normSq; simp
      rw [this] at hnorm
      have := mul_pos (show 0 < s by linarith) hkn
      linarith
    have hmem := hall j hj hne (theta_smul hk0 (by linarith) hjk)
    have hle := pick_le (fun j => -((p.get j).sub (p.get c)).norm) l h j hmem
    rw [← hk] at hle
    simp only [neg_le_neg_iff] at hle
    rw [hnorm] at hle
    nlinarith
  · intro j hj he
    have hmem := hall j hj (by rw [he]; exact hkc) (by rw [he])
    exact pick_first (fun j => -((p.get j).sub (p.get c)).norm) l h t.sorted j hmem
      (by rw [← hk]; simp only [he])

/-- The call after the start vertex. -/
theorem first_next {δ : ℝ} {p : Vec (Pt ℝ)} (hp : Spec.Separated δ p) {s : ℕ}
    (hs : s < p.size) (h : Start p s) :
    ∃ k, smallestAngle δ p s ⟨(p.get s).x - 1, (p.get s).y⟩ = .ok k ∧ Next p s k ∧
      ∀ j < p.size, p.get j = p.get k → k ≤ j := by
  have hcr : ∀ v : Pt ℝ, (⟨1, 0⟩ : Pt ℝ).cross v = v.y := by intro v; unfold cross; simp
  have small : ∀ v : Pt ℝ, (⟨1, 0⟩ : Pt ℝ).isApprox v → |v.y| ≤ EPS := by
    intro v hv
    unfold Pt.isApprox at hv
    have h1 : EPS * EPS * min (⟨1, 0⟩ : Pt ℝ).normSq v.normSq ≤ EPS * EPS * (⟨1, 0⟩ : Pt ℝ).normSq :=
      mul_le_mul_of_nonneg_left (min_le_left _ _) (mul_self_nonneg _)
    have h2 : v.y ^ 2 ≤ EPS ^ 2 := by
      have := h1.trans' hv
      unfold normSq Pt.sub at this
      simp only at this
      nlinarith [mul_self_nonneg (1 - v.x)]
    exact abs_le_of_sq_le_sq h2 EPS_pos.le
  have hy : ∀ j < p.size, |((p.get j).sub (p.get s)).y| ≤ EPS → ((p.get j).sub (p.get s)).y = 0 := by
    intro j hj hle
    rcases hp.low s hs h.low j hj with h1 | h1
    · simp only [Pt.sub]; linarith
    · exact absurd (h1.trans_le ((le_abs_self _).trans hle)) (lt_irrefl _)
  apply smallestAngle_next hp hs (d := ⟨1, 0⟩)
  · exact Pt.ext' (by simp [Pt.sub]) (by simp [Pt.sub])
  · intro h; exact one_ne_zero (congrArg Pt.x h)
  · rintro ⟨h1, -⟩
    simp only [abs_one] at h1
    have := hp.δ_lt_one
    linarith
  · intro j hj
    rw [hcr]; simp only [Pt.sub]; linarith [h.low j hj]
  · intro j hj ha
    rw [hcr]; exact hy j hj (small _ ha)
  · intro j hj ha
    rw [hcr]
    have := small _ ha
    simp only [Pt.neg, abs_neg] at this
    exact hy j hj this

/-- The call after the edge from `c` to `k`. -/
theorem step_next {δ : ℝ} {p : Vec (Pt ℝ)} (hp : Spec.Separated δ p) {c k : ℕ}
    (hc : c < p.size) (h : Next p c k) :
    ∃ m, smallestAngle δ p k (p.get c) = .ok m ∧ Next p k m ∧
      ∀ j < p.size, p.get j = p.get m → m ≤ j := by
  have hswap : ∀ j, ((p.get c).sub (p.get k)).cross ((p.get j).sub (p.get k)) =
      -((p.get k).sub (p.get c)).cross ((p.get j).sub (p.get k)) := by
    intro j; unfold Pt.sub cross; ring
  have hnorm : ((p.get c).sub (p.get k)).norm = ((p.get k).sub (p.get c)).norm := by
    rw [show (p.get c).sub (p.get k) = ((p.get k).sub (p.get c)).neg from
      Pt.ext' (by simp [Pt.sub, Pt.neg]) (by simp [Pt.sub, Pt.neg]), Pt.norm_neg]
  have sep : ∀ j < p.size, ((p.get k).sub (p.get c)).cross ((p.get j).sub (p.get k)) = 0 ∨
      EPS * (((p.get k).sub (p.get c)).norm * ((p.get j).sub (p.get k)).norm) <
        |((p.get k).sub (p.get c)).cross ((p.get j).sub (p.get k))| := by
    intro j hj
    have := hp.angle k h.lt c hc j hj
    rw [hswap, neg_eq_zero, abs_neg, hnorm] at this
    exact this
  apply smallestAngle_next hp h.lt (d := (p.get k).sub (p.get c)) rfl (Pt.sub_ne_zero h.ne)
    (hp.zero k h.lt c hc h.ne)
  · intro j hj
    have := h.left j hj
    have e : ((p.get k).sub (p.get c)).cross ((p.get j).sub (p.get k)) =
        ((p.get k).sub (p.get c)).cross ((p.get j).sub (p.get c)) := by
      unfold Pt.sub cross; ring
    rw [e]; exact this
  · intro j hj ha
    rcases sep j hj with h1 | h1
    · exact h1
    · exact absurd (cross_le_of_approx ha) (not_le.2 h1)
  · intro j hj ha
    rcases sep j hj with h1 | h1
    · exact h1
    · have := cross_le_of_approx ha
      rw [cross_neg, abs_neg, Pt.norm_neg] at this
      exact absurd this (not_le.2 h1)

/-- The vertices visited by the march: a closed cycle without repetition. -/
structure HullCycle (p : Vec (Pt ℝ)) (s m : ℕ) (c : ℕ → ℕ) : Prop where
  start : c 0 = s
  next : ∀ i < m, Next p (c i) (c (i + 1))
  extreme : ∀ i ≤ m, Extreme p (c i)
  inj : ∀ i < m, ∀ j < m, c i = c j → i = j

theorem HullCycle.len {p : Vec (Pt ℝ)} {s m : ℕ} {c : ℕ → ℕ} (h : HullCycle p s m c) : m ≤ p.size := by
  have h1 : Finset.image c (Finset.range m) ⊆ Finset.range p.size := by
    intro x hx
    obtain ⟨i, hi, rfl⟩ := Finset.mem_image.1 hx
    exact Finset.mem_range.2 (h.extreme i (Finset.mem_range.1 hi).le).lt
  have h2 := Finset.card_le_card h1
  rw [Finset.card_image_of_injOn, Finset.card_range, Finset.card_range] at h2
  · exact h2
  · intro i hi j hj
    exact h.inj i (by simpa using hi) j (by simpa using hj)

theorem march_ok {δ : ℝ} {p : Vec (Pt ℝ)} (hp : Spec.Separated δ p) {s : ℕ}
    (hs : lowestLeftmost p = .ok s) (fuel : ℕ) : ∀ (t : ℕ) (c : ℕ → ℕ), 1 ≤ t → HullCycle p s t c →
    p.size + 2 ≤ fuel + t →
    ∃ m c', 1 ≤ m ∧ HullCycle p s m c' ∧ c' m = s ∧
      marchLoop δ p fuel ((List.range t).map (fun i => p.get (c i))) (c t) =
        .ok ((List.range m).map (fun i => p.get (c' i))) := by
  induction fuel with
  | zero =>
    intro t c _ hc hf
    have := hc.len
    omega
  | succ fuel ih =>
    intro t c ht hc hf
    rw [marchLoop, hs, ok_bind]
    by_cases h : c t = s
    · rw [if_pos h]
      exact ⟨t, c, ht, hc, h, rfl⟩
    · rw [if_neg h]
      have hlen := hc.len
      have hlast : ((List.range t).map (fun i => p.get (c i))).getLast? = some (p.get (c (t - 1))) := by
        obtain ⟨u, rfl⟩ : ∃ u, t = u + 1 := ⟨t - 1, by omega⟩
        simp [List.range_succ]
      rw [require_pos (by simpa using hlen), ok_bind, Vec.at?_ok (hc.extreme t le_rfl).lt, ok_bind, hlast]
      simp only [ok_bind]
      have hn : Next p (c (t - 1)) (c t) := by
        have := hc.next (t - 1) (by omega)
        rwa [Nat.sub_add_cancel ht] at this
      obtain ⟨k, ek, hk, hkf⟩ := step_next hp (hc.extreme (t - 1) (by omega)).lt hn
      rw [ek, ok_bind]
      -- the new vertex was not visited before
      have hnew : ∀ i < t, c i ≠ c t := by
        intro i hi he
        rcases Nat.eq_zero_or_pos i with rfl | hpos
        · exact h (by rw [← he, hc.start])
        · have h1 := hc.next (i - 1) (by omega)
          rw [Nat.sub_add_cancel hpos, he] at h1
          have h2 := next_inj (hc.extreme (i - 1) (by omega)) (hc.extreme (t - 1) (by omega)) h1 hn
          have := hc.inj (i - 1) (by omega) (t - 1) (by omega) h2
          omega
      have hc' : HullCycle p s (t + 1) (Function.update c (t + 1) k) := by
        have old : ∀ i ≤ t, Function.update c (t + 1) k i = c i :=
          fun i hi => Function.update_of_ne (by omega) _ _
        have new : Function.update c (t + 1) k (t + 1) = k := Function.update_self _ _ _
        refine ⟨?_, ?_, ?_, ?_⟩
        · rw [old 0 (by omega), hc.start]
        · intro i hi
          rcases Nat.lt_succ_iff_lt_or_eq.1 hi with hi | rfl
          · rw [old i (by omega), old (i + 1) (by omega)]; exact hc.next i hi
          · rw [old i le_rfl, new]; exact hk
        · intro i hi
          rcases Nat.lt_or_eq_of_le hi with hi | rfl
          · rw [old i (by omega)]; exact hc.extreme i (by omega)
          · rw [new]; exact next_extreme hk hkf
        · intro i hi j hj he
          rw [old i (by omega), old j (by omega)] at he
          rcases Nat.lt_succ_iff_lt_or_eq.1 hi with hi | rfl
          · rcases Nat.lt_succ_iff_lt_or_eq.1 hj with hj | rfl
            · exact hc.inj i hi j hj he
            · exact absurd he (hnew i hi)
          · rcases Nat.lt_succ_iff_lt_or_eq.1 hj with hj | rfl
            · exact absurd he.symm (hnew j hj)
            · rfl
      obtain ⟨m, c', h1, h2, h3, h4⟩ := ih (t + 1) _ (by omega) hc' (by omega)
      refine ⟨m, c', h1, h2, h3, ?_⟩
      rw [← h4]
      congr 1
      · rw [List.range_succ, List.map_append]
        congr 1
        · apply List.map_congr_left
          intro i hi
          rw [Function.update_of_ne (by have := List.mem_range.1 hi; omega)]
        · simp
      · rw [Function.update_self]

/-- The vertices: a cycle of extreme points, each edge having all points on its left. -/
theorem extract_cycle {δ : ℝ} {p : Vec (Pt ℝ)} (hp : Spec.Separated δ p) :
    ∃ s m c, 2 ≤ m ∧ HullCycle p s m c ∧ c m = s ∧
      extractVertices δ p = .ok ((List.range m).map (fun i => p.get (c i))) := by
  have h2 := hp.two
  obtain ⟨s, es, hs, hst⟩ := lowestLeftmost_ok p (by omega)
  have hst := hst hp.low
  obtain ⟨k, ek, hk, hkf⟩ := first_next hp hs hst
  have hcyc : HullCycle p s 1 (fun i => if i = 0 then s else k) := by
    refine ⟨rfl, ?_, ?_, ?_⟩
    · intro i hi
      obtain rfl : i = 0 := by omega
      exact hk
    · intro i hi
      by_cases h0 : i = 0
      · rw [if_pos h0]; exact start_extreme hs hst
      · rw [if_neg h0]; exact next_extreme hk hkf
    · intro i hi j hj _; omega
  obtain ⟨m, c, h1, hc, hm, e⟩ := march_ok hp es (p.size + 2) 1 _ le_rfl hcyc (by omega)
  refine ⟨s, m, c, ?_, hc, hm, ?_⟩
  · rcases Nat.lt_or_eq_of_le h1 with h | rfl
    · exact h
    · exfalso
      have := (hc.next 0 (by omega)).ne
      rw [hm, hc.start] at this
      exact this rfl
  · rw [extractVertices, if_neg (by omega), es, ok_bind, Vec.at?_ok hs, ok_bind, ek, ok_bind, ← e]
    rfl

/-- Three different extreme points are not aligned. -/
theorem extreme_not_aligned {p : Vec (Pt ℝ)} {a b c : ℕ} (ha : Extreme p a) (hb : Extreme p b)
    (hc : Extreme p c) (hab : p.get a ≠ p.get b) (hac : p.get a ≠ p.get c) (hbc : p.get b ≠ p.get c) :
    ((p.get b).sub (p.get a)).cross ((p.get c).sub (p.get a)) ≠ 0 := by
  intro z
  obtain ⟨s, sx, sy⟩ := proportional (Pt.sub_ne_zero hab.symm) z
  simp only [Pt.sub] at sx sy
  rcases lt_trichotomy s 0 with hs | hs | hs
  · have d : (0 : ℝ) < 1 - s := by linarith
    exact hbc (ha.between c hc.lt b hb.lt (-s / (1 - s)) (div_pos (by linarith) d)
      (by rw [div_lt_one d]; linarith)
      (by field_simp; linear_combination -sx) (by field_simp; linear_combination -sy)).symm
  · rw [hs, zero_mul] at sx sy
    exact hac (Pt.ext' (by linarith) (by linarith))
  · rcases lt_trichotomy s 1 with h1 | h1 | h1
    · exact hab (hc.between a ha.lt b hb.lt s hs h1 (by linear_combination sx) (by linear_combination sy))
    · rw [h1, one_mul] at sx sy
      exact hbc (Pt.ext' (by linarith) (by linarith))
    · have hs0 : s ≠ 0 := hs.ne'
      exact hac (hb.between a ha.lt c hc.lt (1 / s) (by positivity)
        (by rw [div_lt_one hs]; exact h1)
        (by field_simp; linear_combination -sx) (by field_simp; linear_combination -sy))

/-- A point on the left of all edges is in one triangle of the fan of the first vertex. -/
theorem fan {p : Vec (Pt ℝ)} {s m : ℕ} {c : ℕ → ℕ} (h : HullCycle p s m c) (hm : c m = s)
    (h3 : 3 ≤ m) {X : Pt ℝ}
    (hX : ∀ i < m, 0 ≤ ((p.get (c (i + 1))).sub (p.get (c i))).cross (X.sub (p.get (c i)))) :
    Spec.toProd X ∈ Spec.Hull p := by
  set v : ℕ → Pt ℝ := fun i => p.get (c i) with hv
  -- sign change
  have hs1 : 0 ≤ ((v 1).sub (v 0)).cross (X.sub (v 0)) := hX 0 (by omega)
  have hsm : ((v (m - 1)).sub (v 0)).cross (X.sub (v 0)) ≤ 0 := by
    have := hX (m - 1) (by omega)
    rw [Nat.sub_add_cancel (by omega), hm, ← h.start] at this
    have e : ((v 0).sub (v (m - 1))).cross (X.sub (v (m - 1))) =
        -((v (m - 1)).sub (v 0)).cross (X.sub (v 0)) := by unfold Pt.sub cross; ring
    have : 0 ≤ ((v 0).sub (v (m - 1))).cross (X.sub (v (m - 1))) := this
    linarith
  obtain ⟨t, ht1, ht2, hta, htb⟩ : ∃ t, 1 ≤ t ∧ t + 1 < m ∧
      0 ≤ ((v t).sub (v 0)).cross (X.sub (v 0)) ∧
      ((v (t + 1)).sub (v 0)).cross (X.sub (v 0)) ≤ 0 := by
    by_contra hn
    push Not at hn
    have : ∀ t, 1 ≤ t → t < m → 0 ≤ ((v t).sub (v 0)).cross (X.sub (v 0)) ∧
        (2 ≤ t → 0 < ((v t).sub (v 0)).cross (X.sub (v 0))) := by
      intro t h1
      induction t, h1 using Nat.le_induction with
      | base => exact fun _ => ⟨hs1, by omega⟩
      | succ t h1 ih =>
        intro h2
        have := hn t h1 h2 (ih (by omega)).1
        exact ⟨this.le, fun _ => this⟩
    exact absurd hsm (not_le.2 ((this (m - 1) (by omega) (by omega)).2 (by omega)))
  have pne : ∀ i < m, ∀ j < m, i ≠ j → v i ≠ v j := by
    intro i hi j hj hij he
    apply hij
    apply h.inj i hi j hj
    exact le_antisymm ((h.extreme i hi.le).first _ (h.extreme j hj.le).lt he.symm)
      ((h.extreme j hj.le).first _ (h.extreme i hi.le).lt he)
  have hD : 0 < ((v t).sub (v 0)).cross ((v (t + 1)).sub (v 0)) := by
    apply lt_of_le_of_ne
    · have := (h.next t (by omega)).left (c 0) (h.extreme 0 (by omega)).lt
      have e : ((v (t + 1)).sub (v t)).cross ((v 0).sub (v t)) =
          ((v t).sub (v 0)).cross ((v (t + 1)).sub (v 0)) := by unfold Pt.sub cross; ring
      rw [← e]; exact this
    · exact (extreme_not_aligned (h.extreme 0 (by omega)) (h.extreme t (by omega))
        (h.extreme (t + 1) (by omega)) (pne 0 (by omega) t (by omega) (by omega))
        (pne 0 (by omega) (t + 1) (by omega) (by omega))
        (pne t (by omega) (t + 1) (by omega) (by omega))).symm
  have hedge := hX t (by omega)
  have hedge : 0 ≤ ((v (t + 1)).sub (v t)).cross (X.sub (v t)) := hedge
  set D := ((v t).sub (v 0)).cross ((v (t + 1)).sub (v 0)) with hDdef
  set α := -((v (t + 1)).sub (v 0)).cross (X.sub (v 0)) / D with hα
  set β := ((v t).sub (v 0)).cross (X.sub (v 0)) / D with hβ
  have hα0 : 0 ≤ α := div_nonneg (by linarith) hD.le
  have hβ0 : 0 ≤ β := div_nonneg hta hD.le
  have hγ : 1 - α - β = ((v (t + 1)).sub (v t)).cross (X.sub (v t)) / D := by
    rw [hα, hβ, eq_div_iff hD.ne']
    field_simp
    rw [hDdef]; unfold Pt.sub cross; ring
  have hγ0 : 0 ≤ 1 - α - β := by rw [hγ]; exact div_nonneg hedge hD.le
  have ex : (1 - α - β) * (v 0).x + α * (v t).x + β * (v (t + 1)).x = X.x := by
    rw [hα, hβ]
    field_simp
    rw [hDdef]; unfold Pt.sub cross; ring
  have ey : (1 - α - β) * (v 0).y + α * (v t).y + β * (v (t + 1)).y = X.y := by
    rw [hα, hβ]
    field_simp
    rw [hDdef]; unfold Pt.sub cross; ring
  have mem : ∀ i ≤ m, Spec.toProd (v i) ∈ Spec.Hull p := fun i hi =>
    subset_convexHull ℝ _ ⟨c i, (h.extreme i hi).lt, rfl⟩
  have hconv : _root_.Convex ℝ (Spec.Hull p) := convex_convexHull ℝ _
  have := hconv.sum_mem (t := Finset.univ) (w := ![1 - α - β, α, β])
    (z := ![Spec.toProd (v 0), Spec.toProd (v t), Spec.toProd (v (t + 1))])
    (by intro i _; fin_cases i <;> simp <;> linarith) (by simp [Fin.sum_univ_three]; ring)
    (by
      intro i _
      fin_cases i
      · exact mem 0 (by omega)
      · exact mem t (by omega)
      · exact mem (t + 1) (by omega))
  rw [Fin.sum_univ_three] at this
  have hXe : Spec.toProd X = (1 - α - β) • Spec.toProd (v 0) + α • Spec.toProd (v t) +
      β • Spec.toProd (v (t + 1)) := by
    unfold Spec.toProd
    simp only [Prod.smul_mk, smul_eq_mul, Prod.mk_add_mk, Prod.mk.injEq]
    exact ⟨ex.symm, ey.symm⟩
  rw [hXe]
  simpa using this

theorem inner_iff_cross (a b X : Pt ℝ) :
    Spec.InnerSide a b X ↔ 0 ≤ (b.sub a).cross (X.sub a) := by
  unfold Spec.InnerSide Pt.sub cross
  constructor <;> intro h <;> linarith

/-- Edges of the stored polygon are the edges of the cycle. -/
theorem inPolygon_cycle {p : Vec (Pt ℝ)} {s m : ℕ} {c : ℕ → ℕ} (h : HullCycle p s m c) (hm : c m = s)
    (X : Pt ℝ) : Spec.InPolygon (listVec ((List.range m).map (fun i => p.get (c i)))) X ↔
      ∀ i < m, 0 ≤ ((p.get (c (i + 1))).sub (p.get (c i))).cross (X.sub (p.get (c i))) := by
  have hg : ∀ i < m, (listVec ((List.range m).map (fun i => p.get (c i)))).get i = p.get (c i) := by
    intro i hi
    simp [listVec, hi]
  have hsz : (listVec ((List.range m).map (fun i => p.get (c i)))).size = m := by simp [listVec]
  have hnext : ∀ i < m, (listVec ((List.range m).map (fun i => p.get (c i)))).get ((i + 1) % m) =
      p.get (c (i + 1)) := by
    intro i hi
    rcases Nat.lt_or_eq_of_le (Nat.succ_le_of_lt hi) with h1 | h1
    · rw [Nat.mod_eq_of_lt h1, hg _ h1]
    · have h1 : i + 1 = m := h1
      rw [h1, Nat.mod_self, hg 0 (by omega), hm, h.start]
  unfold Spec.InPolygon
  rw [hsz]
  refine forall_congr' fun i => forall_congr' fun hi => ?_
  rw [hg i hi, hnext i hi, inner_iff_cross]

end MPC
