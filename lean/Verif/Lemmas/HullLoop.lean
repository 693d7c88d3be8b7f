import Verif.Lemmas.HullGeom

/-! # The loops of `extractVertices` -/

namespace MPC

/-- First element of `index :: l` with the smallest key. -/
noncomputable def pick (key : ℕ → ℝ) (index : ℕ) : List ℕ → ℕ
  | [] => index
  | j :: l => pick key (if key j < key index then j else index) l

theorem pick_mem (key : ℕ → ℝ) (l : List ℕ) : ∀ index, pick key index l ∈ index :: l := by
  induction l with
  | nil => intro i; simp [pick]
  | cons j l ih =>
    intro i
    have := ih (if key j < key i then j else i)
    rw [pick]
    rcases List.mem_cons.1 this with h | h
    · rw [h]; split_ifs <;> simp
    · simp [h]

theorem pick_le (key : ℕ → ℝ) (l : List ℕ) :
    ∀ index, ∀ j ∈ index :: l, key (pick key index l) ≤ key j := by
  induction l with
  | nil => intro i j hj; simp at hj; simp [pick, hj]
  | cons k l ih =>
    intro i j hj
    have h := ih (if key k < key i then k else i)
    rw [pick]
    have hi := h _ List.mem_cons_self
    rcases List.mem_cons.1 hj with rfl | hj
    · refine hi.trans ?_
      split_ifs with hc
      · exact hc.le
      · exact le_rfl
    · rcases List.mem_cons.1 hj with rfl | hj
      · refine hi.trans ?_
        split_ifs with hc
        · exact le_rfl
        · exact not_lt.1 hc
      · exact h _ (List.mem_cons_of_mem _ hj)

theorem pick_first (key : ℕ → ℝ) (l : List ℕ) :
    ∀ index, (index :: l).Pairwise (· ≤ ·) → ∀ j ∈ index :: l,
      key j = key (pick key index l) → pick key index l ≤ j := by
  induction l with
  | nil => intro i _ j hj _; simp at hj; simp [pick, hj]
  | cons k l ih =>
    intro i hs j hj hk
    rw [pick] at hk ⊢
    have hik : i ≤ k := (List.pairwise_cons.1 hs).1 k List.mem_cons_self
    have hil : ∀ x ∈ l, i ≤ x := fun x hx => (List.pairwise_cons.1 hs).1 x (List.mem_cons_of_mem _ hx)
    have hkl := List.pairwise_cons.1 (List.pairwise_cons.1 hs).2
    have hs' : ((if key k < key i then k else i) :: l).Pairwise (· ≤ ·) := by
      refine List.pairwise_cons.2 ⟨fun x hx => ?_, hkl.2⟩
      split_ifs
      · exact hkl.1 x hx
      · exact hil x hx
    have h := ih _ hs'
    have hle := pick_le key l (if key k < key i then k else i)
    rcases List.mem_cons.1 hj with rfl | hj
    · by_cases hc : key k < key j
      · exfalso
        have := hle _ List.mem_cons_self
        rw [if_pos hc] at this hk
        linarith
      · exact h j (by rw [if_neg hc]; exact List.mem_cons_self) hk
    · rcases List.mem_cons.1 hj with rfl | hj
      · by_cases hc : key j < key i
        · exact h j (by rw [if_pos hc]; exact List.mem_cons_self) hk
        · have h1 := hle _ List.mem_cons_self
          have h2 := h _ List.mem_cons_self
          rw [if_neg hc] at h1 h2 hk ⊢
          exact (h2 (le_antisymm (by linarith [not_lt.1 hc]) h1)).trans hik
      · exact h j (List.mem_cons_of_mem _ hj) hk

theorem leftmostLoop_ok (p : Vec (Pt ℝ)) (l : List ℕ) : ∀ index, (∀ j ∈ index :: l, j < p.size) →
    leftmostLoop p index l = .ok (pick (fun j => (p.get j).x) index l) := by
  induction l with
  | nil => intro i _; rfl
  | cons j l ih =>
    intro i h
    have hj := h j (by simp)
    have hi := h i (by simp)
    rw [leftmostLoop, Vec.at?_ok hj, ok_bind, Vec.at?_ok hi, ok_bind, pick]
    apply ih
    intro x hx
    rcases List.mem_cons.1 hx with rfl | hx
    · split_ifs <;> assumption
    · exact h x (by simp [hx])

theorem furthestLoop_ok (p : Vec (Pt ℝ)) {c : ℕ} (hc : c < p.size) (l : List ℕ) :
    ∀ index, (∀ j ∈ index :: l, j < p.size) →
    furthestLoop p c index l = .ok (pick (fun j => -((p.get j).sub (p.get c)).norm) index l) := by
  induction l with
  | nil => intro i _; rfl
  | cons j l ih =>
    intro i h
    have hj := h j (by simp)
    have hi := h i (by simp)
    rw [furthestLoop, Vec.at?_ok hj, ok_bind, Vec.at?_ok hi, ok_bind, Vec.at?_ok hc, ok_bind, pick]
    simp only [neg_lt_neg_iff]
    apply ih
    intro x hx
    rcases List.mem_cons.1 hx with rfl | hx
    · split_ifs <;> assumption
    · exact h x (by simp [hx])

/-- Table of the lowest points after `k` iterations. -/
structure LowTab (p : Vec (Pt ℝ)) (k h : ℕ) (l : List ℕ) : Prop where
  le : ∀ j ∈ h :: l, j ≤ k
  sorted : (h :: l).Pairwise (· ≤ ·)
  low : ∀ j ≤ k, (p.get h).y ≤ (p.get j).y
  early : ∀ j < h, (p.get h).y < (p.get j).y
  close : ∀ j ∈ l, |(p.get j).y - (p.get h).y| < EPS
  all : ∀ j ≤ k, (p.get j).y = (p.get h).y → j ∈ h :: l

theorem lowestLoop_ok (p : Vec (Pt ℝ)) (k : ℕ) (hk : k < p.size) :
    ∃ h l, lowestLoop p k = .ok (h :: l) ∧ LowTab p k h l := by
  induction k with
  | zero =>
    refine ⟨0, [], rfl, ⟨by simp, by simp, ?_, by simp, by simp, by simp⟩⟩
    intro j hj
    rw [Nat.le_zero.1 hj]
  | succ k ih =>
    obtain ⟨h, l, e, t⟩ := ih (by omega)
    have hh : h ≤ k := t.le h (by simp)
    rw [lowestLoop, e, ok_bind, first?, ok_bind, Vec.at?_ok hk, ok_bind, Vec.at?_ok (by omega), ok_bind]
    by_cases c1 : (p.get (k + 1)).y < (p.get h).y
    · rw [if_pos c1]
      have lt : ∀ j ≤ k, (p.get (k + 1)).y < (p.get j).y := fun j hj => c1.trans_le (t.low j hj)
      refine ⟨k + 1, [], rfl, ⟨by simp, by simp, ?_, ?_, by simp, ?_⟩⟩
      · intro j hj
        rcases Nat.lt_or_eq_of_le hj with h | rfl
        · exact (lt j (by omega)).le
        · exact le_rfl
      · exact fun j hj => lt j (by omega)
      · intro j hj he
        rcases Nat.lt_or_eq_of_le hj with h | rfl
        · exact absurd he (lt j (by omega)).ne'
        · simp
    · rw [if_neg c1]
      have low' : ∀ j ≤ k + 1, (p.get h).y ≤ (p.get j).y := by
        intro j hj
        rcases Nat.lt_or_eq_of_le hj with h | rfl
        · exact t.low j (by omega)
        · exact not_lt.1 c1
      by_cases c2 : |(p.get (k + 1)).y - (p.get h).y| < EPS
      · rw [if_pos c2]
        refine ⟨h, l ++ [k + 1], rfl, ⟨?_, ?_, low', t.early, ?_, ?_⟩⟩
        · intro j hj
          rcases List.mem_cons.1 hj with rfl | hj
          · omega
          · rcases List.mem_append.1 hj with hj | hj
            · have := t.le j (by simp [hj]); omega
            · simp at hj; omega
        · rw [← List.cons_append]
          refine List.pairwise_append.2 ⟨t.sorted, by simp, ?_⟩
          intro a ha b hb
          have := t.le a ha
          simp at hb; omega
        · intro j hj
          rcases List.mem_append.1 hj with hj | hj
          · exact t.close j hj
          · simp at hj; rw [hj]; exact c2
        · intro j hj he
          rcases Nat.lt_or_eq_of_le hj with hlt | rfl
          · have := t.all j (by omega) he
            rw [← List.cons_append]; exact List.mem_append_left _ this
          · simp
      · rw [if_neg c2]
        refine ⟨h, l, rfl, ⟨fun j hj => (t.le j hj).trans (by omega), t.sorted, low', t.early, t.close, ?_⟩⟩
        intro j hj he
        rcases Nat.lt_or_eq_of_le hj with hlt | rfl
        · exact t.all j (by omega) he
        · exfalso; apply c2; rw [he, sub_self, abs_zero]; exact EPS_pos

/-- The starting point: lowest, then leftmost, then first. -/
structure Start (p : Vec (Pt ℝ)) (s : ℕ) : Prop where
  low : ∀ j < p.size, (p.get s).y ≤ (p.get j).y
  left : ∀ j < p.size, (p.get j).y = (p.get s).y → (p.get s).x ≤ (p.get j).x
  first : ∀ j < p.size, p.get j = p.get s → s ≤ j

theorem lowestLeftmost_ok (p : Vec (Pt ℝ)) (hn : 0 < p.size) :
    ∃ s, lowestLeftmost p = .ok s ∧ s < p.size ∧
      ((∀ i < p.size, (∀ j < p.size, (p.get i).y ≤ (p.get j).y) → ∀ j < p.size,
        (p.get j).y = (p.get i).y ∨ EPS < (p.get j).y - (p.get i).y) → Start p s) := by
  obtain ⟨h, l, e, t⟩ := lowestLoop_ok p (p.size - 1) (by omega)
  have hr : ∀ j ∈ h :: l, j < p.size := fun j hj => by have := t.le j hj; omega
  have hm := pick_mem (fun j => (p.get j).x) l h
  refine ⟨pick (fun j => (p.get j).x) h l, ?_, hr _ hm, fun hs => ?_⟩
  · rw [lowestLeftmost, e, ok_bind, first?, ok_bind, List.tail_cons, leftmostLoop_ok p l h hr, ok_bind,
      require_pos (hr _ hm), ok_bind]
    rfl
  · have hlow : ∀ j < p.size, (p.get h).y ≤ (p.get j).y := fun j hj => t.low j (by omega)
    have hy : ∀ j ∈ h :: l, (p.get j).y = (p.get h).y := by
      intro j hj
      rcases List.mem_cons.1 hj with rfl | hj'
      · rfl
      · rcases hs h (hr h (by simp)) hlow j (hr j hj) with h1 | h1
        · exact h1
        · exact absurd (t.close j hj') (not_lt.2 (h1.le.trans (le_abs_self _)))
    have hys := hy _ hm
    refine ⟨?_, ?_, ?_⟩
    · intro j hj; rw [hys]; exact hlow j hj
    · intro j hj he
      rw [hys] at he
      exact pick_le (fun j => (p.get j).x) l h j (t.all j (by omega) he)
    · intro j hj he
      have hmem := t.all j (by omega) (by rw [he, hys])
      exact pick_first (fun j => (p.get j).x) l h t.sorted j hmem (congrArg Pt.x he)

/-- Table of the points of smallest angle after `k` iterations: `ang` is the angle, `cand` the
candidates, `e` the arbitrary first candidate. -/
structure AngTab (ang : ℕ → ℝ) (cand : ℕ → Prop) (k h : ℕ) (l : List ℕ) : Prop where
  sorted : (h :: l).Pairwise (· ≤ ·)
  le : ∀ j ∈ h :: l, j ≤ k ∨ j = 1
  isCand : ∀ j ∈ h :: l, cand j
  small : ∀ j ≤ k, cand j → ang h ≤ ang j
  eq : ∀ j ∈ h :: l, ang j = ang h
  all : ∀ j ≤ k, cand j → ang j = ang h → j ∈ h :: l

theorem isApprox_self (a : Pt ℝ) : a.isApprox a := by
  unfold Pt.isApprox
  rw [min_self, show (a.sub a).normSq = 0 by unfold Pt.sub Pt.normSq; simp]
  exact mul_nonneg (mul_self_nonneg _) a.normSq_nonneg

theorem angleLoop_ok (δ : ℝ) (p : Vec (Pt ℝ)) (h2 : 2 ≤ p.size) {c : ℕ} (hc : c < p.size)
    (last : Pt ℝ) (k : ℕ) (hk : k < p.size) :
    ∃ h l, angleLoop δ p c last k = .ok (h :: l) ∧ (∀ j ∈ h :: l, j < p.size) ∧
      ((∀ i < p.size, ∀ j < p.size, ¬ (p.get i).isApprox (p.get c) → ¬ (p.get j).isApprox (p.get c) →
        |angleBetweenVecs δ ((p.get c).sub last) ((p.get i).sub (p.get c)) -
          angleBetweenVecs δ ((p.get c).sub last) ((p.get j).sub (p.get c))| < EPS →
        angleBetweenVecs δ ((p.get c).sub last) ((p.get i).sub (p.get c)) =
          angleBetweenVecs δ ((p.get c).sub last) ((p.get j).sub (p.get c))) →
       (¬ (p.get (if c ≠ 0 then 0 else 1)).isApprox (p.get c)) →
       AngTab (fun j => angleBetweenVecs δ ((p.get c).sub last) ((p.get j).sub (p.get c)))
        (fun j => ¬ (p.get j).isApprox (p.get c)) k h l) := by
  induction k with
  | zero =>
    refine ⟨if c ≠ 0 then 0 else 1, [], rfl, ?_, fun _ he => ⟨by simp, ?_, by simpa using he, ?_, by simp, ?_⟩⟩
    · intro j hj
      simp only [List.mem_singleton] at hj
      rw [hj]; split_ifs <;> omega
    · intro j hj
      simp only [List.mem_singleton] at hj
      rw [hj]; split_ifs <;> simp
    · intro j hj hcj
      rw [Nat.le_zero.1 hj] at hcj ⊢
      by_cases h0 : c = 0
      · exact absurd (isApprox_self _) (by rw [h0] at hcj; exact hcj)
      · rw [if_pos h0]
    · intro j hj hcj _
      rw [Nat.le_zero.1 hj] at hcj ⊢
      by_cases h0 : c = 0
      · exact absurd (isApprox_self _) (by rw [h0] at hcj; exact hcj)
      · rw [if_pos h0]; simp
  | succ k ih =>
    obtain ⟨h, l, e, hr, t⟩ := ih (by omega)
    have hh := hr h (by simp)
    rw [angleLoop, e, ok_bind, Vec.at?_ok hk, ok_bind, Vec.at?_ok hc, ok_bind]
    by_cases ca : (p.get (k + 1)).isApprox (p.get c)
    · rw [if_neg (not_not.2 ca)]
      refine ⟨h, l, rfl, hr, fun hx he => ?_⟩
      have t := t hx he
      refine ⟨t.sorted, ?_, t.isCand, ?_, t.eq, ?_⟩
      · intro j hj; rcases t.le j hj with h | h
        · left; omega
        · right; exact h
      · intro j hj hcj
        rcases Nat.lt_or_eq_of_le hj with h | rfl
        · exact t.small j (by omega) hcj
        · exact absurd ca hcj
      · intro j hj hcj
        rcases Nat.lt_or_eq_of_le hj with h | rfl
        · exact t.all j (by omega) hcj
        · exact absurd ca hcj
    · rw [if_pos ca, first?, ok_bind, Vec.at?_ok hh, ok_bind]
      simp only
      by_cases c1 : angleBetweenVecs δ ((p.get c).sub last) ((p.get (k + 1)).sub (p.get c)) <
          angleBetweenVecs δ ((p.get c).sub last) ((p.get h).sub (p.get c))
      · rw [if_pos c1]
        refine ⟨k + 1, [], rfl, by simpa using hk, fun hx he => ?_⟩
        have t := t hx he
        refine ⟨by simp, by simp, by simpa using ca, ?_, by simp, ?_⟩
        · intro j hj hcj
          rcases Nat.lt_or_eq_of_le hj with h | rfl
          · exact c1.le.trans (t.small j (by omega) hcj)
          · exact le_rfl
        · intro j hj hcj he
          rcases Nat.lt_or_eq_of_le hj with h | rfl
          · exact absurd he (c1.trans_le (t.small j (by omega) hcj)).ne'
          · simp
      · rw [if_neg c1]
        by_cases c2 : |angleBetweenVecs δ ((p.get c).sub last) ((p.get (k + 1)).sub (p.get c)) -
          angleBetweenVecs δ ((p.get c).sub last) ((p.get h).sub (p.get c))| < EPS
        · rw [if_pos c2]
          refine ⟨h, l ++ [k + 1], rfl, ?_, fun hx he => ?_⟩
          · rw [← List.cons_append]
            intro j hj
            rcases List.mem_append.1 hj with hj | hj
            · exact hr j hj
            · simp at hj; omega
          · have t := t hx he
            have hch := t.isCand h (by simp)
            refine ⟨?_, ?_, ?_, ?_, ?_, ?_⟩
            · rw [← List.cons_append]
              refine List.pairwise_append.2 ⟨t.sorted, by simp, ?_⟩
              intro a ha b hb
              simp at hb
              rcases t.le a ha with h | h <;> omega
            · rw [← List.cons_append]
              intro j hj
              rcases List.mem_append.1 hj with hj | hj
              · rcases t.le j hj with h | h
                · left; omega
                · right; exact h
              · simp at hj; left; omega
            · rw [← List.cons_append]
              intro j hj
              rcases List.mem_append.1 hj with hj | hj
              · exact t.isCand j hj
              · simp at hj; rw [hj]; exact ca
            · intro j hj hcj
              rcases Nat.lt_or_eq_of_le hj with h | rfl
              · exact t.small j (by omega) hcj
              · exact not_lt.1 c1
            · rw [← List.cons_append]
              intro j hj
              rcases List.mem_append.1 hj with hj | hj
              · exact t.eq j hj
              · simp only [List.mem_singleton] at hj; rw [hj]; exact hx _ hk _ hh ca hch c2
            · rw [← List.cons_append]
              intro j hj hcj he
              rcases Nat.lt_or_eq_of_le hj with h | rfl
              · exact List.mem_append_left _ (t.all j (by omega) hcj he)
              · simp
        · rw [if_neg c2]
          refine ⟨h, l, rfl, hr, fun hx he => ?_⟩
          have t := t hx he
          refine ⟨t.sorted, ?_, t.isCand, ?_, t.eq, ?_⟩
          · intro j hj; rcases t.le j hj with h | h
            · left; omega
            · right; exact h
          · intro j hj hcj
            rcases Nat.lt_or_eq_of_le hj with h | rfl
            · exact t.small j (by omega) hcj
            · exact not_lt.1 c1
          · intro j hj hcj he
            rcases Nat.lt_or_eq_of_le hj with h | rfl
            · exact t.all j (by omega) hcj he
            · exfalso; apply c2
              rw [he, sub_self, abs_zero]; exact EPS_pos

/-- `getIndexOfSmallestAngleVertice` stays in the list when there are two points. -/
theorem smallestAngle_range (δ : ℝ) (p : Vec (Pt ℝ)) (h2 : 2 ≤ p.size) {c : ℕ} (hc : c < p.size)
    (last : Pt ℝ) : ∃ k, smallestAngle δ p c last = .ok k ∧ k < p.size := by
  obtain ⟨h, l, e, hr, -⟩ := angleLoop_ok δ p h2 hc last (p.size - 1) (by omega)
  refine ⟨_, ?_, hr _ (pick_mem (fun j => -((p.get j).sub (p.get c)).norm) l h)⟩
  rw [smallestAngle, e, ok_bind, first?, ok_bind, List.tail_cons, furthestLoop_ok p hc l h hr]

/-- The march either ends or its assertion fails. -/
theorem marchLoop_range (δ : ℝ) (p : Vec (Pt ℝ)) (h2 : 2 ≤ p.size) (fuel : ℕ) :
    ∀ (out : List (Pt ℝ)) (index : ℕ), out ≠ [] → index < p.size → out.length ≤ p.size + 1 →
      p.size + 2 ≤ fuel + out.length →
      (∃ l, marchLoop δ p fuel out index = .ok l) ∨
        marchLoop δ p fuel out index = .error .assertFail := by
  induction fuel with
  | zero => intro out index _ _ h1 h2; omega
  | succ fuel ih =>
    intro out index hne hi hl hf
    obtain ⟨s, es, -⟩ := lowestLeftmost_ok p (by omega)
    rw [marchLoop, es, ok_bind]
    by_cases hs : index = s
    · rw [if_pos hs]; left; exact ⟨out, rfl⟩
    · rw [if_neg hs]
      by_cases hlen : out.length ≤ p.size
      · rw [require_pos hlen, ok_bind, Vec.at?_ok hi, ok_bind]
        obtain ⟨a, ha⟩ : ∃ a, out.getLast? = some a := by
          rw [List.getLast?_eq_getLast_of_ne_nil hne]; exact ⟨_, rfl⟩
        rw [ha]
        simp only [ok_bind]
        obtain ⟨k, ek, hk⟩ := smallestAngle_range δ p h2 hi a
        rw [ek, ok_bind]
        exact ih _ _ (by simp) hk (by simp; omega) (by simp; omega)
      · rw [require_neg hlen]; right; rfl

end MPC
