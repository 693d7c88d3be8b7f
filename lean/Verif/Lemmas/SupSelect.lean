import Verif.Lemmas.SupLoop

/-!
# `computeSelectionMatrix`
-/
set_option linter.unusedSectionVars false

namespace MPC

variable {K : Type} [Field K] [LinearOrder K]

/-- The timeline consists of the phases `0 .. P` of the sequence. -/
structure Sup.IsTL (s : Sup K) (f : Phase K) : Prop where
  len : s.timeline.length = (s.sched f.type s.N).1 + 1
  get : ∀ i ≤ (s.sched f.type s.N).1, s.timeline[i]? = some (s.phaseAt f i)
  M : s.M = s.ssCount f.type (s.sched f.type s.N).1

/-- No phase ends exactly `EPS` after a sampling instant of the horizon. -/
structure Sup.Generic (s : Sup K) (t : PhaseType) : Prop where
  cur : ∀ i : ℕ, 1 ≤ i → i ≤ s.N → s.ttnp ≠ i * s.T + EPS
  pos : ∀ k, 1 ≤ k → k ≤ (s.sched t s.N).1 → EPS < s.durAt t k
  next : ∀ k, 1 ≤ k → k ≤ (s.sched t s.N).1 → ∀ i : ℕ, 1 ≤ i → i ≤ s.N →
    s.durAt t k ≠ i * s.T + EPS

/-- Phase of the sample `r`. -/
abbrev Sup.smp (s : Sup K) (t : PhaseType) (r : ℕ) : ℕ := (s.sched t (r + 1)).1

/-- First sample of the phase `p`. -/
abbrev Sup.row (s : Sup K) (t : PhaseType) (p : ℕ) : ℕ := schedStart s.T (s.durAt t) s.N p - 1

/-- The first `r` rows are filled. -/
structure SelInv (s : Sup K) (t : PhaseType) (r : ℕ) (l : SelState K) : Prop where
  v0r : l.V0.rows = s.N
  v0c : l.V0.cols = 1
  vr : l.V.rows = s.N
  vc : l.V.cols = s.M
  ir : l.phaseIdx.size = s.N
  row : l.row = r
  v0 : ∀ i j, l.V0.get i j = if i < r ∧ s.ssCount t (s.smp t i) = 0 ∧ j = 0 then 1 else 0
  v : ∀ i j, l.V.get i j = if i < r ∧ s.ssCount t (s.smp t i) = j + 1 then 1 else 0
  idx : ∀ i < r, l.phaseIdx.get i = s.smp t i
  idx0 : ∀ i, r ≤ i → l.phaseIdx.get i = 0

theorem Mat.set?_ok {A : Mat K} {i j : ℕ} {x : K} (h : i < A.rows ∧ j < A.cols) :
    A.set? i j x = .ok ⟨A.rows, A.cols, fun k l => if k = i ∧ l = j then x else A.get k l⟩ := by
  rw [Mat.set?, requireIndex_pos h, ok_bind, res_pure]

variable [IsStrictOrderedRing K] {s : Sup K} {f : Phase K}

theorem Sup.smp_le (r : ℕ) (hr : r < s.N) : s.smp f.type r ≤ (s.sched f.type s.N).1 :=
  sched_mono (by omega)

theorem Sup.start_pos (hR : EPS ≤ s.ttnp) {p : ℕ} (hp : 1 ≤ p) :
    0 < schedStart s.T (s.durAt f.type) s.N p := by
  rw [lt_schedStart (Nat.zero_le _), sched_zero hR]
  exact hp

theorem Sup.start_top : schedStart s.T (s.durAt f.type) s.N ((s.sched f.type s.N).1 + 1) =
    s.N + 1 := by
  unfold schedStart
  rw [Finset.filter_true_of_mem, Finset.card_range]
  intro j hj
  rw [Finset.mem_range] at hj
  exact Nat.lt_succ_of_le (sched_mono (by omega))

theorem Sup.start_le (p : ℕ) : schedStart s.T (s.durAt f.type) s.N p ≤ s.N + 1 := by
  unfold schedStart
  exact (Finset.card_filter_le _ _).trans (by simp)

theorem Sup.lt_row (hR : EPS ≤ s.ttnp) {p r : ℕ} (hp : 1 ≤ p) (hr : r < s.N) :
    r < s.row f.type p ↔ s.smp f.type r < p := by
  rw [← lt_schedStart (T := s.T) (dur := s.durAt f.type) (N := s.N) (k := p) (by omega : r + 1 ≤ s.N)]
  unfold Sup.row
  have := Sup.start_pos (f := f) hR hp
  omega

theorem Sup.row_le (p : ℕ) : s.row f.type p ≤ s.N := by
  have := Sup.start_le (s := s) (f := f) p
  unfold Sup.row
  omega

/-- Body of the first loop. -/
theorem Sup.selFirst_ok {l : SelState K} {r : ℕ} (h : SelInv s f.type r l) (hr : r < s.N)
    (h0 : s.smp f.type r = 0) :
    ∃ l', s.selFirst l = .ok l' ∧ SelInv s f.type (r + 1) l' ∧ l'.phaseTimer = l.phaseTimer - s.T ∧
      l'.col = l.col ∧ l'.phase = l.phase ∧ l'.horizon = l.horizon := by
  unfold Sup.selFirst
  rw [Mat.set?_ok (by rw [h.v0r, h.v0c, h.row]; omega), ok_bind, res_pure]
  refine ⟨_, rfl, ⟨h.v0r, h.v0c, h.vr, h.vc, h.ir, ?_, ?_, ?_, ?_, ?_⟩, rfl, rfl, rfl, rfl⟩
  · simp only; rw [h.row]
  · intro i j
    simp only
    rw [h.row, h.v0 i j]
    by_cases hc : i = r ∧ j = 0
    · rw [if_pos hc, if_pos]
      refine ⟨by omega, ?_, hc.2⟩
      rw [hc.1, h0]; rfl
    · rw [if_neg hc]
      congr 1
      apply propext
      constructor
      · rintro ⟨a, b, c⟩; exact ⟨by omega, b, c⟩
      · rintro ⟨a, b, c⟩; exact ⟨by omega, b, c⟩
  · intro i j
    simp only
    rw [h.v i j]
    congr 1
    apply propext
    constructor
    · rintro ⟨a, b⟩; exact ⟨by omega, b⟩
    · rintro ⟨a, b⟩
      refine ⟨?_, b⟩
      rcases Nat.lt_or_ge i r with hi | hi
      · exact hi
      · have : i = r := by omega
        subst this
        rw [h0] at b
        simp [Sup.ssCount] at b
  · intro i hi
    rcases Nat.lt_or_ge i r with hir | hir
    · exact h.idx i hir
    · have : i = r := by omega
      subst this
      rw [h0]; exact h.idx0 i le_rfl
  · intro i hi; exact h.idx0 i (by omega)

theorem Sup.ssCount_eq_zero {t : PhaseType} {p : ℕ} (hp : 1 ≤ p) :
    s.ssCount t p = 0 ↔ (t = .DS ∧ (p = 1 ∨ s.move = false)) := by
  obtain ⟨k, rfl⟩ : ∃ k, p = k + 1 := ⟨p - 1, by omega⟩
  by_cases ht : t = .DS
  · rw [Sup.ssCount_succ_DS ht]
    cases hm : s.move <;> simp [ht]
  · rw [Sup.ssCount_succ_SS ht]
    cases hm : s.move <;> simp [ht]

/-- Body of the inner loop, in the phase of the current row. -/
theorem Sup.selInner_ok {l : SelState K} {r : ℕ} (h : SelInv s f.type r l) (hr : r < s.N)
    (hf : s.timeline[0]? = some f) (hM : s.M = s.ssCount f.type (s.sched f.type s.N).1)
    (h0 : s.smp f.type r = l.phase) (h1 : 1 ≤ l.phase)
    (hcol : l.col = s.ssCount f.type l.phase - 1) :
    ∃ l', s.selInner l = .ok l' ∧ SelInv s f.type (r + 1) l' ∧ l'.phaseTimer = l.phaseTimer - s.T ∧
      l'.col = l.col ∧ l'.phase = l.phase ∧ l'.horizon = l.horizon - s.T := by
  unfold Sup.selInner
  rw [Sup.isInDS_ok hf, ok_bind]
  have hz := Sup.ssCount_eq_zero (s := s) (t := f.type) h1
  have hidx : ∀ i < r + 1, (fun i => if i = r then l.phase else l.phaseIdx.get i) i =
      s.smp f.type i := by
    intro i hi
    by_cases hir : i = r
    · simp only; rw [if_pos hir, hir, h0]
    · simp only; rw [if_neg hir]; exact h.idx i (by omega)
  by_cases hc : f.type = .DS ∧ (l.phase = 1 ∨ s.move = false)
  · have hc' : decide (f.type = .DS) = true ∧ (l.phase = 1 ∨ s.move = false) := by simpa using hc
    have hz := hz.2 hc
    rw [if_pos hc', Mat.set?_ok (by rw [h.v0r, h.v0c, h.row]; omega), ok_bind, res_pure, ok_bind]
    simp only
    rw [Vec.set?_ok (by rw [h.row, h.ir]; omega), ok_bind, res_pure]
    refine ⟨_, rfl, ⟨h.v0r, h.v0c, h.vr, h.vc, h.ir, ?_, ?_, ?_, ?_, ?_⟩, rfl, rfl, rfl, rfl⟩
    · simp only; rw [h.row]
    · intro i j
      simp only
      rw [h.row, h.v0 i j]
      by_cases hc : i = r ∧ j = 0
      · rw [if_pos hc, if_pos]
        refine ⟨by omega, ?_, hc.2⟩
        rw [hc.1, h0]; exact hz
      · rw [if_neg hc]
        congr 1
        apply propext
        constructor
        · rintro ⟨a, b, c⟩; exact ⟨by omega, b, c⟩
        · rintro ⟨a, b, c⟩; exact ⟨by omega, b, c⟩
    · intro i j
      simp only
      rw [h.v i j]
      congr 1
      apply propext
      constructor
      · rintro ⟨a, b⟩; exact ⟨by omega, b⟩
      · rintro ⟨a, b⟩
        refine ⟨?_, b⟩
        rcases Nat.lt_or_ge i r with hi | hi
        · exact hi
        · have : i = r := by omega
          subst this
          rw [h0, hz] at b
          omega
    · simp only [h.row]; exact hidx
    · intro i hi
      simp only [h.row]
      rw [if_neg (by omega)]
      exact h.idx0 i (by omega)
  · have hc' : ¬ (decide (f.type = .DS) = true ∧ (l.phase = 1 ∨ s.move = false)) := by simpa using hc
    have hz : s.ssCount f.type l.phase ≠ 0 := fun h => hc (hz.1 h)
    have hle : s.ssCount f.type l.phase ≤ s.M := by
      rw [hM, ← h0]; exact Sup.ssCount_mono _ _ (Sup.smp_le r hr)
    rw [if_neg hc', Mat.set?_ok (by rw [h.vr, h.vc, h.row, hcol]; omega), ok_bind, res_pure, ok_bind]
    simp only
    rw [Vec.set?_ok (by rw [h.row, h.ir]; omega), ok_bind, res_pure]
    refine ⟨_, rfl, ⟨h.v0r, h.v0c, h.vr, h.vc, h.ir, ?_, ?_, ?_, ?_, ?_⟩, rfl, rfl, rfl, rfl⟩
    · simp only; rw [h.row]
    · intro i j
      simp only
      rw [h.v0 i j]
      congr 1
      apply propext
      constructor
      · rintro ⟨a, b, c⟩; exact ⟨by omega, b, c⟩
      · rintro ⟨a, b, c⟩
        refine ⟨?_, b, c⟩
        rcases Nat.lt_or_ge i r with hi | hi
        · exact hi
        · have : i = r := by omega
          subst this
          rw [h0] at b
          exact absurd b hz
    · intro i j
      simp only
      rw [h.row, h.v i j]
      by_cases hc : i = r ∧ j = l.col
      · rw [if_pos hc, if_pos]
        refine ⟨by omega, ?_⟩
        rw [hc.1, h0, hc.2, hcol]; omega
      · rw [if_neg hc]
        congr 1
        apply propext
        constructor
        · rintro ⟨a, b⟩; exact ⟨by omega, b⟩
        · rintro ⟨a, b⟩
          refine ⟨?_, b⟩
          rcases Nat.lt_or_ge i r with hi | hi
          · exact hi
          · have : i = r := by omega
            subst this
            rw [h0] at b
            exact absurd ⟨rfl, by omega⟩ hc
    · simp only [h.row]; exact hidx
    · intro i hi
      simp only [h.row]
      rw [if_neg (by omega)]
      exact h.idx0 i (by omega)

/-- One phase of the outer loop. -/
theorem Sup.selOuter_ok {l : SelState K} {p : ℕ} (hR : EPS ≤ s.ttnp) (htl : s.IsTL f)
    (hg : s.Generic f.type) (hp : 1 ≤ p) (hpP : p ≤ (s.sched f.type s.N).1)
    (h : SelInv s f.type (s.row f.type p) l) (hph : l.phase = p)
    (hcol : l.col = s.ssCount f.type p - 1) :
    ∃ l', s.selOuter l = .ok l' ∧ SelInv s f.type (s.row f.type (p + 1)) l' ∧
      l'.phase = p + 1 ∧ l'.col = s.ssCount f.type (p + 1) - 1 ∧
      l'.horizon = l.horizon - ((s.row f.type (p + 1) - s.row f.type p : ℕ) : K) * s.T := by
  have hf : s.timeline[0]? = some f := htl.get 0 (Nat.zero_le _)
  have hdur : (s.phaseAt f p).duration = s.durAt f.type p := by
    cases p with
    | zero => omega
    | succ p => rfl
  have hpos := Sup.start_pos (f := f) hR hp
  have hlt : schedStart s.T (s.durAt f.type) s.N p < schedStart s.T (s.durAt f.type) s.N (p + 1) := by
    rw [lt_schedStart (schedStart_le hpP), sched_schedStart hR hpP]
    exact Nat.lt_succ_self p
  have hle := Sup.start_le (s := s) (f := f) (p + 1)
  unfold Sup.selOuter
  have hat : listAt s.timeline l.phase = .ok (s.phaseAt f p) := by
    rw [hph]; exact listAt_of_get? (htl.get p hpP)
  rw [hat, ok_bind, hdur]
  obtain ⟨l', hl, h1, h2, h3, h4, h5⟩ := whileLoop_inv
    (cond := fun l : SelState K => EPS < l.phaseTimer ∧ l.row < s.N) (body := s.selInner)
    (fun i (l' : SelState K) => SelInv s f.type (s.row f.type p + i) l' ∧
      l'.phaseTimer = s.durAt f.type p - i * s.T ∧ l'.col = l.col ∧ l'.phase = l.phase ∧
      l'.horizon = l.horizon - i * s.T)
    (s.row f.type (p + 1) - s.row f.type p)
    (s := { l with phaseTimer := s.durAt f.type p })
    ⟨⟨h.v0r, h.v0c, h.vr, h.vc, h.ir, h.row, h.v0, h.v, h.idx, h.idx0⟩, by simp, rfl, rfl, by simp⟩
    (by
      rintro i l' hi ⟨a1, a2, a3, a4, a5⟩
      have hr : s.row f.type p + i < s.N := by
        have := Sup.row_le (s := s) (f := f) (p + 1); omega
      have hsm : s.smp f.type (s.row f.type p + i) = p := by
        refine le_antisymm ?_ ?_
        · have := (Sup.lt_row (f := f) hR (by omega : 1 ≤ p + 1) hr).1 (by omega)
          omega
        · by_contra hc
          have := (Sup.lt_row (f := f) hR hp hr).2 (not_le.1 hc)
          omega
      refine ⟨⟨?_, by rw [a1.row]; exact hr⟩, ?_⟩
      · rw [a2]
        rcases Nat.eq_zero_or_pos i with hi0 | hi0
        · subst hi0; simpa using hg.pos p hp hpP
        · have hj : schedStart s.T (s.durAt f.type) s.N p + i ≤ s.N := by
            unfold Sup.row at hr; omega
          have := sched_running (T := s.T) (dur := s.durAt f.type) (N := s.N) (k := p)
            (j := schedStart s.T (s.durAt f.type) s.N p + i) hR hj (by omega) (by
              have e : schedStart s.T (s.durAt f.type) s.N p + i = s.row f.type p + i + 1 := by
                unfold Sup.row; omega
              rw [e]; exact hsm)
          rw [Nat.add_sub_cancel_left] at this
          refine lt_of_le_of_ne this fun he => hg.next p hp hpP i hi0 (by omega) ?_
          rw [he]; ring
      · obtain ⟨l'', b1, b2, b3, b4, b5, b6⟩ := Sup.selInner_ok a1 hr hf htl.M
          (by rw [hsm, a4, hph]) (by rw [a4, hph]; exact hp) (by rw [a3, a4, hph, hcol])
        refine ⟨l'', b1, by rw [Nat.add_assoc] at b2; exact b2, ?_, by rw [b4, a3], by rw [b5, a4],
          ?_⟩
        · rw [b3, a2]; push_cast; ring
        · rw [b6, a5]; push_cast; ring)
    (by
      rintro l' ⟨a1, a2, a3, a4, a5⟩ ⟨c1, c2⟩
      rw [a1.row] at c2
      rw [a2] at c1
      have hpP' : p + 1 ≤ (s.sched f.type s.N).1 := by
        by_contra hc
        have : p = (s.sched f.type s.N).1 := by omega
        have ht := Sup.start_top (s := s) (f := f)
        rw [← this] at ht
        unfold Sup.row at c2
        omega
      have := sched_over hR hpP'
      have e : s.row f.type (p + 1) - s.row f.type p =
        schedStart s.T (s.durAt f.type) s.N (p + 1) - schedStart s.T (s.durAt f.type) s.N p := by
        unfold Sup.row; omega
      rw [← e] at this
      exact absurd c1 (not_lt.2 (le_of_lt this)))
  rw [hl, ok_bind, Sup.isInDS_ok hf, ok_bind, res_pure]
  have hrow : s.row f.type p + (s.row f.type (p + 1) - s.row f.type p) = s.row f.type (p + 1) := by
    unfold Sup.row; omega
  rw [hrow] at h1
  refine ⟨_, rfl, ⟨h1.v0r, h1.v0c, h1.vr, h1.vc, h1.ir, h1.row, h1.v0, h1.v, h1.idx, h1.idx0⟩, ?_,
    ?_, ?_⟩
  · simp only; rw [h4, hph]
  · simp only
    rw [h3, h4, hph, hcol]
    obtain ⟨k, rfl⟩ : ∃ k, p = k + 1 := ⟨p - 1, by omega⟩
    by_cases ht : f.type = .DS
    · rw [Sup.ssCount_succ_DS ht, Sup.ssCount_succ_DS ht]
      cases hm : s.move
      · simp
      · simp only [ht, decide_true, Bool.true_eq_false, false_or, true_and, if_true]
        split <;> omega
    · rw [Sup.ssCount_succ_SS ht, Sup.ssCount_succ_SS ht]
      cases hm : s.move
      · simp
      · simp [ht]
  · simp only; rw [h5]

/-- The rows of the selection matrices. -/
theorem Sup.selection_ok (hN : 0 < s.N) (hT : EPS ≤ s.T) (hR : EPS ≤ s.ttnp) (htl : s.IsTL f)
    (hg : s.Generic f.type) :
    ∃ V0 V idx, s.selection = .ok { s with V0 := V0, V := V, VT := V.transpose, phaseIdx := idx } ∧
      V0.rows = s.N ∧ V0.cols = 1 ∧ V.rows = s.N ∧ V.cols = s.M ∧ idx.size = s.N ∧
      (∀ r < s.N, V0.get r 0 = if s.ssCount f.type (s.smp f.type r) = 0 then 1 else 0) ∧
      (∀ r < s.N, ∀ c, V.get r c = if s.ssCount f.type (s.smp f.type r) = c + 1 then 1 else 0) ∧
      (∀ r < s.N, idx.get r = s.smp f.type r) := by
  have h1 := Sup.start_pos (f := f) hR le_rfl
  have h2 := Sup.start_le (s := s) (f := f) 1
  have hT0 : 0 < s.T := lt_of_lt_of_le EPS_pos hT
  unfold Sup.selection
  rw [require_pos hN, ok_bind]
  simp only
  obtain ⟨l, hl, a1, a2, a3, a4⟩ := whileLoop_inv
    (cond := fun l : SelState K => s.T + EPS < l.phaseTimer ∧ l.row < s.N) (body := s.selFirst)
    (fun i (l : SelState K) => SelInv s f.type i l ∧ l.phaseTimer = s.ttnp - i * s.T ∧
      l.col = 0 ∧ l.phase = 1)
    (s.row f.type 1)
    (s := ⟨Mat.zero s.N 1, Mat.zero s.N s.M, Vec.const s.N 0, 0, 0, 1, s.ttnp, 0⟩)
    ⟨⟨rfl, rfl, rfl, rfl, rfl, rfl, by intro i j; simp [Mat.zero], by intro i j; simp [Mat.zero],
      by intro i hi; omega, by intro i _; rfl⟩, by simp, rfl, rfl⟩
    (by
      rintro i l hi ⟨b1, b2, b3, b4⟩
      have hr : i < s.N := by have := Sup.row_le (s := s) (f := f) 1; omega
      have hsm : s.smp f.type i = 0 := by
        have := (Sup.lt_row (f := f) hR le_rfl hr).1 hi
        omega
      refine ⟨⟨?_, by rw [b1.row]; exact hr⟩, ?_⟩
      · rw [b2]
        have := sched_running (T := s.T) (dur := s.durAt f.type) (N := s.N) (k := 0)
          (j := i + 1) hR hr (by rw [schedStart_zero]; omega) hsm
        rw [schedStart_zero, Nat.sub_zero] at this
        have hne : EPS ≠ s.ttnp - ((i + 1 : ℕ) : K) * s.T := fun he =>
          hg.cur (i + 1) (by omega) hr (by rw [he]; ring)
        have := lt_of_le_of_ne this hne
        simp only [Sup.durAt] at this
        push_cast at this
        linarith
      · obtain ⟨l', c1, c2, c3, c4, c5, c6⟩ := Sup.selFirst_ok b1 hr hsm
        exact ⟨l', c1, c2, by rw [c3, b2]; push_cast; ring, by rw [c4, b3], by rw [c5, b4]⟩)
    (by
      rintro l ⟨b1, b2, b3, b4⟩ ⟨c1, c2⟩
      rw [b1.row] at c2
      rw [b2] at c1
      have hP : 0 + 1 ≤ (s.sched f.type s.N).1 := by
        by_contra hc
        have h0 : (s.sched f.type s.N).1 = 0 := by omega
        have ht := Sup.start_top (s := s) (f := f)
        rw [h0] at ht
        unfold Sup.row at c2
        simp only [Nat.zero_add] at ht
        omega
      have := sched_over hR hP
      rw [schedStart_zero, Nat.sub_zero] at this
      simp only [Sup.durAt, Nat.zero_add] at this
      have e : schedStart s.T (s.durAt f.type) s.N 1 = s.row f.type 1 + 1 := by
        unfold Sup.row; omega
      rw [e] at this
      push_cast at this
      linarith)
  rw [hl, ok_bind]
  -- the time between the last sample of the current phase and its end
  have hlow : EPS ≤ s.ttnp - (s.row f.type 1 : K) * s.T := by
    rcases Nat.eq_zero_or_pos (s.row f.type 1) with h0 | h0
    · rw [h0]; simpa using hR
    · have hle : s.row f.type 1 ≤ s.N := Sup.row_le 1
      have h3 : (s.sched f.type (s.row f.type 1)).1 = 0 := by
        have : s.row f.type 1 < schedStart s.T (s.durAt f.type) s.N 1 := by
          unfold Sup.row; omega
        have := (lt_schedStart hle).1 this
        exact Nat.lt_one_iff.1 this
      have := sched_running (T := s.T) (dur := s.durAt f.type) (N := s.N) (k := 0)
        (j := s.row f.type 1) hR hle (by rw [schedStart_zero]; exact h0) h3
      rw [schedStart_zero, Nat.sub_zero] at this
      exact this
  obtain ⟨l', hl', b1, b2, b3, b4⟩ := whileLoop_inv
    (cond := fun l : SelState K => -EPS < l.horizon) (body := s.selOuter)
    (fun i (l : SelState K) => SelInv s f.type (s.row f.type (i + 1)) l ∧ l.phase = i + 1 ∧
      l.col = s.ssCount f.type (i + 1) - 1 ∧
      l.horizon = s.N * s.T - s.ttnp -
        ((s.row f.type (i + 1) : K) - (s.row f.type 1 : K)) * s.T)
    (s.sched f.type s.N).1
    (s := { l with horizon := s.N * s.T - s.ttnp })
    ⟨⟨a1.v0r, a1.v0c, a1.vr, a1.vc, a1.ir, a1.row, a1.v0, a1.v, a1.idx, a1.idx0⟩, a4, by
      simp only
      rw [a3]
      have := Sup.ssCount_le s f.type (0 + 1)
      omega, by simp⟩
    (by
      rintro i l' hi ⟨c1, c2, c3, c4⟩
      have hP : i + 1 ≤ (s.sched f.type s.N).1 := hi
      have hlt : s.row f.type (i + 1) < s.row f.type (i + 1 + 1) := by
        have h4 : schedStart s.T (s.durAt f.type) s.N (i + 1) <
            schedStart s.T (s.durAt f.type) s.N (i + 1 + 1) := by
          rw [lt_schedStart (schedStart_le hP), sched_schedStart hR hP]
          exact Nat.lt_succ_self _
        have := Sup.start_pos (f := f) hR (by omega : 1 ≤ i + 1)
        unfold Sup.row; omega
      constructor
      · rw [c4]
        have hov := sched_over (k := 0) hR (by omega : 0 + 1 ≤ (s.sched f.type s.N).1)
        rw [schedStart_zero, Nat.sub_zero] at hov
        simp only [Sup.durAt, Nat.zero_add] at hov
        have e : schedStart s.T (s.durAt f.type) s.N 1 = s.row f.type 1 + 1 := by
          unfold Sup.row; omega
        rw [e] at hov
        push_cast at hov
        have hle : s.row f.type (i + 1) + 1 ≤ s.N := by
          have := Sup.row_le (s := s) (f := f) (i + 1 + 1); omega
        have hle' : (s.row f.type (i + 1) : K) + 1 ≤ (s.N : K) := by exact_mod_cast hle
        nlinarith
      · obtain ⟨l'', d1, d2, d3, d4, d5⟩ := Sup.selOuter_ok hR htl hg (by omega) (by omega) c1 c2 c3
        refine ⟨l'', d1, d2, d3, d4, ?_⟩
        rw [d5, c4, Nat.cast_sub (le_of_lt hlt)]
        ring)
    (by
      rintro l' ⟨c1, c2, c3, c4⟩ hc
      rw [c4] at hc
      have e : s.row f.type ((s.sched f.type s.N).1 + 1) = s.N := by
        unfold Sup.row; rw [Sup.start_top]; rfl
      rw [e] at hc
      nlinarith)
  rw [hl', ok_bind, res_pure]
  have e : s.row f.type ((s.sched f.type s.N).1 + 1) = s.N := by
    unfold Sup.row; rw [Sup.start_top]; rfl
  rw [e] at b1
  refine ⟨l'.V0, l'.V, l'.phaseIdx, rfl, b1.v0r, b1.v0c, b1.vr, b1.vc, b1.ir, ?_, ?_, ?_⟩
  · intro r hr; rw [b1.v0]; simp [hr]
  · intro r hr c; rw [b1.v]; simp [hr]
  · intro r hr; exact b1.idx r hr

end MPC
