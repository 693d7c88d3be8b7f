import Verif.Eigen

/-!
# Phases along the sampling instants

`sched T dur j` is the phase running at the sampling instant `j` and the time it still lasts, when
the phases last `dur 0`, `dur 1`, ... and a phase is left at the first instant where less than
`EPS` remains.
-/
set_option linter.unusedSectionVars false

namespace MPC

variable {K : Type} [Field K] [LinearOrder K]

/-- Leave the phase when it is over. -/
def schedNorm (dur : ℕ → K) (p : ℕ × K) : ℕ × K :=
  if p.2 < EPS then (p.1 + 1, dur (p.1 + 1)) else p

/-- Phase at the sampling instant `j`, and its remaining time. -/
def sched (T : K) (dur : ℕ → K) : ℕ → ℕ × K
  | 0 => schedNorm dur (0, dur 0)
  | j + 1 => schedNorm dur ((sched T dur j).1, (sched T dur j).2 - T)

variable [IsStrictOrderedRing K] {T : K} {dur : ℕ → K}

theorem sched_zero (h : EPS ≤ dur 0) : sched T dur 0 = (0, dur 0) := by
  simp [sched, schedNorm, not_lt.2 h]

theorem sched_mono_succ (j : ℕ) : (sched T dur j).1 ≤ (sched T dur (j + 1)).1 := by
  simp only [sched, schedNorm]; split <;> simp

theorem sched_succ_le (j : ℕ) : (sched T dur (j + 1)).1 ≤ (sched T dur j).1 + 1 := by
  simp only [sched, schedNorm]; split <;> simp

theorem sched_mono {i j : ℕ} (h : i ≤ j) : (sched T dur i).1 ≤ (sched T dur j).1 :=
  monotone_nat_of_le_succ (f := fun j => (sched T dur j).1) sched_mono_succ h

theorem sched_le (h : EPS ≤ dur 0) (j : ℕ) : (sched T dur j).1 ≤ j := by
  induction j with
  | zero => simp [sched_zero h]
  | succ j ih => exact (sched_succ_le j).trans (by omega)

/-- The current phase started at some instant `i`, with its full duration. -/
theorem sched_start (h : EPS ≤ dur 0) (j : ℕ) : ∃ i ≤ j,
    (∀ l, i ≤ l → l ≤ j → (sched T dur l).1 = (sched T dur j).1) ∧
    (∀ l < i, (sched T dur l).1 < (sched T dur j).1) ∧
    ((i = 0 ∧ (sched T dur j).1 = 0) ∨
      (0 < i ∧ (sched T dur j).1 = (sched T dur (i - 1)).1 + 1)) ∧
    (sched T dur j).2 = dur (sched T dur j).1 - ((j - i : ℕ) : K) * T := by
  induction j with
  | zero =>
    refine ⟨0, le_rfl, ?_, ?_, ?_, ?_⟩
    · intro l _ h2; rw [Nat.le_zero.1 h2]
    · intro l hl; omega
    · left; simp [sched_zero h]
    · simp [sched_zero h]
  | succ j ih =>
    obtain ⟨i, hij, h1, h2, h3, h4⟩ := ih
    by_cases hc : (sched T dur j).2 - T < EPS
    · have e : sched T dur (j + 1) = ((sched T dur j).1 + 1, dur ((sched T dur j).1 + 1)) := by
        simp [sched, schedNorm, hc]
      refine ⟨j + 1, le_rfl, ?_, ?_, ?_, ?_⟩
      · intro l a b; rw [le_antisymm b a]
      · intro l hl; rw [e]; exact Nat.lt_succ_of_le (sched_mono (by omega))
      · right; exact ⟨by omega, by rw [e]; simp⟩
      · rw [e]; simp
    · have e : sched T dur (j + 1) = ((sched T dur j).1, (sched T dur j).2 - T) := by
        simp [sched, schedNorm, hc]
      refine ⟨i, by omega, ?_, ?_, ?_, ?_⟩
      · intro l a b
        rcases Nat.lt_or_ge l (j + 1) with hl | hl
        · rw [h1 l a (by omega), e]
        · rw [le_antisymm b hl]
      · intro l hl; rw [e]; exact h2 l hl
      · rw [e]; exact h3
      · rw [e]; simp only
        rw [h4, Nat.succ_sub hij]; push_cast; ring

/-- Number of instants among `0 .. N` before the phase `k`: the instant at which `k` starts. -/
def schedStart (T : K) (dur : ℕ → K) (N k : ℕ) : ℕ :=
  ((Finset.range (N + 1)).filter fun j => (sched T dur j).1 < k).card

theorem lt_schedStart {N k j : ℕ} (hj : j ≤ N) :
    j < schedStart T dur N k ↔ (sched T dur j).1 < k := by
  unfold schedStart
  constructor
  · intro h
    by_contra hc
    have : (Finset.range (N + 1)).filter (fun j => (sched T dur j).1 < k) ⊆ Finset.range j := by
      intro l hl
      rw [Finset.mem_filter] at hl
      rw [Finset.mem_range]
      by_contra hlj
      exact absurd (lt_of_le_of_lt (sched_mono (T := T) (dur := dur) (not_lt.1 hlj)) hl.2) hc
    have := Finset.card_le_card this
    rw [Finset.card_range] at this
    omega
  · intro h
    have : Finset.range (j + 1) ⊆
        (Finset.range (N + 1)).filter (fun j => (sched T dur j).1 < k) := by
      intro l hl
      rw [Finset.mem_range] at hl
      rw [Finset.mem_filter, Finset.mem_range]
      exact ⟨by omega, lt_of_le_of_lt (sched_mono (by omega)) h⟩
    have := Finset.card_le_card this
    rw [Finset.card_range] at this
    omega

theorem schedStart_zero {N : ℕ} : schedStart T dur N 0 = 0 := by
  simp [schedStart]

theorem schedStart_le {N k : ℕ} (hk : k ≤ (sched T dur N).1) : schedStart T dur N k ≤ N := by
  by_contra h
  exact absurd ((lt_schedStart (T := T) (dur := dur) (le_refl N)).1 (not_le.1 h)) (not_lt.2 hk)

/-- The phase `k` is the one running when it starts. -/
theorem sched_schedStart {N k : ℕ} (h : EPS ≤ dur 0) (hk : k ≤ (sched T dur N).1) :
    sched T dur (schedStart T dur N k) = (k, dur k) := by
  have hle := schedStart_le (T := T) (dur := dur) hk
  have h1 : k ≤ (sched T dur (schedStart T dur N k)).1 := by
    by_contra hc
    exact absurd ((lt_schedStart hle).2 (not_le.1 hc)) (lt_irrefl _)
  obtain ⟨i, hi, a, b, c, d⟩ := sched_start (T := T) h (schedStart T dur N k)
  have hi2 : i = schedStart T dur N k := by
    refine le_antisymm hi ?_
    by_contra hc
    have hc := not_le.1 hc
    have := (lt_schedStart (T := T) (dur := dur) (le_trans (le_of_lt hc) hle)).1 hc
    rw [a i le_rfl hi] at this
    omega
  have h2 : (sched T dur (schedStart T dur N k)).1 = k := by
    refine le_antisymm ?_ h1
    rcases c with ⟨c1, c2⟩ | ⟨c1, c2⟩
    · omega
    · rw [c2]
      have hl : i - 1 < schedStart T dur N k := by omega
      have := (lt_schedStart (T := T) (dur := dur) (by omega : i - 1 ≤ N)).1 hl
      omega
  rw [hi2] at d
  simp only [Nat.sub_self, Nat.cast_zero, zero_mul, sub_zero] at d
  rw [h2] at d
  exact Prod.ext h2 d

/-- Remaining time inside of a phase. -/
theorem sched_within {N j : ℕ} (h : EPS ≤ dur 0) (hj : j ≤ N) :
    schedStart T dur N (sched T dur j).1 ≤ j ∧
    (sched T dur j).2 = dur (sched T dur j).1 -
      ((j - schedStart T dur N (sched T dur j).1 : ℕ) : K) * T := by
  obtain ⟨i, hi, a, b, c, d⟩ := sched_start (T := T) h j
  have : schedStart T dur N (sched T dur j).1 = i := by
    refine le_antisymm ?_ ?_
    · by_contra hc
      have := (lt_schedStart (T := T) (dur := dur) (by omega : i ≤ N)).1 (not_le.1 hc)
      rw [a i le_rfl hi] at this
      omega
    · by_contra hc
      have hc := not_le.1 hc
      have h3 := b _ hc
      have h4 := (lt_schedStart (T := T) (dur := dur)
        (by omega : schedStart T dur N (sched T dur j).1 ≤ N)).2 h3
      omega
  rw [this]
  exact ⟨hi, d⟩

theorem schedStart_lt {N k : ℕ} (h : EPS ≤ dur 0) (hk : k + 1 ≤ (sched T dur N).1) :
    schedStart T dur N k < schedStart T dur N (k + 1) := by
  rw [lt_schedStart (schedStart_le (by omega)), sched_schedStart h (by omega)]
  exact Nat.lt_succ_self k

/-- At the instants where a phase runs after its start, at least `EPS` remains. -/
theorem sched_running {N k j : ℕ} (h : EPS ≤ dur 0) (hj : j ≤ N)
    (h1 : schedStart T dur N k < j) (h2 : (sched T dur j).1 = k) :
    EPS ≤ dur k - ((j - schedStart T dur N k : ℕ) : K) * T := by
  obtain ⟨hs, hr⟩ := sched_within (T := T) h hj
  rw [h2] at hs hr
  rw [← hr]
  obtain ⟨i, rfl⟩ : ∃ i, j = i + 1 := ⟨j - 1, by omega⟩
  have h3 : (sched T dur i).1 = k := by
    refine le_antisymm (h2 ▸ sched_mono_succ i) ?_
    by_contra hc
    have := (lt_schedStart (T := T) (dur := dur) (N := N) (by omega)).2 (not_le.1 hc)
    omega
  by_contra hc
  have hc := not_le.1 hc
  simp only [sched, schedNorm] at h2 hc
  split at h2
  · simp only at h2; omega
  · rename_i hn
    rw [if_neg hn] at hc
    exact hn hc

/-- A phase that is left was over at the first instant of the next one. -/
theorem sched_over {N k : ℕ} (h : EPS ≤ dur 0) (hk : k + 1 ≤ (sched T dur N).1) :
    dur k - ((schedStart T dur N (k + 1) - schedStart T dur N k : ℕ) : K) * T < EPS := by
  have hlt := schedStart_lt h hk
  have hle := schedStart_le (T := T) (dur := dur) hk
  obtain ⟨i, hi⟩ : ∃ i, schedStart T dur N (k + 1) = i + 1 :=
    ⟨schedStart T dur N (k + 1) - 1, by omega⟩
  have h1 : (sched T dur i).1 = k := by
    refine le_antisymm ?_ ?_
    · have := (lt_schedStart (T := T) (dur := dur) (N := N) (k := k + 1) (j := i) (by omega)).1
        (by omega)
      omega
    · by_contra hc
      have := (lt_schedStart (T := T) (dur := dur) (N := N) (by omega)).2 (not_le.1 hc)
      omega
  have h2 := sched_schedStart h hk
  rw [hi] at h2
  obtain ⟨hs, hr⟩ := sched_within (T := T) (N := N) h (by omega : i ≤ N)
  rw [h1] at hs hr
  rw [hi, Nat.succ_sub hs]
  simp only [sched, schedNorm] at h2
  split at h2
  · rename_i hc
    rw [hr] at hc
    push_cast
    linarith
  · rw [h1] at h2
    simp at h2

end MPC
