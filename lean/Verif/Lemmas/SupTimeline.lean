import Verif.Spec.Supervisor
import Verif.Lemmas.Schedule
import Mathlib.Data.List.GetD

/-!
# The main loop of `updateTimeline`
-/
set_option linter.unusedSectionVars false

namespace MPC

variable {K : Type} [Field K] [LinearOrder K]

/-! ### The sequence of phases -/

/-- Type of the phase `k` after a phase of type `t`. -/
def Sup.typeAt (s : Sup K) (t : PhaseType) : ℕ → PhaseType
  | 0 => t
  | k + 1 => s.nextType (s.typeAt t k)

/-- Remaining time of the current phase, durations of the next ones. -/
def Sup.durAt (s : Sup K) (t : PhaseType) : ℕ → K
  | 0 => s.ttnp
  | k + 1 => s.period (s.typeAt t (k + 1))

/-- The phase `k` of the timeline that starts with `f`. -/
def Sup.phaseAt (s : Sup K) (f : Phase K) : ℕ → Phase K
  | 0 => f
  | k + 1 => ⟨s.typeAt f.type (k + 1), s.period (s.typeAt f.type (k + 1))⟩

/-- Number of single supports before the phase `k`. -/
def Sup.ssCount (s : Sup K) (t : PhaseType) : ℕ → ℕ
  | 0 => 0
  | k + 1 => s.ssCount t k + if s.typeAt t k = .DS then 0 else 1

theorem Sup.phaseAt_type (s : Sup K) (f : Phase K) (k : ℕ) :
    (s.phaseAt f k).type = s.typeAt f.type k := by
  cases k <;> rfl

theorem Sup.nextPhase_phaseAt (s : Sup K) (f : Phase K) (k : ℕ) :
    s.nextPhase (s.phaseAt f k) = s.phaseAt f (k + 1) := by
  rw [Sup.nextPhase, Sup.phaseAt_type]
  rfl

theorem Sup.typeAt_move {s : Sup K} (h : s.move = true) (t : PhaseType) (k : ℕ) :
    s.typeAt t (k + 1) ≠ .DS := by
  simp only [Sup.typeAt]
  cases s.typeAt t k <;> simp [Sup.nextType, h]

theorem Sup.typeAt_still {s : Sup K} (h : s.move = false) (t : PhaseType) (k : ℕ) :
    s.typeAt t (k + 1) = .DS := by
  simp only [Sup.typeAt]
  cases s.typeAt t k <;> simp [Sup.nextType, h]

theorem Sup.ssCount_succ_DS {s : Sup K} {t : PhaseType} (h : t = .DS) (k : ℕ) :
    s.ssCount t (k + 1) = if s.move then k else 0 := by
  induction k with
  | zero => simp [Sup.ssCount, Sup.typeAt, h]
  | succ k ih =>
    rw [Sup.ssCount, ih]
    cases hm : s.move
    · simp [Sup.typeAt_still hm]
    · simp [Sup.typeAt_move hm]

theorem Sup.ssCount_succ_SS {s : Sup K} {t : PhaseType} (h : t ≠ .DS) (k : ℕ) :
    s.ssCount t (k + 1) = if s.move then k + 1 else 1 := by
  induction k with
  | zero => simp [Sup.ssCount, Sup.typeAt, h]
  | succ k ih =>
    rw [Sup.ssCount, ih]
    cases hm : s.move
    · simp [Sup.typeAt_still hm]
    · simp [Sup.typeAt_move hm]

theorem Sup.ssCount_mono (s : Sup K) (t : PhaseType) {i j : ℕ} (h : i ≤ j) :
    s.ssCount t i ≤ s.ssCount t j :=
  monotone_nat_of_le_succ (f := s.ssCount t) (fun k => by simp [Sup.ssCount]) h

theorem Sup.ssCount_succ_le (s : Sup K) (t : PhaseType) (k : ℕ) :
    s.ssCount t (k + 1) ≤ s.ssCount t k + 1 := by
  simp only [Sup.ssCount]; split <;> simp

theorem Sup.ssCount_le (s : Sup K) (t : PhaseType) (k : ℕ) : s.ssCount t k ≤ k := by
  induction k with
  | zero => simp [Sup.ssCount]
  | succ k ih => exact (s.ssCount_succ_le t k).trans (by omega)

theorem Sup.ssCount_still {s : Sup K} (h : s.move = false) (t : PhaseType) (k : ℕ) :
    s.ssCount t k ≤ 1 := by
  cases k with
  | zero => simp [Sup.ssCount]
  | succ k =>
    by_cases ht : t = .DS
    · simp [Sup.ssCount_succ_DS ht, h]
    · simp [Sup.ssCount_succ_SS ht, h]

/-- Shift between footsteps and phases: `getKinematicConvexPolygon`. -/
def Sup.stepOff (s : Sup K) (t : PhaseType) : ℕ := if t = .DS ∧ s.move = true then 1 else 0

/-- The phase of the footstep `i`. -/
theorem Sup.step_phase {s : Sup K} {t : PhaseType} {i k : ℕ} (h : i < s.ssCount t k) :
    i + s.stepOff t < k ∧ s.typeAt t (i + s.stepOff t) ≠ .DS := by
  cases k with
  | zero => simp [Sup.ssCount] at h
  | succ k =>
    by_cases ht : t = .DS
    · rw [Sup.ssCount_succ_DS ht] at h
      cases hm : s.move
      · simp [hm] at h
      · simp only [hm, if_true] at h
        simp only [Sup.stepOff, ht, hm, and_self, if_true]
        exact ⟨by omega, Sup.typeAt_move hm _ _⟩
    · rw [Sup.ssCount_succ_SS ht] at h
      simp only [Sup.stepOff, ht, false_and, if_false, Nat.add_zero]
      cases hm : s.move
      · simp only [hm, Bool.false_eq_true, if_false] at h
        have : i = 0 := by omega
        subst this
        exact ⟨by omega, ht⟩
      · simp only [hm, if_true] at h
        refine ⟨by omega, ?_⟩
        cases i with
        | zero => exact ht
        | succ i => exact Sup.typeAt_move hm _ _

/-- Kinematic polygon of the foot that supports the robot in a phase. -/
def Sup.kinOf (s : Sup K) : PhaseType → Polygon K
  | .leftSS => s.left.kin
  | .rightSS => s.right.kin
  | .DS => Polygon.none

/-- The timeline starts with the phases `0 .. k` of the sequence. -/
def Sup.Prefix (s : Sup K) (f : Phase K) (tl : List (Phase K)) (k : ℕ) : Prop :=
  k < tl.length ∧ ∀ i ≤ k, tl[i]? = some (s.phaseAt f i)

theorem Sup.isInDS_ok {s : Sup K} {f : Phase K} (h : s.timeline[0]? = some f) :
    s.isInDS = .ok (decide (f.type = .DS)) := by
  simp [Sup.isInDS, listAt_of_get? h]

/-- `getKinematicConvexPolygon` on a footstep of the sequence. -/
theorem Sup.kinPolygon_ok {s : Sup K} {f : Phase K} {k i : ℕ} (hp : s.Prefix f s.timeline k)
    (hM : s.M = s.ssCount f.type k) (hi : i < s.M) :
    s.kinPolygon i = .ok (s.kinOf (s.typeAt f.type (i + s.stepOff f.type))) := by
  obtain ⟨h1, h2⟩ := Sup.step_phase (hM ▸ hi : i < s.ssCount f.type k)
  have h0 : s.timeline[0]? = some f := hp.2 0 (Nat.zero_le _)
  have e : (if decide (f.type = .DS) = true ∧ s.move = true then i + 1 else i) =
      i + s.stepOff f.type := by
    unfold Sup.stepOff
    by_cases hc : f.type = .DS ∧ s.move = true
    · simp [hc.1, hc.2]
    · rw [if_neg hc, if_neg (by simpa using hc)]
      rfl
  unfold Sup.kinPolygon
  rw [require_pos hi, ok_bind, Sup.isInDS_ok h0, ok_bind]
  simp only [e]
  rw [listAt_of_get? (hp.2 _ (le_of_lt h1)), ok_bind]
  rw [Sup.phaseAt_type]
  cases ht : s.typeAt f.type (i + s.stepOff f.type)
  · exact absurd ht h2
  · rfl
  · rfl

/-! ### Bounding box -/

theorem bbox_ok (p : Vec (Pt K)) (k : ℕ) (hk : k < p.size) :
    ∃ i₁ ≤ k, ∃ i₂ ≤ k, ∃ i₃ ≤ k, ∃ i₄ ≤ k,
      bbox p k = .ok ((p.get i₁).x, (p.get i₂).x, (p.get i₃).y, (p.get i₄).y) ∧
      ∀ j ≤ k, (p.get i₁).x ≤ (p.get j).x ∧ (p.get j).x ≤ (p.get i₂).x ∧
        (p.get i₃).y ≤ (p.get j).y ∧ (p.get j).y ≤ (p.get i₄).y := by
  induction k with
  | zero =>
    refine ⟨0, le_rfl, 0, le_rfl, 0, le_rfl, 0, le_rfl, ?_, ?_⟩
    · simp [bbox, Vec.at?_ok hk]
    · intro j hj; rw [Nat.le_zero.1 hj]; exact ⟨le_rfl, le_rfl, le_rfl, le_rfl⟩
  | succ k ih =>
    obtain ⟨a, ha, b, hb, c, hc, d, hd, h1, h2⟩ := ih (by omega)
    refine ⟨if (p.get (k + 1)).x < (p.get a).x then k + 1 else a, by split <;> omega,
      if (p.get b).x < (p.get (k + 1)).x then k + 1 else b, by split <;> omega,
      if (p.get (k + 1)).y < (p.get c).y then k + 1 else c, by split <;> omega,
      if (p.get d).y < (p.get (k + 1)).y then k + 1 else d, by split <;> omega, ?_, ?_⟩
    · simp only [bbox, h1, ok_bind, Vec.at?_ok hk, res_pure]
      congr 1
      refine Prod.ext ?_ (Prod.ext ?_ (Prod.ext ?_ ?_)) <;> simp only <;> split <;> rfl
    · intro j hj
      rcases Nat.lt_or_ge j (k + 1) with hjk | hjk
      · obtain ⟨p1, p2, p3, p4⟩ := h2 j (by omega)
        refine ⟨?_, ?_, ?_, ?_⟩
        · split
          · rename_i h; exact le_trans (le_of_lt h) p1
          · exact p1
        · split
          · rename_i h; exact le_trans p2 (le_of_lt h)
          · exact p2
        · split
          · rename_i h; exact le_trans (le_of_lt h) p3
          · exact p3
        · split
          · rename_i h; exact le_trans p4 (le_of_lt h)
          · exact p4
      · have : j = k + 1 := by omega
        subst this
        refine ⟨?_, ?_, ?_, ?_⟩
        · split
          · exact le_rfl
          · rename_i h; exact not_lt.1 h
        · split
          · exact le_rfl
          · rename_i h; exact not_lt.1 h
        · split
          · exact le_rfl
          · rename_i h; exact not_lt.1 h
        · split
          · exact le_rfl
          · rename_i h; exact not_lt.1 h

theorem bbox_center {p : Vec (Pt K)} (h : 0 < p.size) :
    ∃ l r b t, bbox p (p.size - 1) = .ok (l, r, b, t) ∧
      IsBoxCenter p ⟨(r + l) / 2, (b + t) / 2⟩ := by
  obtain ⟨a, ha, b, hb, c, hc, d, hd, h1, h2⟩ := bbox_ok p (p.size - 1) (by omega)
  exact ⟨_, _, _, _, h1, a, by omega, b, by omega, c, by omega, d, by omega,
    fun k hk => h2 k (by omega), rfl⟩

/-! ### Editing the decision vector -/

/-- `shortenStepVec` on a vector with `m + 1` footsteps. -/
theorem Sup.shorten_ok {s : Sup K} {var : Vec K} {m : ℕ}
    (hsz : var.size = 2 * s.N + 2 * (m + 1)) :
    ∃ v, s.shorten var = .ok v ∧ v.size = 2 * s.N + 2 * m ∧
      (∀ i < 2 * s.N, v.get i = var.get i) ∧
      (∀ i < m, v.get (2 * s.N + i) = var.get (2 * s.N + (i + 1))) ∧
      (∀ i < m, v.get (2 * s.N + m + i) = var.get (2 * s.N + (m + 1) + (i + 1))) := by
  have e1 : var.size / 2 - s.N - 1 = m := by omega
  have e2 : var.size / 2 = s.N + (m + 1) := by omega
  unfold Sup.shorten
  rw [require_pos (by omega), ok_bind, requireIndex_pos (by omega), ok_bind]
  simp only [e1]
  rw [Vec.segment?_ok (by omega), ok_bind, Vec.segment?_ok (by omega), ok_bind,
    Vec.setSegment?_ok (by simp only; omega) (by rfl), ok_bind, Vec.segment?_ok (by omega), ok_bind,
    Vec.setSegment?_ok (by simp only; omega) (by rfl)]
  refine ⟨_, rfl, rfl, ?_, ?_, ?_⟩
  · intro i hi
    simp only
    rw [if_neg (by omega), if_neg (by omega), Nat.zero_add]
  · intro i hi
    simp only
    rw [if_neg (by omega), if_pos (by omega)]
    congr 1; omega
  · intro i hi
    simp only
    rw [if_pos (by omega)]
    congr 1; omega

/-- `enlargeStepVec` on a vector with `m` footsteps. -/
theorem Sup.enlarge_ok {s : Sup K} {var : Vec K} {m : ℕ} {cp : Polygon K} {ds : Bool}
    (hN : 0 < s.N) (hsz : var.size = 2 * s.N + 2 * m) (hcp : s.kinPolygon m = .ok cp)
    (hpos : 0 < cp.vertices.size) (hds : s.isInDS = .ok ds) :
    ∃ v c, s.enlarge var = .ok v ∧ IsBoxCenter cp.vertices c ∧ v.size = 2 * s.N + 2 * (m + 1) ∧
      (∀ i < 2 * s.N, v.get i = var.get i) ∧
      (∀ i < m, v.get (2 * s.N + i) = var.get (2 * s.N + i)) ∧
      (∀ i < m, v.get (2 * s.N + (m + 1) + i) = var.get (2 * s.N + m + i)) ∧
      v.get (2 * s.N + m) =
        (if ds = true ∧ s.M = 1 then s.left.x.state.p else var.get (2 * s.N + m - 1)) + c.x ∧
      v.get (2 * s.N + (m + 1) + m) =
        (if ds = true ∧ s.M = 1 then s.left.y.state.p
          else if m = 0 then v.get (2 * s.N) else var.get (2 * s.N + m + (m - 1))) + c.y := by
  obtain ⟨l, r, b, t, hb, hc⟩ := bbox_center hpos
  have e1 : var.size / 2 - s.N + 1 = m + 1 := by omega
  have e2 : var.size / 2 = s.N + m := by omega
  unfold Sup.enlarge
  rw [require_pos (by omega), ok_bind, requireIndex_pos (by omega), ok_bind]
  simp only [e1, Nat.add_sub_cancel]
  rw [Vec.segment?_ok (by omega), ok_bind,
    Vec.setSegment?_ok (by simp only [Vec.conservativeResize]; omega) (by rfl), ok_bind, hcp, ok_bind,
    require_pos hpos, ok_bind, hb, ok_bind, hds, ok_bind]
  by_cases hcase : ds = true ∧ s.M = 1
  · rw [if_pos hcase, Vec.set?_ok (by simp only [Vec.conservativeResize]; omega), ok_bind,
      Vec.set?_ok (by simp only [Vec.conservativeResize]; omega)]
    refine ⟨_, _, rfl, hc, ?_, ?_, ?_, ?_, ?_, ?_⟩
    · simp only [Vec.conservativeResize]
    · intro i hi
      simp only [Vec.conservativeResize]
      rw [if_neg (by omega), if_neg (by omega), if_neg (by omega)]
    · intro i hi
      simp only [Vec.conservativeResize]
      rw [if_neg (by omega), if_neg (by omega), if_neg (by omega)]
    · intro i hi
      simp only [Vec.conservativeResize]
      rw [if_neg (by omega), if_neg (by omega), if_pos (by omega)]
      congr 1; omega
    · simp only [Vec.conservativeResize]
      rw [if_neg (by omega), if_pos (by omega), if_pos hcase]
    · simp only [Vec.conservativeResize]
      rw [if_pos (by omega), if_pos hcase]
  · rw [if_neg hcase, Vec.at?_ok (by simp only [Vec.conservativeResize]; omega), ok_bind,
      Vec.set?_ok (by simp only [Vec.conservativeResize]; omega), ok_bind,
      Vec.at?_ok (by simp only [Vec.conservativeResize]; omega), ok_bind,
      Vec.set?_ok (by simp only [Vec.conservativeResize]; omega)]
    refine ⟨_, _, rfl, hc, ?_, ?_, ?_, ?_, ?_, ?_⟩
    · simp only [Vec.conservativeResize]
    · intro i hi
      simp only [Vec.conservativeResize]
      rw [if_neg (by omega), if_neg (by omega), if_neg (by omega)]
    · intro i hi
      simp only [Vec.conservativeResize]
      rw [if_neg (by omega), if_neg (by omega), if_neg (by omega)]
    · intro i hi
      simp only [Vec.conservativeResize]
      rw [if_neg (by omega), if_neg (by omega), if_pos (by omega)]
      congr 1; omega
    · simp only [Vec.conservativeResize]
      rw [if_neg (by omega), if_pos (by omega), if_neg (by omega), if_neg hcase]
      congr 2
    · simp only [Vec.conservativeResize]
      rw [if_pos (by omega), if_neg hcase]
      by_cases hm : m = 0
      · subst hm
        split_ifs <;> first | rfl | (exfalso; omega)
      · rw [if_neg (by omega), if_pos (by omega), if_neg hm]
        congr 2; omega

/-- Lines 530-534 on a vector with `m` footsteps. -/
theorem Sup.trim_ok {s : Sup K} {var : Vec K} {m : ℕ} (hsz : var.size = 2 * s.N + 2 * m) :
    ∃ v m', s.trim var = .ok v ∧ m' = (if s.move = false then min m 1 else m) ∧
      v.size = 2 * s.N + 2 * m' ∧
      (∀ i < 2 * s.N, v.get i = var.get i) ∧
      (∀ i < m', v.get (2 * s.N + i) = var.get (2 * s.N + i)) ∧
      (∀ i < m', v.get (2 * s.N + m' + i) = var.get (2 * s.N + m + i)) := by
  unfold Sup.trim
  by_cases hc : s.move = false ∧ 2 * s.N + 2 < var.size
  · rw [if_pos hc, Vec.at?_ok (by omega), ok_bind, Vec.set?_ok (by omega), ok_bind, res_pure]
    refine ⟨_, 1, rfl, by rw [if_pos hc.1]; omega, rfl, ?_, ?_, ?_⟩
    · intro i hi; simp only [Vec.conservativeResize]; rw [if_neg (by omega)]
    · intro i hi; simp only [Vec.conservativeResize]; rw [if_neg (by omega)]
    · intro i hi; simp only [Vec.conservativeResize]; rw [if_pos (by omega)]; congr 1; omega
  · rw [if_neg hc]
    refine ⟨var, m, rfl, ?_, hsz, fun _ _ => rfl, fun _ _ => rfl, fun _ _ => rfl⟩
    split
    · have : ¬ 2 * s.N + 2 < var.size := fun h => hc ⟨by assumption, h⟩
      omega
    · rfl

end MPC
