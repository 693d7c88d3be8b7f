import Verif.Model.Humanoid
import Verif.Lemmas.QP
import Verif.Spec.Polygon

/-! # Rows and bounds of the humanoid constraints -/

set_option linter.unusedSectionVars false

namespace MPC

open Finset

variable {K : Type} [Field K] [LinearOrder K] [IsStrictOrderedRing K]

/-! ### `buildVec` -/

theorem buildVec_ok {α : Type} {d : α} {f : ℕ → Res α} {n : ℕ} {v : Vec α}
    (h : buildVec d f n = .ok v) : v.size = n ∧ ∀ i < n, f i = .ok (v.get i) := by
  induction n generalizing v with
  | zero => cases h; exact ⟨rfl, fun i hi => absurd hi (by omega)⟩
  | succ n ih =>
    unfold buildVec at h
    obtain ⟨u, hu, h⟩ := bind_eq_ok.1 h
    obtain ⟨a, ha, h⟩ := bind_eq_ok.1 h
    cases h
    obtain ⟨h1, h2⟩ := ih hu
    refine ⟨rfl, fun i hi => ?_⟩
    by_cases hin : i = n
    · subst hin; simp [ha]
    · simp only [if_neg hin]; exact h2 i (by omega)

theorem buildVec_of {α : Type} {d : α} {f : ℕ → Res α} {n : ℕ} (g : ℕ → α)
    (h : ∀ i < n, f i = .ok (g i)) :
    ∃ v, buildVec d f n = .ok v ∧ v.size = n ∧ ∀ i < n, v.get i = g i := by
  induction n with
  | zero => exact ⟨_, rfl, rfl, fun i hi => absurd hi (by omega)⟩
  | succ n ih =>
    obtain ⟨v, h1, h2, h3⟩ := ih fun i hi => h i (by omega)
    refine ⟨_, by unfold buildVec; rw [h1, ok_bind, h n (by omega), ok_bind]; rfl, rfl, fun i hi => ?_⟩
    by_cases hin : i = n
    · subst hin; simp
    · simp only [if_neg hin]; exact h3 i (by omega)

/-! ### Rows -/

/-- First row of polygon `i`. -/
def rowStart (ps : Vec (Polygon K)) (i : ℕ) : ℕ := ∑ k ∈ range i, (ps.get k).nbGeneral

theorem rowStart_succ (ps : Vec (Polygon K)) (i : ℕ) :
    rowStart ps (i + 1) = rowStart ps i + (ps.get i).nbGeneral := sum_range_succ _ _

theorem rowStart_mono (ps : Vec (Polygon K)) {i j : ℕ} (h : i ≤ j) :
    rowStart ps i ≤ rowStart ps j := by
  induction j, h using Nat.le_induction with
  | base => exact le_rfl
  | succ j _ ih => rw [rowStart_succ]; omega

theorem rowStart_lt (ps : Vec (Polygon K)) {i n t : ℕ} (h : i < n) (ht : t < (ps.get i).nbGeneral) :
    rowStart ps i + t < rowStart ps n := by
  have := rowStart_mono ps (show i + 1 ≤ n from h)
  rw [rowStart_succ] at this
  omega

theorem rowStart_cover (ps : Vec (Polygon K)) (n r : ℕ) (h : r < rowStart ps n) :
    ∃ i < n, ∃ t < (ps.get i).nbGeneral, r = rowStart ps i + t := by
  induction n with
  | zero => simp [rowStart] at h
  | succ n ih =>
    by_cases hr : r < rowStart ps n
    · obtain ⟨i, hi, t, ht, e⟩ := ih hr
      exact ⟨i, by omega, t, ht, e⟩
    · rw [rowStart_succ] at h
      exact ⟨n, by omega, r - rowStart ps n, by omega, by omega⟩

theorem forall_rows (ps : Vec (Polygon K)) (P : ℕ → Prop) :
    (∀ r < nbRows ps, P r) ↔
      ∀ i < ps.size, ∀ t < (ps.get i).nbGeneral, P (rowStart ps i + t) := by
  constructor
  · intro h i hi t ht; exact h _ (rowStart_lt ps hi ht)
  · intro h r hr
    obtain ⟨i, hi, t, ht, rfl⟩ := rowStart_cover ps ps.size r hr
    exact h i hi t ht

/-- What one iteration does. -/
structure StepSpec (step : ℕ → Polygon K → Rows K → Res (Rows K))
    (F : ℕ → Polygon K → ℕ → ℕ → K → K) (B : ℕ → Polygon K → ℕ → K) : Prop where
  since : ∀ {i g r r'}, step i g r = .ok r' → r'.since = r.since + g.nbGeneral
  dims : ∀ {i g r r'}, step i g r = .ok r' →
    r'.A.rows = r.A.rows ∧ r'.A.cols = r.A.cols ∧ r'.b.size = r.b.size
  keep : ∀ {i g r r'}, step i g r = .ok r' → ∀ k, k < r.since ∨ r.since + g.nbGeneral ≤ k →
    (∀ c, r'.A.get k c = r.A.get k c) ∧ r'.b.get k = r.b.get k
  write : ∀ {i g r r'}, step i g r = .ok r' → ∀ t < g.nbGeneral,
    (∀ c, r'.A.get (r.since + t) c = F i g t c (r.A.get (r.since + t) c)) ∧
      r'.b.get (r.since + t) = B i g t

theorem generalRows_ok {step : ℕ → Polygon K → Rows K → Res (Rows K)}
    {F : ℕ → Polygon K → ℕ → ℕ → K → K} {B : ℕ → Polygon K → ℕ → K} (hs : StepSpec step F B)
    {ps : Vec (Polygon K)} {n : ℕ} {r : Rows K} (h : generalRows step ps n = .ok r) :
    r.A.rows = nbRows ps ∧ r.A.cols = n ∧ r.b.size = nbRows ps ∧
      ∀ i < ps.size, ∀ t < (ps.get i).nbGeneral,
        (∀ c, r.A.get (rowStart ps i + t) c = F i (ps.get i) t c 0) ∧
          r.b.get (rowStart ps i + t) = B i (ps.get i) t := by
  have key : ∀ k, k ≤ ps.size → ∀ r, rowsLoop step ps
      ⟨Mat.zero (nbRows ps) n, Vec.const (nbRows ps) MAXBOUND, 0⟩ k = .ok r →
      r.since = rowStart ps k ∧ r.A.rows = nbRows ps ∧ r.A.cols = n ∧ r.b.size = nbRows ps ∧
      (∀ q, rowStart ps k ≤ q → ∀ c, r.A.get q c = 0) ∧
      ∀ i < k, ∀ t < (ps.get i).nbGeneral,
        (∀ c, r.A.get (rowStart ps i + t) c = F i (ps.get i) t c 0) ∧
          r.b.get (rowStart ps i + t) = B i (ps.get i) t := by
    intro k
    induction k with
    | zero =>
      intro _ r h
      cases h
      exact ⟨by simp [rowStart], rfl, rfl, rfl, fun _ _ _ => rfl, fun i hi => absurd hi (by omega)⟩
    | succ k ih =>
      intro hk r h
      unfold rowsLoop at h
      obtain ⟨r₀, h0, h⟩ := bind_eq_ok.1 h
      rw [Vec.at?_ok (by omega), ok_bind] at h
      obtain ⟨a1, a2, a3, a4, a5, a6⟩ := ih (by omega) r₀ h0
      obtain ⟨d1, d2, d3⟩ := hs.dims h
      refine ⟨by rw [hs.since h, a1, rowStart_succ], by rw [d1, a2], by rw [d2, a3], by rw [d3, a4],
        fun q hq c => ?_, fun i hi t ht => ?_⟩
      · rw [rowStart_succ] at hq
        rw [(hs.keep h q (Or.inr (by rw [a1]; exact hq))).1 c]
        exact a5 q (by omega) c
      · by_cases hik : i = k
        · subst hik
          have := hs.write h t ht
          rw [a1] at this
          refine ⟨fun c => ?_, this.2⟩
          rw [this.1 c, a5 _ (by omega)]
        · have hlt : i < k := by omega
          have h1 := hs.keep h (rowStart ps i + t) (Or.inl (by rw [a1]; exact rowStart_lt ps hlt ht))
          exact ⟨fun c => by rw [h1.1 c]; exact (a6 i hlt t ht).1 c, by rw [h1.2]; exact (a6 i hlt t ht).2⟩
  obtain ⟨-, h2, h3, h4, -, h6⟩ := key ps.size le_rfl r h
  exact ⟨h2, h3, h4, h6⟩

/-- Entries of a row of the CoP constraint. -/
def copEntry (N i : ℕ) (g : Polygon K) (t c : ℕ) (x : K) : K :=
  if c = i + N then g.coefY.get t else if c = i then g.coefX.get t else x

theorem copStep_spec (N : ℕ) :
    StepSpec (K := K) (copStep N) (copEntry N) (fun _ g t => g.const.get t) := by
  have key : ∀ {i : ℕ} {g : Polygon K} {r r' : Rows K}, copStep N i g r = .ok r' →
      r' = ⟨⟨r.A.rows, r.A.cols, fun k c =>
        if r.since ≤ k ∧ k < r.since + g.nbGeneral then
          if c = i + N then g.coefY.get (k - r.since)
          else if c = i then g.coefX.get (k - r.since)
          else r.A.get k c
        else r.A.get k c⟩,
      ⟨r.b.size, fun k =>
        if r.since ≤ k ∧ k < r.since + g.nbGeneral then g.const.get (k - r.since) else r.b.get k⟩,
      r.since + g.nbGeneral⟩ := by
    intro i g r r' h
    unfold copStep at h
    obtain ⟨_, -, h⟩ := bind_eq_ok.1 h
    obtain ⟨_, -, h⟩ := bind_eq_ok.1 h
    exact (Except.ok.inj h).symm
  constructor
  · intro i g r r' h; rw [key h]
  · intro i g r r' h; rw [key h]; exact ⟨rfl, rfl, rfl⟩
  · intro i g r r' h k hk
    rw [key h]
    have : ¬ (r.since ≤ k ∧ k < r.since + g.nbGeneral) := by omega
    simp [this]
  · intro i g r r' h t ht
    rw [key h]
    have : r.since ≤ r.since + t ∧ r.since + t < r.since + g.nbGeneral := by omega
    simp [ht, copEntry]

/-- Entries of a row of the foot constraint. -/
def footEntry (N M i : ℕ) (g : Polygon K) (t c : ℕ) (x : K) : K :=
  if c = 2 * N + i then g.coefX.get t
  else if c = 2 * N + M + i then g.coefY.get t
  else if 0 < i ∧ c = 2 * N + i - 1 then x - g.coefX.get t
  else if 0 < i ∧ c = 2 * N + i - 1 + M then x - g.coefY.get t
  else x

/-- Constant of a row of the foot constraint. -/
def footConst (sx sy : K) (i : ℕ) (g : Polygon K) (t : ℕ) : K :=
  if i = 0 then g.const.get t - (g.coefX.get t * sx + g.coefY.get t * sy) else g.const.get t

theorem footStep_spec (N M : ℕ) (sx sy : K) :
    StepSpec (footStep N M sx sy) (footEntry N M) (footConst sx sy) := by
  have key : ∀ {i : ℕ} {g : Polygon K} {r r' : Rows K}, footStep N M sx sy i g r = .ok r' →
      r' = ⟨⟨r.A.rows, r.A.cols, fun k c =>
        if r.since ≤ k ∧ k < r.since + g.nbGeneral then
          if c = 2 * N + i then g.coefX.get (k - r.since)
          else if c = 2 * N + M + i then g.coefY.get (k - r.since)
          else if 0 < i ∧ c = 2 * N + i - 1 then r.A.get k c - g.coefX.get (k - r.since)
          else if 0 < i ∧ c = 2 * N + i - 1 + M then r.A.get k c - g.coefY.get (k - r.since)
          else r.A.get k c
        else r.A.get k c⟩,
      ⟨r.b.size, fun k =>
        if r.since ≤ k ∧ k < r.since + g.nbGeneral then
          if i = 0 then g.const.get (k - r.since)
            - (g.coefX.get (k - r.since) * sx + g.coefY.get (k - r.since) * sy)
          else g.const.get (k - r.since)
        else r.b.get k⟩,
      r.since + g.nbGeneral⟩ := by
    intro i g r r' h
    unfold footStep at h
    obtain ⟨_, -, h⟩ := bind_eq_ok.1 h
    obtain ⟨_, -, h⟩ := bind_eq_ok.1 h
    exact (Except.ok.inj h).symm
  constructor
  · intro i g r r' h; rw [key h]
  · intro i g r r' h; rw [key h]; exact ⟨rfl, rfl, rfl⟩
  · intro i g r r' h k hk
    rw [key h]
    have : ¬ (r.since ≤ k ∧ k < r.since + g.nbGeneral) := by omega
    simp [this]
  · intro i g r r' h t ht
    rw [key h]
    simp [ht, footEntry, footConst]

/-! ### Sums over rows -/

theorem sum_copEntry {N i n : ℕ} (g : Polygon K) (t : ℕ) (x : ℕ → K) (hi : i < N) (hn : 2 * N ≤ n) :
    ∑ c ∈ range n, copEntry N i g t c 0 * x c
      = g.coefX.get t * x i + g.coefY.get t * x (N + i) := by
  have e : ∀ c ∈ range n, copEntry N i g t c 0 * x c
      = (if c = i then g.coefX.get t * x c else 0)
        + (if c = N + i then g.coefY.get t * x c else 0) := by
    intro c _
    unfold copEntry
    by_cases h1 : c = i + N
    · subst h1
      rw [if_pos rfl, if_neg (by omega), if_pos (by omega), zero_add]
    · rw [if_neg h1]
      by_cases h2 : c = i
      · rw [if_pos h2, if_pos h2, if_neg (by omega), add_zero]
      · rw [if_neg h2, if_neg h2, if_neg (by omega)]; ring
  rw [sum_congr rfl e, sum_add_distrib]
  simp only [sum_ite_eq', mem_range]
  rw [if_pos (by omega), if_pos (by omega)]

theorem sum_footEntry {N M i n : ℕ} (g : Polygon K) (t : ℕ) (x : ℕ → K) (hi : i < M)
    (hn : 2 * N + 2 * M ≤ n) :
    ∑ c ∈ range n, footEntry N M i g t c 0 * x c
      = g.coefX.get t * (x (2 * N + i) - if i = 0 then 0 else x (2 * N + i - 1))
        + g.coefY.get t * (x (2 * N + M + i) - if i = 0 then 0 else x (2 * N + M + i - 1)) := by
  have e : ∀ c ∈ range n, footEntry N M i g t c 0 * x c
      = (if c = 2 * N + i then g.coefX.get t * x c else 0)
        + (if c = 2 * N + M + i then g.coefY.get t * x c else 0)
        + ((if c = 2 * N + i - 1 then (if i = 0 then 0 else - g.coefX.get t * x c) else 0)
        + (if c = 2 * N + M + i - 1 then (if i = 0 then 0 else - g.coefY.get t * x c) else 0)) := by
    intro c _
    unfold footEntry
    by_cases hi0 : i = 0
    · subst hi0
      simp only [lt_irrefl, false_and, if_false, if_true, ite_self, add_zero]
      by_cases h1 : c = 2 * N
      · rw [if_pos h1, if_pos h1, if_neg (by omega), add_zero]
      · rw [if_neg h1, if_neg h1]
        by_cases h2 : c = 2 * N + M
        · rw [if_pos h2, if_pos h2, zero_add]
        · rw [if_neg h2, if_neg h2]; ring
    · have hp : 0 < i := by omega
      simp only [hp, true_and, if_neg hi0]
      by_cases h1 : c = 2 * N + i
      · rw [if_pos h1, if_pos h1, if_neg (by omega), if_neg (by omega), if_neg (by omega)]; ring
      · rw [if_neg h1, if_neg h1]
        by_cases h2 : c = 2 * N + M + i
        · rw [if_pos h2, if_pos h2, if_neg (by omega), if_neg (by omega)]; ring
        · rw [if_neg h2, if_neg h2]
          by_cases h3 : c = 2 * N + i - 1
          · rw [if_pos h3, if_pos h3, if_neg (by omega)]; ring
          · rw [if_neg h3, if_neg h3]
            by_cases h4 : c = 2 * N + M + i - 1
            · rw [if_pos (by omega), if_pos h4]; ring
            · rw [if_neg (by omega), if_neg h4]; ring
  rw [sum_congr rfl e, sum_add_distrib, sum_add_distrib, sum_add_distrib]
  simp only [sum_ite_eq', mem_range]
  rw [if_pos (show 2 * N + i < n by omega), if_pos (show 2 * N + M + i < n by omega)]
  by_cases hi0 : i = 0
  · simp only [hi0, if_true, ite_self]; ring
  · rw [if_pos (show 2 * N + i - 1 < n by omega), if_pos (show 2 * N + M + i - 1 < n by omega)]
    simp only [if_neg hi0]; ring

/-! ### Adding a constraint to the QP -/

/-- The rows `r0 .. r0 + n - 1` are still empty. -/
def BlankRows (q : QPMatrices K) (r0 n : ℕ) : Prop :=
  ∀ r, r0 ≤ r → r < r0 + n → (∀ j, q.A.get r j = 0) ∧ q.bl.get r = -MAXBOUND ∧ q.bu.get r = MAXBOUND

/-- The product of a row with a vector. -/
def rowDot (A : Mat K) (r : ℕ) (x : ℕ → K) : K := ∑ j ∈ range A.cols, A.get r j * x j

theorem addConstraint_ok {q q' : QPMatrices K} {r0 n c0 len sz : ℕ} {c : ConstraintAt K}
    (h : q.addConstraint r0 n c0 len sz c = .ok q') :
    (r0 + n ≤ q.A.rows ∧ sz ≤ q.A.cols ∧ c.A.rows = n ∧ c.A.cols = sz ∧ r0 + n ≤ q.bu.size ∧
      c.f.size = n ∧ c0 + len ≤ q.xl.size ∧ c.inf.size = len ∧ c0 + len ≤ q.xu.size ∧
      c.sup.size = len) ∧
    q' = { q with
      A := ⟨q.A.rows, q.A.cols, fun i j =>
        if (r0 ≤ i ∧ i < r0 + n) ∧ (0 ≤ j ∧ j < 0 + sz) then q.A.get i j + c.A.get (i - r0) (j - 0)
        else q.A.get i j⟩
      bu := ⟨q.bu.size, fun i => if r0 ≤ i ∧ i < r0 + n then
        min (q.bu.get (r0 + (i - r0))) (- c.f.get (i - r0)) else q.bu.get i⟩
      xl := ⟨q.xl.size, fun i => if c0 ≤ i ∧ i < c0 + len then
        max (q.xl.get (c0 + (i - c0))) (c.inf.get (i - c0)) else q.xl.get i⟩
      xu := ⟨q.xu.size, fun i => if c0 ≤ i ∧ i < c0 + len then
        min (q.xu.get (c0 + (i - c0))) (c.sup.get (i - c0)) else q.xu.get i⟩ } := by
  simp only [QPMatrices.addConstraint, Mat.addBlock?, Vec.segment?, Vec.setSegment?, Vec.cwiseMin?,
    Vec.cwiseMax?, Vec.neg, bind_eq_ok, requireIndex_eq_ok, requireSize_eq_ok, res_pure,
    Except.ok.injEq] at h
  obtain ⟨A, ⟨_, hA1, _, hA2, rfl⟩, s1, ⟨_, hs1, rfl⟩, b1, ⟨_, hb1, rfl⟩, bu, ⟨_, hb2, _, hb3, rfl⟩,
    s2, ⟨_, hs2, rfl⟩, b2, ⟨_, hl1, rfl⟩, xl, ⟨_, hl2, _, hl3, rfl⟩,
    s3, ⟨_, hs3, rfl⟩, b3, ⟨_, hu1, rfl⟩, xu, ⟨_, hu2, _, hu3, rfl⟩, rfl⟩ := h
  have hb1 := requireSize_eq_ok.1 hb1
  exact ⟨⟨hA1.1, by omega, hA2.1, hA2.2, hs1, hb1.symm, hs2, hl1.symm, hs3, hu1.symm⟩, rfl⟩

theorem addConstraint_feasible {q q' : QPMatrices K} {r0 n c0 len sz a b : ℕ} {c : ConstraintAt K}
    (h : q.addConstraint r0 n c0 len sz c = .ok q') (hd : q.DimensionsAreConsistent a b)
    (hb : BlankRows q r0 n) (x : ℕ → K) :
    Spec.Feasible q' x ↔ Spec.Feasible q x ∧
      (∀ k < len, c.inf.get k ≤ x (c0 + k) ∧ x (c0 + k) ≤ c.sup.get k) ∧
      ∀ k < n, -MAXBOUND ≤ rowDot c.A k x ∧ rowDot c.A k x ≤ MAXBOUND ∧
        rowDot c.A k x ≤ - c.f.get k := by
  obtain ⟨⟨h1, h2, h3, h4, h5, h6, h7, h8, h9, h10⟩, rfl⟩ := addConstraint_ok h
  obtain ⟨d1, d2, d3, d4, d5, d6, d7, d8, d9⟩ := hd
  have hMB : (0 : K) < MAXBOUND := MAXBOUND_pos
  -- product with a new row
  have hin : ∀ k < n, ∑ j ∈ range q.A.cols,
      (if (r0 ≤ r0 + k ∧ r0 + k < r0 + n) ∧ (0 ≤ j ∧ j < 0 + sz)
        then q.A.get (r0 + k) j + c.A.get (r0 + k - r0) (j - 0) else q.A.get (r0 + k) j) * x j
      = rowDot c.A k x := by
    intro k hk
    unfold rowDot
    rw [h4]
    have e : ∀ j ∈ range q.A.cols,
        (if (r0 ≤ r0 + k ∧ r0 + k < r0 + n) ∧ (0 ≤ j ∧ j < 0 + sz)
          then q.A.get (r0 + k) j + c.A.get (r0 + k - r0) (j - 0) else q.A.get (r0 + k) j) * x j
        = if j < sz then c.A.get k j * x j else 0 := by
      intro j _
      rw [(hb (r0 + k) (by omega) (by omega)).1 j, Nat.add_sub_cancel_left, Nat.sub_zero]
      by_cases hj : j < sz
      · rw [if_pos (by omega), if_pos hj]; ring
      · rw [if_neg (by omega), if_neg hj]; ring
    rw [sum_congr rfl e, ← sum_filter]
    refine sum_congr ?_ fun _ _ => rfl
    ext j; simp only [mem_filter, mem_range]; omega
  have hout : ∀ r, ¬ (r0 ≤ r ∧ r < r0 + n) → ∑ j ∈ range q.A.cols,
      (if (r0 ≤ r ∧ r < r0 + n) ∧ (0 ≤ j ∧ j < 0 + sz)
        then q.A.get r j + c.A.get (r - r0) (j - 0) else q.A.get r j) * x j
      = ∑ j ∈ range q.A.cols, q.A.get r j * x j := by
    intro r hr
    exact sum_congr rfl fun j _ => by rw [if_neg fun h => hr h.1]
  have hzero : ∀ k < n, ∑ j ∈ range q.A.cols, q.A.get (r0 + k) j * x j = 0 := by
    intro k hk
    exact sum_eq_zero fun j _ => by rw [(hb (r0 + k) (by omega) (by omega)).1 j, zero_mul]
  constructor
  · rintro ⟨f1, f2, f3, f4⟩
    simp only at f1 f2 f3 f4
    refine ⟨⟨fun i hi => ?_, fun i hi => ?_, fun r hr => ?_, fun r hr => ?_⟩, fun k hk => ⟨?_, ?_⟩,
      fun k hk => ?_⟩
    · have := f1 i hi
      split_ifs at this with hc
      · rw [show c0 + (i - c0) = i by omega] at this; exact (le_max_left _ _).trans this
      · exact this
    · have := f2 i hi
      split_ifs at this with hc
      · rw [show c0 + (i - c0) = i by omega] at this; exact this.trans (min_le_left _ _)
      · exact this
    · by_cases hc : r0 ≤ r ∧ r < r0 + n
      · obtain ⟨k, rfl⟩ : ∃ k, r = r0 + k := ⟨r - r0, by omega⟩
        rw [hzero k (by omega), (hb _ hc.1 hc.2).2.1]; linarith
      · have := f3 r hr; rwa [hout r hc] at this
    · by_cases hc : r0 ≤ r ∧ r < r0 + n
      · obtain ⟨k, rfl⟩ : ∃ k, r = r0 + k := ⟨r - r0, by omega⟩
        rw [hzero k (by omega), (hb _ hc.1 hc.2).2.2]; exact hMB.le
      · have := f4 r hr; rwa [hout r hc, if_neg hc] at this
    · have := f1 (c0 + k) (by omega)
      rw [if_pos (by omega), Nat.add_sub_cancel_left] at this
      exact (le_max_right _ _).trans this
    · have := f2 (c0 + k) (by omega)
      rw [if_pos (by omega), Nat.add_sub_cancel_left] at this
      exact this.trans (min_le_right _ _)
    · have g3 := f3 (r0 + k) (by omega)
      have g4 := f4 (r0 + k) (by omega)
      rw [hin k hk, (hb _ (by omega) (by omega)).2.1] at g3
      rw [hin k hk, if_pos (by omega), Nat.add_sub_cancel_left,
        (hb _ (by omega) (by omega)).2.2] at g4
      exact ⟨g3, g4.trans (min_le_left _ _), g4.trans (min_le_right _ _)⟩
  · rintro ⟨⟨f1, f2, f3, f4⟩, hx, hr⟩
    refine ⟨fun i hi => ?_, fun i hi => ?_, fun r hr' => ?_, fun r hr' => ?_⟩
    · simp only at hi ⊢
      split_ifs with hc
      · rw [show c0 + (i - c0) = i by omega]
        have := (hx (i - c0) (by omega)).1
        rw [show c0 + (i - c0) = i by omega] at this
        exact max_le (f1 i hi) this
      · exact f1 i hi
    · simp only at hi ⊢
      split_ifs with hc
      · rw [show c0 + (i - c0) = i by omega]
        have := (hx (i - c0) (by omega)).2
        rw [show c0 + (i - c0) = i by omega] at this
        exact le_min (f2 i hi) this
      · exact f2 i hi
    · simp only at hr' ⊢
      by_cases hc : r0 ≤ r ∧ r < r0 + n
      · obtain ⟨k, rfl⟩ : ∃ k, r = r0 + k := ⟨r - r0, by omega⟩
        rw [hin k (by omega), (hb _ hc.1 hc.2).2.1]
        exact (hr k (by omega)).1
      · rw [hout r hc]; exact f3 r hr'
    · simp only at hr' ⊢
      by_cases hc : r0 ≤ r ∧ r < r0 + n
      · obtain ⟨k, rfl⟩ : ∃ k, r = r0 + k := ⟨r - r0, by omega⟩
        rw [hin k (by omega), if_pos hc, Nat.add_sub_cancel_left, (hb _ hc.1 hc.2).2.2]
        exact le_min (hr k (by omega)).2.1 (hr k (by omega)).2.2
      · rw [hout r hc, if_neg hc]; exact f4 r hr'

theorem addConstraint_dims {q q' : QPMatrices K} {r0 n c0 len sz a b : ℕ} {c : ConstraintAt K}
    (h : q.addConstraint r0 n c0 len sz c = .ok q') :
    q'.DimensionsAreConsistent a b ↔ q.DimensionsAreConsistent a b := by
  obtain ⟨-, rfl⟩ := addConstraint_ok h
  exact Iff.rfl

theorem addConstraint_cost {q q' : QPMatrices K} {r0 n c0 len sz : ℕ} {c : ConstraintAt K}
    (h : q.addConstraint r0 n c0 len sz c = .ok q') : q'.Q = q.Q ∧ q'.p = q.p := by
  obtain ⟨-, rfl⟩ := addConstraint_ok h
  exact ⟨rfl, rfl⟩

theorem addConstraint_blank {q q' : QPMatrices K} {r0 n c0 len sz r1 n1 : ℕ} {c : ConstraintAt K}
    (h : q.addConstraint r0 n c0 len sz c = .ok q') (hb : BlankRows q r1 n1) (hr : r0 + n ≤ r1) :
    BlankRows q' r1 n1 := by
  obtain ⟨-, rfl⟩ := addConstraint_ok h
  intro r h1 h2
  obtain ⟨b1, b2, b3⟩ := hb r h1 h2
  have : ¬ (r0 ≤ r ∧ r < r0 + n) := by omega
  exact ⟨fun j => by simp only; rw [if_neg fun h => this h.1]; exact b1 j, b2,
    by simp only; rw [if_neg this]; exact b3⟩

/-! ### Adding an objective to the QP -/

theorem addObjective_ok {q q' : QPMatrices K} {w : K} {h : Res (Mat K)} {g : Res (Vec K)}
    (e : q.addObjective w h g = .ok q') :
    (w ≤ 0 ∧ q' = q) ∨ (0 < w ∧ ∃ H G, h = .ok H ∧ g = .ok G ∧ q.Q.rows = H.rows ∧ q.Q.cols = H.cols ∧
      q.p.size = G.size ∧ q' = { q with
        Q := ⟨q.Q.rows, q.Q.cols, fun i j => q.Q.get i j + w * H.get i j⟩
        p := ⟨q.p.size, fun i => q.p.get i + w * G.get i⟩ }) := by
  unfold QPMatrices.addObjective at e
  split at e
  · rename_i hw
    right
    obtain ⟨H, hH, e⟩ := bind_eq_ok.1 e
    obtain ⟨Q, hQ, e⟩ := bind_eq_ok.1 e
    obtain ⟨G, hG, e⟩ := bind_eq_ok.1 e
    obtain ⟨p, hp, e⟩ := bind_eq_ok.1 e
    obtain ⟨_, hQ', e1⟩ := bind_eq_ok.1 hQ
    obtain ⟨_, hp', e2⟩ := bind_eq_ok.1 hp
    have hQ' := requireSize_eq_ok.1 hQ'
    have hp' := requireSize_eq_ok.1 hp'
    have e1 := Except.ok.inj e1
    have e2 := Except.ok.inj e2
    subst e1 e2
    exact ⟨hw, H, G, hH, hG, hQ'.1, hQ'.2, hp', (Except.ok.inj e).symm⟩
  · rename_i hw
    exact Or.inl ⟨not_lt.1 hw, (Except.ok.inj e).symm⟩

/-- The part of the QP that objectives do not touch. -/
def SameCtr (q q' : QPMatrices K) : Prop :=
  q'.A = q.A ∧ q'.bl = q.bl ∧ q'.bu = q.bu ∧ q'.xl = q.xl ∧ q'.xu = q.xu ∧
    q'.Q.rows = q.Q.rows ∧ q'.Q.cols = q.Q.cols ∧ q'.p.size = q.p.size

theorem addObjective_same {q q' : QPMatrices K} {w : K} {h : Res (Mat K)} {g : Res (Vec K)}
    (e : q.addObjective w h g = .ok q') : SameCtr q q' := by
  rcases addObjective_ok e with ⟨-, rfl⟩ | ⟨-, H, G, -, -, -, -, -, rfl⟩ <;>
    exact ⟨rfl, rfl, rfl, rfl, rfl, rfl, rfl, rfl⟩

theorem SameCtr.trans {q q' q'' : QPMatrices K} (h : SameCtr q q') (h' : SameCtr q' q'') :
    SameCtr q q'' := by
  obtain ⟨a1, a2, a3, a4, a5, a6, a7, a8⟩ := h
  obtain ⟨b1, b2, b3, b4, b5, b6, b7, b8⟩ := h'
  exact ⟨b1.trans a1, b2.trans a2, b3.trans a3, b4.trans a4, b5.trans a5, b6.trans a6, b7.trans a7,
    b8.trans a8⟩

theorem SameCtr.dims {q q' : QPMatrices K} (h : SameCtr q q') {a b : ℕ} :
    q'.DimensionsAreConsistent a b ↔ q.DimensionsAreConsistent a b := by
  obtain ⟨a1, a2, a3, a4, a5, a6, a7, a8⟩ := h
  unfold QPMatrices.DimensionsAreConsistent
  rw [a1, a2, a3, a4, a5, a6, a7, a8]

theorem SameCtr.feasible {q q' : QPMatrices K} (h : SameCtr q q') (x : ℕ → K) :
    Spec.Feasible q' x ↔ Spec.Feasible q x := by
  obtain ⟨a1, a2, a3, a4, a5, -⟩ := h
  unfold Spec.Feasible
  rw [a1, a2, a3, a4, a5]

theorem SameCtr.blank {q q' : QPMatrices K} (h : SameCtr q q') {r0 n : ℕ} (hb : BlankRows q r0 n) :
    BlankRows q' r0 n := by
  obtain ⟨a1, a2, a3, -⟩ := h
  unfold BlankRows
  rw [a1, a2, a3]
  exact hb

theorem reset_blank (q : QPMatrices K) (r0 n : ℕ) : BlankRows q.reset r0 n :=
  fun _ _ _ => ⟨fun _ => rfl, rfl, rfl⟩

theorem reset_feasible {q : QPMatrices K} {a b : ℕ} (hd : q.DimensionsAreConsistent a b) (x : ℕ → K) :
    Spec.Feasible q.reset x ↔ ∀ i < a, |x i| ≤ MAXBOUND := by
  have hMB : (0 : K) < MAXBOUND := MAXBOUND_pos
  obtain ⟨d1, d2, d3, d4, d5, d6, d7, d8, d9⟩ := hd
  unfold Spec.Feasible QPMatrices.reset
  simp only [Vec.fill, zero_mul, sum_const_zero, d4, d5]
  constructor
  · rintro ⟨h1, h2, -, -⟩ i hi
    exact abs_le.2 ⟨h1 i hi, h2 i hi⟩
  · intro h
    exact ⟨fun i hi => (abs_le.1 (h i hi)).1, fun i hi => (abs_le.1 (h i hi)).2,
      fun _ _ => by linarith, fun _ _ => hMB.le⟩

/-! ### The two constraints -/

/-- Displacement from the previous footstep (or the support foot) of footstep `i`, in the plan `x`. -/
def stepOffset (N M : ℕ) (sx sy : K) (x : ℕ → K) (i : ℕ) : Pt K :=
  ⟨x (2 * N + i) - (if i = 0 then sx else x (2 * N + i - 1)),
    x (2 * N + M + i) - (if i = 0 then sy else x (2 * N + M + i - 1))⟩

theorem copConstraint_ok {hull : Vec (Pt K) → Res (Polygon K)} {l : Lip K} {s : Sup K} {bs : ℕ}
    {x0 : Vec K} {c : ConstraintAt K} (h : copConstraint hull l s bs x0 = .ok c) :
    s.N = l.N ∧ x0.size = 2 * l.N + 2 * s.M ∧
    ∃ ps, s.copPolygons hull l.N = .ok ps ∧ ps.size = l.N ∧
      (∀ k < l.N, c.inf.get k = (ps.get k).xInf - x0.get k ∧
        c.inf.get (l.N + k) = (ps.get k).yInf - x0.get (l.N + k) ∧
        c.sup.get k = (ps.get k).xSup - x0.get k ∧
        c.sup.get (l.N + k) = (ps.get k).ySup - x0.get (l.N + k)) ∧
      ∀ i < l.N, ∀ t < (ps.get i).nbGeneral,
        (∀ x : ℕ → K, rowDot c.A (rowStart ps i + t) x
          = (ps.get i).coefX.get t * x i + (ps.get i).coefY.get t * x (l.N + i)) ∧
        c.f.get (rowStart ps i + t) = (ps.get i).coefX.get t * x0.get i
          + (ps.get i).coefY.get t * x0.get (l.N + i) + (ps.get i).const.get t := by
  unfold copConstraint at h
  obtain ⟨_, hN, h⟩ := bind_eq_ok.1 h
  obtain ⟨_, hx, h⟩ := bind_eq_ok.1 h
  obtain ⟨ps, hps, h⟩ := bind_eq_ok.1 h
  obtain ⟨r, hr, h⟩ := bind_eq_ok.1 h
  obtain ⟨v, hv, h⟩ := bind_eq_ok.1 h
  obtain ⟨f, hf, h⟩ := bind_eq_ok.1 h
  obtain ⟨sg, hsg, h⟩ := bind_eq_ok.1 h
  obtain ⟨⟨inf, sup⟩, hb, h⟩ := bind_eq_ok.1 h
  have hN := require_eq_ok.1 hN
  have hx := require_eq_ok.1 hx
  have hpsz := (buildVec_ok hps).1
  obtain ⟨r1, r2, r3, r4⟩ := generalRows_ok (copStep_spec l.N) hr
  refine ⟨hN, hx, ps, hps, hpsz, ?_⟩
  simp only [Mat.mulVec?, bind_eq_ok, requireSize_eq_ok, res_pure, Except.ok.injEq] at hv
  obtain ⟨_, -, rfl⟩ := hv
  simp only [Vec.add?, bind_eq_ok, requireSize_eq_ok, res_pure, Except.ok.injEq] at hf
  obtain ⟨_, -, rfl⟩ := hf
  simp only [Vec.segment?, bind_eq_ok, requireIndex_eq_ok, res_pure, Except.ok.injEq] at hsg
  obtain ⟨_, -, rfl⟩ := hsg
  simp only [copBounds, Vec.sub?, bind_eq_ok, requireSize_eq_ok, requireIndex_eq_ok, require_eq_ok,
    res_pure, Except.ok.injEq, Prod.mk.injEq] at hb
  obtain ⟨_, -, _, -, i', ⟨_, -, rfl⟩, s', ⟨_, -, rfl⟩, rfl, rfl⟩ := hb
  have h := Except.ok.inj h
  subst h
  refine ⟨fun k hk => ?_, fun i hi t ht => ?_⟩
  · have e1 : ¬ l.N + k < l.N := by omega
    have e2 : l.N + k < 2 * l.N := by omega
    simp [hk, e1, e2]
  · have hrow := r4 i (by omega) t ht
    have e : ∀ x : ℕ → K, rowDot r.A (rowStart ps i + t) x
        = (ps.get i).coefX.get t * x i + (ps.get i).coefY.get t * x (l.N + i) := by
      intro x
      unfold rowDot
      rw [r2, ← sum_copEntry (ps.get i) t x hi (show 2 * l.N ≤ x0.size by omega)]
      exact sum_congr rfl fun c _ => by rw [hrow.1 c]
    refine ⟨e, ?_⟩
    simp only
    rw [hrow.2]
    have := e x0.get
    unfold rowDot at this
    rw [this]

theorem footConstraint_ok {l : Lip K} {s : Sup K} {x0 : Vec K} {c : ConstraintAt K}
    (h : footConstraint l s x0 = .ok c) :
    s.N = l.N ∧ x0.size = 2 * l.N + 2 * s.M ∧
    ∃ ps sx sy, s.kinPolygons = .ok ps ∧ ps.size = s.M ∧ s.supportX = .ok sx ∧ s.supportY = .ok sy ∧
      (∀ k < s.M,
        c.inf.get k = (ps.get k).xInf + (if k = 0 then sx.p else x0.get (2 * l.N + k - 1))
          - x0.get (2 * l.N + k) ∧
        c.inf.get (s.M + k) = (ps.get k).yInf
          + (if k = 0 then sy.p else x0.get (2 * l.N + s.M + k - 1)) - x0.get (2 * l.N + s.M + k) ∧
        c.sup.get k = (ps.get k).xSup + (if k = 0 then sx.p else x0.get (2 * l.N + k - 1))
          - x0.get (2 * l.N + k) ∧
        c.sup.get (s.M + k) = (ps.get k).ySup
          + (if k = 0 then sy.p else x0.get (2 * l.N + s.M + k - 1)) - x0.get (2 * l.N + s.M + k)) ∧
      ∀ i < s.M, ∀ t < (ps.get i).nbGeneral,
        (∀ x : ℕ → K, rowDot c.A (rowStart ps i + t) x
          = (ps.get i).coefX.get t * (stepOffset l.N s.M 0 0 x i).x
            + (ps.get i).coefY.get t * (stepOffset l.N s.M 0 0 x i).y) ∧
        c.f.get (rowStart ps i + t) = (ps.get i).coefX.get t * (stepOffset l.N s.M sx.p sy.p x0.get i).x
          + (ps.get i).coefY.get t * (stepOffset l.N s.M sx.p sy.p x0.get i).y
          + (ps.get i).const.get t := by
  unfold footConstraint at h
  obtain ⟨_, hN, h⟩ := bind_eq_ok.1 h
  obtain ⟨_, hx, h⟩ := bind_eq_ok.1 h
  obtain ⟨ps, hps, h⟩ := bind_eq_ok.1 h
  obtain ⟨sx, hsx, h⟩ := bind_eq_ok.1 h
  obtain ⟨sy, hsy, h⟩ := bind_eq_ok.1 h
  obtain ⟨r, hr, h⟩ := bind_eq_ok.1 h
  obtain ⟨v, hv, h⟩ := bind_eq_ok.1 h
  obtain ⟨f, hf, h⟩ := bind_eq_ok.1 h
  obtain ⟨sg, hsg, h⟩ := bind_eq_ok.1 h
  obtain ⟨⟨inf, sup⟩, hb, h⟩ := bind_eq_ok.1 h
  have hN := require_eq_ok.1 hN
  have hx := require_eq_ok.1 hx
  have hpsz := (buildVec_ok hps).1
  obtain ⟨r1, r2, r3, r4⟩ := generalRows_ok (footStep_spec s.N s.M sx.p sy.p) hr
  refine ⟨hN, hx, ps, sx, sy, hps, hpsz, hsx, hsy, ?_⟩
  simp only [Mat.mulVec?, bind_eq_ok, requireSize_eq_ok, res_pure, Except.ok.injEq] at hv
  obtain ⟨_, -, rfl⟩ := hv
  simp only [Vec.add?, bind_eq_ok, requireSize_eq_ok, res_pure, Except.ok.injEq] at hf
  obtain ⟨_, -, rfl⟩ := hf
  simp only [Vec.segment?, bind_eq_ok, requireIndex_eq_ok, res_pure, Except.ok.injEq] at hsg
  obtain ⟨_, -, rfl⟩ := hsg
  simp only [footBounds, Vec.sub?, bind_eq_ok, requireSize_eq_ok, require_eq_ok,
    res_pure, Except.ok.injEq, Prod.mk.injEq] at hb
  obtain ⟨_, -, i', ⟨_, -, rfl⟩, s', ⟨_, -, rfl⟩, rfl, rfl⟩ := hb
  have h := Except.ok.inj h
  subst h
  refine ⟨fun k hk => ?_, fun i hi t ht => ?_⟩
  · have e1 : ¬ s.M + k < s.M := by omega
    have e2 : s.M + k - s.M = k := by omega
    have e3 : (s.M + k = s.M) = (k = 0) := by simp
    have e4 : 2 * l.N + (s.M + k) = 2 * l.N + s.M + k := by omega
    simp only [hk, e1, if_true, if_false, e2, e3, e4]
    by_cases h0 : k = 0
    · simp [h0]
    · have e5 : 2 * l.N + (k - 1) = 2 * l.N + k - 1 := by omega
      have e6 : 2 * l.N + (s.M + k - 1) = 2 * l.N + s.M + k - 1 := by omega
      simp only [if_neg h0, e5, e6, and_self]
  · have hrow := r4 i (by omega) t ht
    rw [hN] at hrow
    have e : ∀ x : ℕ → K, rowDot r.A (rowStart ps i + t) x
        = (ps.get i).coefX.get t * (x (2 * l.N + i) - if i = 0 then 0 else x (2 * l.N + i - 1))
        + (ps.get i).coefY.get t *
          (x (2 * l.N + s.M + i) - if i = 0 then 0 else x (2 * l.N + s.M + i - 1)) := by
      intro x
      unfold rowDot
      rw [r2, ← sum_footEntry (ps.get i) t x hi (show 2 * l.N + 2 * s.M ≤ x0.size by omega)]
      exact sum_congr rfl fun c _ => by rw [hrow.1 c]
    refine ⟨e, ?_⟩
    simp only
    rw [hrow.2]
    have := e x0.get
    unfold rowDot at this
    rw [this]
    unfold footConst stepOffset
    by_cases h0 : i = 0
    · simp only [h0, if_true]; ring
    · simp only [if_neg h0]

end MPC
