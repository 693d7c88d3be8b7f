import Verif.Lemmas.Hold
import Verif.Props.CopRun

/-! # The jerks of two successive cycles -/

set_option linter.unusedSectionVars false

namespace MPC

open Finset

variable {K : Type} [Field K] [LinearOrder K] [IsStrictOrderedRing K]

/-! ### Motions -/

theorem cubic_comp (s : State3 K) (j t u : K) : Spec.cubic (Spec.cubic s j t) j u = Spec.cubic s j (t + u) := by
  unfold Spec.cubic
  congr 1 <;> ring

/-- The motion, seen a little later. -/
theorem traj_hold (fb S T : K) (x : State3 K) (J : ℕ → K) (i : ℕ) :
    Spec.jerkTrajectory S T (Spec.cubic x (J 0) fb) J i = Spec.jerkTrajectory (fb + S) T x J i := by
  induction i with
  | zero => exact cubic_comp _ _ _ _
  | succ i ih => unfold Spec.jerkTrajectory; rw [ih]

/-- The motion, seen from the first sample. -/
theorem traj_next (S T : K) (x : State3 K) (J : ℕ → K) (i : ℕ) :
    Spec.jerkTrajectory T T (Spec.cubic x (J 0) S) (fun k => J (k + 1)) i = Spec.jerkTrajectory S T x J (i + 1) := by
  induction i with
  | zero => rfl
  | succ i ih => unfold Spec.jerkTrajectory; rw [ih]

/-- Coefficient of the jerk in the CoP. -/
def copPivot (h t : K) : K := t ^ 3 / 6 - h / GRAVITY_NORM * t

theorem cop_cubic (h : K) (s : State3 K) (j t : K) :
    Spec.copOf 1 h 0 GRAVITY_NORM (Spec.cubic s j t)
      = Spec.copOf 1 h 0 GRAVITY_NORM (Spec.cubic s 0 t) + copPivot h t * j := by
  unfold Spec.copOf Spec.cubic copPivot
  ring

/-- The CoPs at the samples determine the jerks. -/
theorem jerks_unique {S T h : K} {x : State3 K} {J J' : ℕ → K} {n : ℕ} (hS : copPivot h S ≠ 0)
    (hT : 2 ≤ n → copPivot h T ≠ 0) (e : ∀ i < n, Spec.motionCop S T h x J i = Spec.motionCop S T h x J' i) :
    ∀ i < n, J i = J' i ∧ Spec.jerkTrajectory S T x J i = Spec.jerkTrajectory S T x J' i := by
  intro i
  induction i with
  | zero =>
    intro hi
    have h0 := e 0 hi
    unfold Spec.motionCop Spec.jerkTrajectory at h0
    rw [cop_cubic h x (J 0), cop_cubic h x (J' 0)] at h0
    have : J 0 = J' 0 := mul_left_cancel₀ hS (add_left_cancel h0)
    refine ⟨this, ?_⟩
    unfold Spec.jerkTrajectory
    rw [this]
  | succ i ih =>
    intro hi
    have h0 := e (i + 1) hi
    obtain ⟨-, h1⟩ := ih (by omega)
    unfold Spec.motionCop Spec.jerkTrajectory at h0
    rw [h1, cop_cubic h _ (J (i + 1)), cop_cubic h _ (J' (i + 1))] at h0
    have : J (i + 1) = J' (i + 1) := mul_left_cancel₀ (hT (by omega)) (add_left_cancel h0)
    refine ⟨this, ?_⟩
    unfold Spec.jerkTrajectory
    rw [h1, this]

/-! ### Pivots -/

theorem copU_first (S T h : K) : copU S T h GRAVITY_NORM 1 0 0 = copPivot h S := by
  unfold copU copPivot posU accU
  simp

theorem copU_diag (S T h : K) (i : ℕ) : copU S T h GRAVITY_NORM 1 (i + 1) (i + 1) = copPivot h T := by
  unfold copU copPivot
  rw [posU_diag, accU_diag, one_mul]

/-- The CoP dynamics is invertible only when the coefficients of the jerks are not zero. -/
theorem pivots_of_inverse {S T h : K} {N : ℕ} {B : Mat K} (hN : 0 < N)
    (hB : Spec.IsInverse N ⟨N, N, copU S T h GRAVITY_NORM 1⟩ B) :
    copPivot h S ≠ 0 ∧ (2 ≤ N → copPivot h T ≠ 0) := by
  obtain ⟨-, -, hr, hc, ⟨P, hP, hP1⟩, ⟨Q, hQ, hQ1⟩⟩ := hB
  obtain ⟨-, rfl⟩ := Mat.mul?_eq_ok hP
  obtain ⟨-, rfl⟩ := Mat.mul?_eq_ok hQ
  constructor
  · intro h0
    have := hP1.2.2 0 (by exact hN) 0 (by show 0 < B.cols; omega)
    simp only [Mat.one] at this
    rw [if_pos trivial, sum_eq_zero] at this
    · exact zero_ne_one this
    · intro k hk
      rcases Nat.eq_zero_or_pos k with rfl | hk0
      · rw [copU_first, h0, zero_mul]
      · rw [copU_upper _ _ _ _ _ hk0, zero_mul]
  · intro h2 h0
    obtain ⟨m, rfl⟩ : ∃ m, N = m + 2 := ⟨N - 2, by omega⟩
    have := hQ1.2.2 (m + 1) (by show m + 1 < B.rows; omega) (m + 1) (by show m + 1 < m + 2; omega)
    simp only [Mat.one] at this
    rw [if_pos trivial, sum_eq_zero] at this
    · exact zero_ne_one this
    · intro k hk
      rw [mem_range, hc] at hk
      rcases Nat.lt_or_ge k (m + 1) with hk0 | hk0
      · rw [copU_upper _ _ _ _ _ hk0, mul_zero]
      · obtain rfl : k = m + 1 := by omega
        rw [copU_diag, h0, mul_zero]

/-! ### Polygons -/

theorem Sup.updateFeet_kin {s s' : Sup K} {sv : Vec K} {fb : K} (h : s.updateFeetStates sv fb = .ok s') :
    s'.left.kin = s.left.kin ∧ s'.right.kin = s.right.kin := by
  have hfly : ∀ {f g : Foot K} {a b c d e : K}, f.fly a b c d e = .ok g → g.kin = f.kin := by
    intro f g a b c d e h
    unfold Foot.fly at h
    obtain ⟨_, -, h⟩ := bind_eq_ok.1 h
    obtain ⟨_, -, h⟩ := bind_eq_ok.1 h
    dsimp only at h
    split at h
    all_goals
      obtain ⟨_, -, h⟩ := bind_eq_ok.1 h
      cases h
      rfl
  obtain ⟨f, hf, -⟩ := bind_eq_ok.1 h
  have hf : s.timeline[0]? = some f := listAt_eq_ok.1 hf
  rcases Sup.updateFeet_cases hf h with ⟨-, e1, e2⟩ | ⟨-, -, -, ⟨-, e1, e2⟩ | ⟨-, e1, e2⟩⟩
  · rw [e1, e2]; exact ⟨rfl, rfl⟩
  · rw [e1]; exact ⟨rfl, hfly e2⟩
  · rw [e1]; exact ⟨hfly e2, rfl⟩

/-- During a walk, double supports do not come after single supports. -/
theorem Sup.typeAt_walk {s : Sup K} (hm : s.move = true) {t : PhaseType} (ht : t ≠ .DS) (k : ℕ) :
    s.typeAt t k ≠ .DS := by
  induction k with
  | zero => exact ht
  | succ k ih =>
    show s.nextType (s.typeAt t k) ≠ .DS
    cases h : s.typeAt t k with
    | DS => exact absurd h ih
    | leftSS => simp [Sup.nextType, hm]
    | rightSS => simp [Sup.nextType, hm]

/-- What the feet keep inside of a sampling interval. -/
theorem hold_feet [Archimedean K] [FloorRing K] {fb : K} {a : Sup K × Vec K} (hR : Reach (· = fb) CanStop a)
    (hg : Grid fb a.1) {s' s2 s3 : Sup K} {v' x v3 : Vec K} (hu : a.1.updateTimeline a.2 fb = .ok (s', v'))
    (hx : x.size = v'.size) (hf : s'.updateFeetStates ⟨2 * s'.M, fun i => x.get (2 * s'.N + i)⟩ fb = .ok s2)
    (hu2 : s2.updateTimeline x fb = .ok (s3, v3)) :
    s3.move = s'.move ∧ s3.left.cop = s'.left.cop ∧ s3.right.cop = s'.right.cop ∧ s3.left.kin = s'.left.kin ∧
    s3.right.kin = s'.right.kin ∧ x.size = 2 * s'.N + 2 * s'.M ∧ ∃ f, s'.timeline[0]? = some f ∧
      (f.type ≠ .DS → 2 ≤ s'.timeline.length → 0 < s'.M) ∧ (f.type = .DS → s3.left = s'.left ∧ s3.right = s'.right) ∧ (f.type = .leftSS → s3.left = s'.left) ∧
      (f.type = .rightSS → s3.right = s'.right) ∧
      (f.type ≠ .DS → s'.move = true → ∀ (k : ℕ) (ph : Phase K), s'.timeline[k]? = some ph → ph.type ≠ .DS) := by
  have hfb : 0 < fb := EPS_pos.trans hg.pos
  have hcyc : Cycle fb a (s2, x) := ⟨s', v', hu, hx, hf⟩
  obtain ⟨f0, mv0, R0, hI⟩ := hR.ginv hfb.le hg
  obtain ⟨s₁, v₁, f₁, m, hU, hS⟩ := hI.update_shown hg hu
  obtain ⟨f2, R2, hI2⟩ := hI.cycle hg hcyc
  obtain ⟨g1, g2, g3, g4, -⟩ := hcyc.params hI.hist
  have hg2 : Grid fb s2 := hg.congr g1 g2 g3 g4
  obtain ⟨t₁, w₁, f₂, m₂, hU2, hS2⟩ := hI2.update_shown hg2 hu2
  obtain ⟨e1, e2, e3, e4, e5, e6, e7, e8, e9, -⟩ := Sup.updateFeet_frame hf
  have hp := hU.preview.same
  have hq := hU2.preview.same
  have hcont := C31_contact a (s2, x) fb hcyc f₁ _ hU.running
  obtain ⟨c1, c2⟩ := Sup.updateFeet_cop hf
  obtain ⟨k1, k2⟩ := Sup.updateFeet_kin hf
  have hL : s3.left = s2.left := by rw [hq.left, hU2.left]
  have hRR : s3.right = s2.right := by rw [hq.right, hU2.right]
  have hL' : s'.left = a.1.left := by rw [hp.left, hU.left]
  have hR' : s'.right = a.1.right := by rw [hp.right, hU.right]
  refine ⟨by rw [hq.move, hU2.move]; exact e8, by rw [hL, c1], by rw [hRR, c2], by rw [hL, k1], by rw [hRR, k2],
    by rw [hx, hU.size], f₁, hU.front', ?_, ?_, ?_, ?_, ?_⟩
  · intro ht hlen
    rw [hU.preview.tl, List.length_map, List.length_range] at hlen
    rw [hU.preview.M]
    obtain ⟨j, hj⟩ : ∃ j, (s₁.sched f₁.type s₁.N).1 = j + 1 := ⟨(s₁.sched f₁.type s₁.N).1 - 1, by omega⟩
    rw [hj, Sup.ssCount_shift, if_neg ht]
    omega
  · intro ht
    obtain ⟨k1, k2⟩ := hcont.1 (Or.inl ht)
    exact ⟨by rw [hL, hL']; exact k1, by rw [hRR, hR']; exact k2⟩
  · intro ht; rw [hL, hL']; exact hcont.2.1 ht
  · intro ht; rw [hRR, hR']; exact hcont.2.2 ht
  · intro ht hm k ph hk
    have hm : s₁.move = true := by rw [← hp.move]; exact hm
    rw [hU.preview.tl, List.getElem?_map] at hk
    obtain ⟨j, -, rfl⟩ := Option.map_eq_some_iff.1 hk
    cases j with
    | zero => exact ht
    | succ j => exact Sup.typeAt_walk hm ht (j + 1)

/-- The polygons do not change inside of a sampling interval; at the end of a walk, provided that the last footstep is
not moved. -/
theorem hold_polygons [Archimedean K] [FloorRing K] {hull : Vec (Pt K) → Res (Polygon K)} {fb : K} {a : Sup K × Vec K}
    (hR : Reach (· = fb) CanStop a)
    (hg : Grid fb a.1) {s' s2 s3 : Sup K} {v' x v3 : Vec K} (hu : a.1.updateTimeline a.2 fb = .ok (s', v'))
    (hx : x.size = v'.size) (hf : s'.updateFeetStates ⟨2 * s'.M, fun i => x.get (2 * s'.N + i)⟩ fb = .ok s2) {n : ℤ}
    (hn : s'.nbCalls = .ok n) (h2 : 2 ≤ n) (hu2 : s2.updateTimeline x fb = .ok (s3, v3))
    (hstop : s'.move = false → (∃ f, s'.timeline[0]? = some f ∧ f.type ≠ .DS) →
      Spec.footstep s'.N s'.M x.get 0 = Spec.footstep s'.N s'.M v'.get 0) :
    (∀ i < s'.N, ∀ g, Spec.SupportPolygon hull s3 i g ↔ Spec.SupportPolygon hull s' i g) ∧
    ∀ i g, Spec.StepPolygon s3 i g ↔ Spec.StepPolygon s' i g := by
  obtain ⟨hP, -, hz, hv⟩ := hold_preview hR hg hu hx hf hn h2 hu2
  obtain ⟨hm, c1, c2, k1, k2, hsz, f, hf0, hpos, hd, hl, hr, hno⟩ := hold_feet hR hg hu hx hf hu2
  have sv' := Sup.updateTimeline_stepVec hu
  have sv3 := Sup.updateTimeline_stepVec hu2
  constructor
  · intro i hi g
    have hds : ∀ ph, s'.timeline[s'.phaseIdx.get i]? = some ph → ph.type = .DS → ∀ l r t,
        Spec.DoubleSupport s3 l r t ↔ Spec.DoubleSupport s' l r t := by
      intro ph hph ht l r t
      unfold Spec.DoubleSupport
      rw [hP.timeline, hm, hP.steps]
      refine exists_congr fun f' => and_congr_right fun hf' => ?_
      obtain rfl : f = f' := Option.some.inj (hf0.symm.trans hf')
      by_cases hfd : f.type = .DS
      · obtain ⟨d1, d2⟩ := hd hfd
        rw [d1, d2]
        simp [hfd]
      · have hmv : s'.move = false := by
          cases hmv : s'.move
          · rfl
          · exact absurd ht (hno hfd hmv _ _ hph)
        have hst := hstop hmv ⟨f, hf0, hfd⟩
        unfold Spec.footstep at hst
        rw [Pt.mk.injEq] at hst
        have es : s3.stepVec.get 0 = s'.stepVec.get 0 ∧ s3.stepVec.get s'.M = s'.stepVec.get s'.M := by
          have hM : 0 < s'.M := by
            refine hpos hfd ?_
            by_contra hlen
            rcases Nat.eq_zero_or_pos (s'.phaseIdx.get i) with h0 | h0
            · rw [h0] at hph
              exact hfd (Option.some.inj (hf0.symm.trans hph) ▸ ht)
            · rw [List.getElem?_eq_none (by omega)] at hph
              cases hph
          rw [sv3, sv3, sv', sv', hP.N, hv _ (by omega), hv _ (by omega)]
          exact hst
        rw [es.1, es.2]
        cases ht' : f.type with
        | DS => exact absurd ht' hfd
        | leftSS => rw [hl ht']; simp [hmv]
        | rightSS => rw [hr ht']; simp [hmv]
    unfold Spec.SupportPolygon
    rw [hP.timeline, hP.phase i hi, c1, c2]
    refine exists_congr fun ph => and_congr_right fun hph => and_congr_right fun _ => and_congr_right fun _ => ?_
    refine forall_congr' fun ht => exists_congr fun l => exists_congr fun r => exists_congr fun t =>
      exists_congr fun p => ?_
    rw [hds ph hph ht]
    unfold Spec.IsUnion
    rw [c1, c2]
  · intro i g
    unfold Spec.StepPolygon
    rw [hP.timeline, hm, k1, k2]

/-! ### The generator -/

section

variable [FloorRing K]

/-- `prepare`, with the feedback period of the model. -/
theorem prepare_same {hull : Vec (Pt K) → Res (Polygon K)} {w w' : HWalkgen K} {fb : K} {idx : ℕ}
    {qp : QPMatrices K} (hp : w.prepare hull fb = .ok (w', idx, qp)) :
    w'.first = false ∧ (w.first = false → w.sup.updateTimeline w.X fb = .ok (w'.sup, w'.X)) ∧
      (w.lip.fb = fb → w'.lip = w.lip) := by
  obtain ⟨w0, a, b, q0, q1, hb, -, -, -, -, -, rfl⟩ := hprepare_ok hp
  unfold HWalkgen.begin at hb
  obtain ⟨⟨s, X⟩, h1, hb⟩ := bind_eq_ok.1 hb
  have key : ∃ l, (w.lip.fb = fb → l = w.lip) ∧
      HWalkgen.firstGuess { w with sup := s, X := X, lip := l } = .ok w0 := by
    dsimp only at hb
    split at hb
    · next hc =>
      obtain ⟨l, -, hb⟩ := bind_eq_ok.1 hb
      obtain ⟨_, -, hb⟩ := bind_eq_ok.1 hb
      obtain ⟨_, -, hb⟩ := bind_eq_ok.1 hb
      refine ⟨l, fun h => ?_, hb⟩
      rw [h, sub_self, abs_zero] at hc
      exact absurd hc (not_lt.2 EPS_pos.le)
    · obtain ⟨l, hl, hb⟩ := bind_eq_ok.1 hb
      obtain ⟨_, -, hb⟩ := bind_eq_ok.1 hb
      obtain ⟨_, -, hb⟩ := bind_eq_ok.1 hb
      exact ⟨l, fun _ => (Except.ok.inj hl).symm, hb⟩
  obtain ⟨l, hl, hb⟩ := key
  show w0.first = false ∧ (_ → _ = Except.ok (w0.sup, w0.X)) ∧ (_ → w0.lip = w.lip)
  unfold HWalkgen.firstGuess at hb
  split at hb
  · next hf =>
    simp only [bind_eq_ok] at hb
    obtain ⟨_, -, _, -, _, -, _, -, _, -, _, -, _, -, _, -, _, -, _, -, _, -, _, -, hb⟩ := hb
    obtain rfl := Except.ok.inj hb
    refine ⟨rfl, fun h => ?_, hl⟩
    have hf : w.first = true := hf
    rw [h] at hf
    cases hf
  · next hf =>
    obtain rfl := Except.ok.inj hb
    refine ⟨by simpa using hf, fun _ => h1, hl⟩

/-- Two successive control cycles, the second one up to its QP. -/
structure CyclePair (hull : Vec (Pt K) → Res (Polygon K)) (w w' w2 w'' : HWalkgen K) (fb : K) (v' : Vec K) : Prop where
  update : w.sup.updateTimeline w.X fb = .ok (w'.sup, v')
  size' : w'.X.size = v'.size
  foot' : ∀ k, 2 * w'.lip.N ≤ k → w'.X.get k = v'.get k
  size : w2.X.size = v'.size
  feet : w'.sup.updateFeetStates ⟨2 * w'.sup.M, fun i => w2.X.get (2 * w'.sup.N + i)⟩ fb = .ok w2.sup
  convert : HWalkgen.convert { w' with X := w2.X } = .ok w2.transformedX
  next : w2.sup.updateTimeline w2.X fb = .ok (w''.sup, w''.X)
  history : HumHistory hull w2
  N : w'.sup.N = w'.lip.N
  N'' : w''.sup.N = w''.lip.N
  pos : 0 < w'.lip.N
  x : w''.lip.x = Spec.cubic w'.lip.x (w2.transformedX.get 0) fb
  y : w''.lip.y = Spec.cubic w'.lip.y (w2.transformedX.get w'.lip.N) fb
  height : w''.lip.comHeight = w'.lip.comHeight
  samples : w''.lip.N = w'.lip.N
  times : w'.lip.fb = fb → w''.lip.fb = fb ∧ w''.lip.T = w'.lip.T
  withCop : w''.withCop = w'.withCop
  withFeet : w''.withFeet = w'.withFeet

theorem cycle_pair {hull : Vec (Pt K) → Res (Polygon K)} {o : Oracle K} {w w' w2 w'' : HWalkgen K} {fb : K} {b : Bool}
    {qp qp'' : QPMatrices K} (hr : HumHistory hull w) (hG : HumGives hull w fb w' qp)
    (hs : w.solve hull o fb = .ok (b, w2)) (hG'' : HumGives hull w2 fb w'' qp'') :
    ∃ v', CyclePair hull w w' w2 w'' fb v' := by
  obtain ⟨idx, nv, nc, hp, hd⟩ := hG
  obtain ⟨idx'', nv'', nc'', hp'', hd''⟩ := hG''
  obtain ⟨w1, qp1, ⟨idx1, nv1, nc1, hp1, hd1⟩, h1, -, h3, h4, h5, h6, h7⟩ := C41_follows hull o w w2 fb b hr hs
  obtain ⟨rfl, h⟩ := Prod.mk.inj (Except.ok.inj (hp1.symm.trans hp))
  have hr2 : HumHistory hull w2 := .call (c := .solve fb) hr hs
  obtain ⟨hI, -, -, -⟩ := hr.inv.prepare hp
  obtain ⟨hI'', -, -, -⟩ := hr2.inv.prepare hp''
  obtain ⟨v', hu, hz', hf'⟩ := hprepare_timeline hp
  obtain ⟨f1, -, -⟩ := prepare_same hp
  obtain ⟨-, g2, g3⟩ := prepare_same hp''
  obtain ⟨s1, s2, s3, s4⟩ := prepare_state hr2.inv hp''
  obtain ⟨fr1, -⟩ := HWalkgen.prepare_frame hr.inv hp
  obtain ⟨fr2, -⟩ := HWalkgen.prepare_frame hr2.inv hp''
  have fr := HWalkgen.solve_frame hr.inv hs
  obtain ⟨hH, hT, hfb, hfirst⟩ : w2.lip.comHeight = w1.lip.comHeight ∧ w2.lip.T = w1.lip.T ∧ w2.lip.fb = w1.lip.fb ∧
      w2.first = w1.first := by
    obtain ⟨w3, idx3, qp3, sv, dX, sv', hp3, -, -, -, -, hfin⟩ := HWalkgen.solve_stages hs
    obtain ⟨rfl, -⟩ := Prod.mk.inj (Except.ok.inj (hp3.symm.trans hp))
    unfold HWalkgen.finish at hfin
    simp only [bind_eq_ok] at hfin
    obtain ⟨X, -, t, -, j0, -, lip, hx3, j1, -, lip2, hy3, seg, -, sup, -, hfin⟩ := hfin
    obtain rfl := Except.ok.inj hfin
    obtain ⟨sx, -, hx3⟩ := bind_eq_ok.1 hx3
    obtain ⟨sy, -, hy3⟩ := bind_eq_ok.1 hy3
    have hx3 := Except.ok.inj hx3
    have hy3 := Except.ok.inj hy3
    dsimp only
    rw [← hy3, ← hx3]
    exact ⟨rfl, rfl, rfl, rfl⟩
  refine ⟨v', ⟨hu, hz', hf', h1.trans hz', by rw [hI.N]; exact h7, h4, g2 (hfirst.trans f1), hr2, hI.N, hI''.N,
    hI.fresh.N, s1.trans h5, s2.trans h6, s3.trans hH, ?_, ?_, ?_, ?_⟩⟩
  · rw [fr2.N, fr.N, fr1.N]
  · intro hf
    have := g3 (hfb.trans hf)
    rw [this]
    exact ⟨hfb.trans hf, hT⟩
  · rw [fr2.withCop, fr.withCop, fr1.withCop]
  · rw [fr2.withFeet, fr.withFeet, fr1.withFeet]

/-- The coefficients of the jerks are not zero. -/
theorem convert_pivots {hull : Vec (Pt K) → Res (Polygon K)} {w w' : HWalkgen K} {fb : K} {idx : ℕ}
    {qp : QPMatrices K} (hr : HumHistory hull w) (hp : w.prepare hull fb = .ok (w', idx, qp)) {X t : Vec K}
    (ht : HWalkgen.convert { w' with X := X } = .ok t) {n : ℤ} (hn : w'.sup.nbCalls = .ok n)
    (he : w'.ExactInverse n) :
    copPivot w'.lip.comHeight (n * w'.lip.fb) ≠ 0 ∧ (2 ≤ w'.lip.N → copPivot w'.lip.comHeight w'.lip.T ≠ 0) := by
  obtain ⟨hI, hsh, -, hfb⟩ := hr.inv.prepare hp
  obtain ⟨hX, nb, dx, dy, Bx, By, px, py, hD⟩ := convert_data (w := { w' with X := X }) hI.fresh ht
  have hDD : HumData w'.lip w'.sup nb dx dy Bx By px py := hD
  obtain ⟨hnb, hdx, hdy, hBx, hBy, hpx, hpy⟩ := hDD
  obtain ⟨n', hn', hnb'⟩ := bind_eq_ok.1 hnb
  obtain rfl : n' = n := Except.ok.inj (hn'.symm.trans hn)
  have hnb' : n' - 1 = nb := Except.ok.inj hnb'
  obtain ⟨k, hk, hk', edx⟩ := Lip.dyn_ok hdx
  obtain ⟨hfp, hgood⟩ := hI.fresh.pos (by omega)
  have hS : (n' : K) * w'.lip.fb = ((k + 1 : ℕ) : K) * w'.lip.fb := by
    have : n' = ((k + 1 : ℕ) : ℤ) := by push_cast; omega
    rw [this]
    push_cast
    rfl
  rw [hI.fresh.copX k hk', hI.gx, hI.gz, hI.mass, hI.total, div_one, ← hS] at edx
  have hok : computeCopDynamic ((n' : K) * w'.lip.fb) w'.lip.T w'.lip.N w'.lip.comHeight 0
      GRAVITY_NORM 1 1 = .ok dx := by
    rw [edx]
    have := computeCopDynamic_ok (S := (n' : K) * w'.lip.fb) (T := w'.lip.T) (N := w'.lip.N)
      (h := w'.lip.comHeight) (gx := 0) (gz := GRAVITY_NORM) (mass := 1) (total := 1)
      (by rw [hS]; exact mul_pos (by positivity) hfp) hgood.T hI.fresh.N (by rw [← hI.gz]; exact hgood.gz)
      le_rfl EPS_lt_one zero_le_one
    rwa [div_one] at this
  have hB := he dx Bx hok hBx.inv
  rw [edx] at hB
  exact pivots_of_inverse hI.fresh.N hB

/-- Every sample has its foot. -/
theorem rows_exist [Archimedean K] {fb : K} {a : Sup K × Vec K} (hR : Reach (· = fb) CanStop a)
    (hg : Grid fb a.1) {s' : Sup K} {v' : Vec K} (hu : a.1.updateTimeline a.2 fb = .ok (s', v')) :
    ∀ r < s'.N, ∃ q ≤ s'.M, RowIsUnit s' r q := by
  obtain ⟨f0, mv0, R0, hI⟩ := hR.ginv (EPS_pos.trans hg.pos).le hg
  obtain ⟨s₁, v₁, f₁, m, hU, hS⟩ := hI.update_shown hg hu
  intro r hr
  rw [hU.preview.same.N] at hr
  have := hS.unit hU hr
  exact ⟨_, hS.Vc ▸ this.1, this⟩

end

end MPC
