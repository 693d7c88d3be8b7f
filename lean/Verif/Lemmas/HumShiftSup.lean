import Verif.Spec.HumShift
import Verif.Lemmas.HumSolveTotal
import Verif.Lemmas.SupHalts

/-! # The supervisor of a moved generator -/
set_option linter.unusedSectionVars false

namespace MPC

open Finset Spec

/-- Two loops that stay related. -/
theorem whileLoop_rel {σ τ : Type} {cond : σ → Prop} [DecidablePred cond] {body : σ → Res σ}
    {cond' : τ → Prop} [DecidablePred cond'] {body' : τ → Res τ} (R : σ → τ → Prop)
    (hc : ∀ s t, R s t → (cond s ↔ cond' t))
    (hb : ∀ s t, R s t → cond s → ∀ s', body s = .ok s' → ∃ t', body' t = .ok t' ∧ R s' t')
    {s : σ} {t : τ} (h : R s t) {r : σ} (hr : whileLoop cond body s = .ok r) :
    ∃ r', whileLoop cond' body' t = .ok r' ∧ R r r' := by
  have key : ∀ n s t, R s t → ∀ r, whileFuel cond body n s = .ok r →
      ∃ r', whileFuel cond' body' n t = .ok r' ∧ R r r' := by
    intro n
    induction n with
    | zero => intro s t _ r h; simp [whileFuel] at h
    | succ n ih =>
      intro s t h r hr
      unfold whileFuel at hr ⊢
      by_cases c : cond s
      · rw [if_pos c] at hr
        rw [if_pos ((hc s t h).1 c)]
        obtain ⟨s', e, hr⟩ := bind_eq_ok.1 hr
        obtain ⟨t', e', h'⟩ := hb s t h c s' e
        rw [e', ok_bind]
        exact ih s' t' h' r hr
      · rw [if_neg c] at hr
        rw [if_neg fun c' => c ((hc s t h).2 c')]
        cases hr
        exact ⟨t, rfl, h⟩
  rw [whileLoop_eq] at hr
  unfold whileSpec at hr
  split at hr
  · obtain ⟨r', e, h'⟩ := key _ s t h r hr
    exact ⟨r', whileLoop_of_fuel _ e (by simp), h'⟩
  · cases hr

variable {K : Type} [Field K] [LinearOrder K]

section
variable {a b : K} {s s' : Sup K}

theorem Spec.SupMoved.with_eq (h : SupMoved a b s s') :
    ∃ L R v, s' = { s with left := L, right := R, stepVec := v } ∧ FootMoved a b s.left L ∧
      FootMoved a b s.right R := ⟨_, _, _, h.rest, h.left, h.right⟩

theorem SupMoved.mk' {L R : Foot K} {v : Vec K} (hL : FootMoved a b s.left L) (hR : FootMoved a b s.right R) :
    SupMoved a b s { s with left := L, right := R, stepVec := v } := ⟨rfl, hL, hR⟩

theorem isInDS_moved (h : SupMoved a b s s') : s'.isInDS = s.isInDS := by
  obtain ⟨L, R, v, rfl, -, -⟩ := h.with_eq; rfl

theorem kinPolygon_moved (h : SupMoved a b s s') (i : ℕ) : s'.kinPolygon i = s.kinPolygon i := by
  obtain ⟨L, R, v, rfl, hL, hR⟩ := h.with_eq
  unfold Sup.kinPolygon Sup.isInDS
  simp only [hL.kin, hR.kin]

theorem kinPolygons_moved (h : SupMoved a b s s') : s'.kinPolygons = s.kinPolygons := by
  unfold Sup.kinPolygons
  rw [show s'.kinPolygon = s.kinPolygon from funext (kinPolygon_moved h)]
  obtain ⟨L, R, v, rfl, hL, hR⟩ := h.with_eq
  rfl

theorem supportX_moved [IsStrictOrderedRing K] (h : SupMoved a b s s') {p : State3 K} (e : s.supportX = .ok p) :
    ∃ p', s'.supportX = .ok p' ∧ p'.p = p.p + a := by
  obtain ⟨L, R, v, rfl, hL, hR⟩ := h.with_eq
  unfold Sup.supportX Sup.isInDS at e ⊢
  simp only at e ⊢
  cases hf : listAt s.timeline 0 with
  | error x => rw [hf] at e; cases e
  | ok f =>
    rw [hf] at e
    simp only [ok_bind, res_pure, decide_eq_true_eq] at e ⊢
    split_ifs at e ⊢ <;> cases e <;> refine ⟨_, rfl, ?_⟩ <;>
      simp only [hL.x, hR.x, State3.shift] <;> ring

theorem supportY_moved [IsStrictOrderedRing K] (h : SupMoved a b s s') {p : State3 K} (e : s.supportY = .ok p) :
    ∃ p', s'.supportY = .ok p' ∧ p'.p = p.p + b := by
  obtain ⟨L, R, v, rfl, hL, hR⟩ := h.with_eq
  unfold Sup.supportY Sup.isInDS at e ⊢
  simp only at e ⊢
  cases hf : listAt s.timeline 0 with
  | error x => rw [hf] at e; cases e
  | ok f =>
    rw [hf] at e
    simp only [ok_bind, res_pure, decide_eq_true_eq] at e ⊢
    split_ifs at e ⊢ <;> cases e <;> refine ⟨_, rfl, ?_⟩ <;>
      simp only [hL.y, hR.y, State3.shift] <;> ring

/-- The points of the double support polygon are relative to the support. -/
theorem dsCopPoints_moved [IsStrictOrderedRing K] (h : SupMoved a b s s') (hz : s'.stepVec.size = s.stepVec.size)
    (hv : s.stepVec.size = 2 * s.M) (hx : ∀ i < s.M, s'.stepVec.get i = s.stepVec.get i + a)
    (hy : ∀ i < s.M, s'.stepVec.get (s.M + i) = s.stepVec.get (s.M + i) + b) :
    s'.dsCopPoints = s.dsCopPoints := by
  obtain ⟨L, R, v, rfl, hL, hR⟩ := h.with_eq
  simp only at hz hx hy
  unfold Sup.dsCopPoints Sup.isInDS
  simp only [hL.cop, hR.cop, hL.x, hL.y, hR.x, hR.y, State3.shift]
  cases hf : listAt s.timeline 0 with
  | error x => rfl
  | ok f =>
    simp only [ok_bind, res_pure]
    by_cases hM : s.M = 0
    · have e0 : ∀ u : Vec K, u.size = 0 → ∀ i, u.at? i = .error .outOfRange := by
        intro u hu i
        unfold Vec.at?
        rw [requireIndex_neg (by omega)]; rfl
      rw [e0 v (by omega), e0 s.stepVec (by omega)]
      simp only [error_bind]
      split_ifs
      · rfl
      · try simp only [ok_bind]
        congr 1
        congr 1
        funext i
        split_ifs <;> simp only [Pt.mk.injEq] <;> constructor <;> ring
      · try simp only [ok_bind]
        congr 1
        congr 1
        funext i
        split_ifs <;> simp only [Pt.mk.injEq] <;> constructor <;> ring
    · have ex := hx 0 (by omega)
      have ey := hy 0 (by omega)
      rw [Nat.add_zero] at ey
      rw [Vec.at?_ok (v := v) (i := 0) (by omega), Vec.at?_ok (v := v) (i := s.M) (by omega),
        Vec.at?_ok (v := s.stepVec) (i := 0) (by omega), Vec.at?_ok (v := s.stepVec) (i := s.M) (by omega), ex, ey]
      simp only [ok_bind]
      split_ifs <;> (try simp only [ok_bind]) <;> congr 1 <;> congr 1 <;> funext i <;>
        split_ifs <;> simp only [Pt.mk.injEq] <;> constructor <;> ring

theorem copPolygons_moved [IsStrictOrderedRing K] (h : SupMoved a b s s') (hd : s'.dsCopPoints = s.dsCopPoints)
    (hull : Vec (Pt K) → Res (Polygon K)) (N : ℕ) : s'.copPolygons hull N = s.copPolygons hull N := by
  unfold Sup.copPolygons
  congr 1
  funext i
  unfold Sup.copPolygon
  rw [hd]
  obtain ⟨L, R, v, rfl, hL, hR⟩ := h.with_eq
  simp only [hL.cop, hR.cop]

/-! ### Decision vectors -/

theorem planMoved_iff {N m : ℕ} {X X' : Vec K} (hs : X.size = 2 * N + 2 * m) :
    PlanMoved a b N X X' ↔ X'.size = X.size ∧ (∀ i < 2 * N, X'.get i = X.get i) ∧
      (∀ i < m, X'.get (2 * N + i) = X.get (2 * N + i) + a) ∧
      ∀ i < m, X'.get (2 * N + m + i) = X.get (2 * N + m + i) + b := by
  have hh : X.size / 2 = N + m := by omega
  constructor
  · rintro ⟨h1, h2⟩
    refine ⟨h1, fun i hi => ?_, fun i hi => ?_, fun i hi => ?_⟩
    · rw [h2 i (by omega), planShift, if_pos hi, add_zero]
    · rw [h2 _ (by omega), planShift, if_neg (by omega), if_pos (by omega)]
    · rw [h2 _ (by omega), planShift, if_neg (by omega), if_neg (by omega)]
  · rintro ⟨h1, h2, h3, h4⟩
    refine ⟨h1, fun i hi => ?_⟩
    unfold planShift
    split_ifs with c1 c2
    · rw [h2 i c1, add_zero]
    · have := h3 (i - 2 * N) (by omega)
      rwa [show 2 * N + (i - 2 * N) = i by omega] at this
    · have := h4 (i - (2 * N + m)) (by omega)
      rwa [show 2 * N + m + (i - (2 * N + m)) = i by omega] at this

theorem shorten_moved {X X' v : Vec K} (hN : s'.N = s.N) (h : PlanMoved a b s.N X X') (e : s.shorten X = .ok v) :
    ∃ v', s'.shorten X' = .ok v' ∧ PlanMoved a b s.N v v' ∧ v.size + 2 = X.size := by
  have hsz : ∃ m, X.size = 2 * s.N + 2 * (m + 1) := by
    unfold Sup.shorten at e
    obtain ⟨_, h1, e⟩ := bind_eq_ok.1 e
    obtain ⟨_, h2, e⟩ := bind_eq_ok.1 e
    have h1 := require_eq_ok.1 h1
    have h2 := requireIndex_eq_ok.1 h2
    exact ⟨X.size / 2 - s.N - 1, by omega⟩
  obtain ⟨m, hm⟩ := hsz
  have hm' : X'.size = 2 * s'.N + 2 * (m + 1) := by rw [h.size, hm, hN]
  obtain ⟨u, e1, z1, a1, b1, c1⟩ := Sup.shorten_ok hm
  obtain ⟨u', e2, z2, a2, b2, c2⟩ := Sup.shorten_ok hm'
  rw [e] at e1; cases e1
  rw [hN] at z2 a2 b2 c2
  obtain ⟨-, p1, p2, p3⟩ := (planMoved_iff hm).1 h
  refine ⟨u', e2, (planMoved_iff z1).2 ⟨by rw [z2, z1], fun i hi => ?_, fun i hi => ?_, fun i hi => ?_⟩, by omega⟩
  · rw [a2 i hi, a1 i hi, p1 i hi]
  · rw [b2 i hi, b1 i hi, p2 (i + 1) (by omega)]
  · rw [c2 i hi, c1 i hi, p3 (i + 1) (by omega)]

theorem IsBoxCenter.unique {p : Vec (Pt K)} {c c' : Pt K} (h : IsBoxCenter p c) (h' : IsBoxCenter p c') :
    c' = c := by
  obtain ⟨i1, h1, i2, h2, i3, h3, i4, h4, hk, rfl⟩ := h
  obtain ⟨j1, g1, j2, g2, j3, g3, j4, g4, gk, rfl⟩ := h'
  have e1 : (p.get j1).x = (p.get i1).x := le_antisymm (gk i1 h1).1 (hk j1 g1).1
  have e2 : (p.get j2).x = (p.get i2).x := le_antisymm (hk j2 g2).2.1 (gk i2 h2).2.1
  have e3 : (p.get j3).y = (p.get i3).y := le_antisymm (gk i3 h3).2.2.1 (hk j3 g3).2.2.1
  have e4 : (p.get j4).y = (p.get i4).y := le_antisymm (hk j4 g4).2.2.2 (gk i4 h4).2.2.2
  rw [e1, e2, e3, e4]

/-- A footstep is added to the moved plan where it is added to the plan, as long as it does not start from an entry
which is not a footstep (`C30_violated`). -/
theorem enlarge_moved (h : SupMoved a b s s') (hN : 0 < s.N) {X X' v : Vec K} (hX : PlanMoved a b s.N X X')
    (hp : (s.isInDS = .ok true ∧ s.M = 1) ∨ 2 * s.N + 2 ≤ X.size) (e : s.enlarge X = .ok v) :
    ∃ v', s'.enlarge X' = .ok v' ∧ PlanMoved a b s.N v v' ∧ 2 * s.N + 2 ≤ v.size := by
  have hds := isInDS_moved h
  have hkin := kinPolygon_moved h
  have hN' : s'.N = s.N := by rw [h.rest]
  have hM' : s'.M = s.M := by rw [h.rest]
  have hex : ∃ m cp ds, X.size = 2 * s.N + 2 * m ∧ s.kinPolygon m = .ok cp ∧ 0 < cp.vertices.size ∧
      s.isInDS = .ok ds := by
    unfold Sup.enlarge at e
    obtain ⟨_, h1, e⟩ := bind_eq_ok.1 e
    obtain ⟨_, h2, e⟩ := bind_eq_ok.1 e
    obtain ⟨_, -, e⟩ := bind_eq_ok.1 e
    obtain ⟨_, -, e⟩ := bind_eq_ok.1 e
    obtain ⟨cp, h3, e⟩ := bind_eq_ok.1 e
    obtain ⟨_, h4, e⟩ := bind_eq_ok.1 e
    obtain ⟨_, -, e⟩ := bind_eq_ok.1 e
    obtain ⟨ds, h5, e⟩ := bind_eq_ok.1 e
    have h1 := require_eq_ok.1 h1
    have h2 := requireIndex_eq_ok.1 h2
    exact ⟨X.size / 2 - s.N, cp, ds, by omega, h3, require_eq_ok.1 h4, h5⟩
  obtain ⟨m, cp, ds, hm, k1, k2, k3⟩ := hex
  have hm' : X'.size = 2 * s'.N + 2 * m := by rw [hX.size, hm, hN']
  obtain ⟨u, c, e1, i1, z1, a1, b1, c1, d1, f1⟩ := Sup.enlarge_ok hN hm k1 k2 k3
  obtain ⟨u', c', e2, i2, z2, a2, b2, c2, d2, f2⟩ :=
    Sup.enlarge_ok (s := s') (var := X') (by rw [hN']; exact hN) hm' ((hkin m).trans k1) k2 (hds.trans k3)
  rw [e] at e1; cases e1
  have hcc := i1.unique i2
  subst hcc
  rw [hN'] at z2 a2 b2 c2 d2 f2
  rw [hM'] at d2 f2
  obtain ⟨-, p1, p2, p3⟩ := (planMoved_iff hm).1 hX
  have q1 : u'.get (2 * s.N + m) = v.get (2 * s.N + m) + a := by
    rw [d2, d1]
    by_cases hc : ds = true ∧ s.M = 1
    · rw [if_pos hc, if_pos hc, h.left.x]; simp only [State3.shift]; ring
    · rw [if_neg hc, if_neg hc]
      have hm0 : 1 ≤ m := by
        rcases hp with hp | hp
        · rw [k3] at hp; exact absurd ⟨Except.ok.inj hp.1, hp.2⟩ hc
        · omega
      have := p2 (m - 1) (by omega)
      rw [show 2 * s.N + (m - 1) = 2 * s.N + m - 1 by omega] at this
      rw [this]; ring
  have q2 : u'.get (2 * s.N + (m + 1) + m) = v.get (2 * s.N + (m + 1) + m) + b := by
    rw [f2, f1]
    by_cases hc : ds = true ∧ s.M = 1
    · rw [if_pos hc, if_pos hc, h.left.y]; simp only [State3.shift]; ring
    · rw [if_neg hc, if_neg hc]
      have hm0 : 1 ≤ m := by
        rcases hp with hp | hp
        · rw [k3] at hp; exact absurd ⟨Except.ok.inj hp.1, hp.2⟩ hc
        · omega
      rw [if_neg (by omega), if_neg (by omega), p3 (m - 1) (by omega)]; ring
  refine ⟨u', e2, (planMoved_iff z1).2 ⟨by rw [z2, z1], fun i hi => ?_, fun i hi => ?_, fun i hi => ?_⟩, by omega⟩
  · rw [a2 i hi, a1 i hi, p1 i hi]
  · rcases Nat.lt_or_ge i m with hi' | hi'
    · rw [b2 i hi', b1 i hi', p2 i hi']
    · rw [show i = m by omega]; exact q1
  · rcases Nat.lt_or_ge i m with hi' | hi'
    · rw [c2 i hi', c1 i hi', p3 i hi']
    · rw [show i = m by omega]; exact q2

theorem enlargeLoop_moved (h : SupMoved a b s s') (hN : 0 < s.N) {X X' v : Vec K} (hX : PlanMoved a b s.N X X')
    (hp : (s.isInDS = .ok true ∧ s.M ≤ 1) ∨ 2 * s.N + 2 ≤ X.size) (e : s.enlargeLoop X = .ok v) :
    ∃ v', s'.enlargeLoop X' = .ok v' ∧ PlanMoved a b s.N v v' ∧ X.size ≤ v.size ∧ 2 * s.N + 2 * s.M ≤ v.size := by
  have hN' : s'.N = s.N := by rw [h.rest]
  have hM' : s'.M = s.M := by rw [h.rest]
  unfold Sup.enlargeLoop at e ⊢
  obtain ⟨v', e', h1, h2, h3⟩ := whileLoop_rel (cond' := fun v : Vec K => v.size < 2 * s'.N + 2 * s'.M)
    (body' := s'.enlarge) (fun u u' => PlanMoved a b s.N u u' ∧
      ((s.isInDS = .ok true ∧ s.M ≤ 1) ∨ 2 * s.N + 2 ≤ u.size) ∧ X.size ≤ u.size)
    (by rintro u u' ⟨hu, -, -⟩; rw [hu.size, hN', hM'])
    (by
      rintro u u' ⟨hu, hq, hx⟩ hc t ht
      have hq' : (s.isInDS = .ok true ∧ s.M = 1) ∨ 2 * s.N + 2 ≤ u.size := by
        by_cases hz : 2 * s.N + 2 ≤ u.size
        · exact Or.inr hz
        · rcases hq with ⟨hq, hM⟩ | hq
          · by_cases h1 : s.M = 1
            · exact Or.inl ⟨hq, h1⟩
            · have h0 : s.M = 0 := by omega
              exfalso
              have := Sup.enlarge_size ht
              unfold Sup.enlarge at ht
              obtain ⟨_, -, ht⟩ := bind_eq_ok.1 ht
              obtain ⟨_, g2, ht⟩ := bind_eq_ok.1 ht
              have g2 := requireIndex_eq_ok.1 g2
              simp only [h0] at hc
              omega
          · exact Or.inr hq
      obtain ⟨t', e2, h2, h3⟩ := enlarge_moved h hN hu hq' ht
      have := Sup.enlarge_size ht
      exact ⟨t', e2, h2, Or.inr h3, by omega⟩)
    ⟨hX, hp, le_refl _⟩ e
  refine ⟨v', e', h1, h3, ?_⟩
  have := (whileLoop_ok (fun _ => True) e trivial fun _ _ _ _ _ => trivial).2
  omega

theorem trim_moved (h : SupMoved a b s s') {X X' v : Vec K} (hX : PlanMoved a b s.N X X') {m : ℕ}
    (hm : X.size = 2 * s.N + 2 * m) (e : s.trim X = .ok v) :
    ∃ v', s'.trim X' = .ok v' ∧ PlanMoved a b s.N v v' ∧ (v.size = X.size ∨ 2 * s.N + 2 ≤ v.size) ∧
      ∃ m', v.size = 2 * s.N + 2 * m' := by
  have hN' : s'.N = s.N := by rw [h.rest]
  have hv' : s'.move = s.move := by rw [h.rest]
  have hm' : X'.size = 2 * s'.N + 2 * m := by rw [hX.size, hm, hN']
  obtain ⟨u, n, e1, n1, z1, a1, b1, c1⟩ := Sup.trim_ok hm
  obtain ⟨u', n', e2, n2, z2, a2, b2, c2⟩ := Sup.trim_ok hm'
  rw [e] at e1; cases e1
  rw [hv', ← n1] at n2
  subst n2
  rw [hN'] at z2 a2 b2 c2
  obtain ⟨-, p1, p2, p3⟩ := (planMoved_iff hm).1 hX
  have hn : n' ≤ m := by rw [n1]; split <;> omega
  refine ⟨u', e2, (planMoved_iff z1).2 ⟨by rw [z2, z1], fun i hi => ?_, fun i hi => ?_, fun i hi => ?_⟩, ?_, n', z1⟩
  · rw [a2 i hi, a1 i hi, p1 i hi]
  · rw [b2 i hi, b1 i hi, p2 i (by omega)]
  · rw [c2 i hi, c1 i hi, p3 i (by omega)]
  · rw [z1, hm]
    have : n' = m ∨ n' = 1 ∨ m = 0 := by rw [n1]; split <;> omega
    omega

/-! ### The main loop -/

/-- The loop variables of the moved supervisor. -/
structure TLMoved (a b : K) (l l' : TLState K) : Prop where
  sup : SupMoved a b l.sup l'.sup
  idx : l'.idx = l.idx
  phaseTimer : l'.phaseTimer = l.phaseTimer
  horizon : l'.horizon = l.horizon
  var : PlanMoved a b l.sup.N l.var l'.var
  N : 0 < l.sup.N
  even : ∃ m, l.var.size = 2 * l.sup.N + 2 * m
  planned : (l.sup.isInDS = .ok true ∧ l.sup.M = 0) ∨ 2 * l.sup.N + 2 ≤ l.var.size

theorem listAt_front {α : Type} {l : List α} {i : ℕ} {x y : α} (h : listAt l i = .ok x) :
    listAt (if i + 1 = l.length then l ++ [y] else l.set (i + 1) y) 0 = listAt l 0 := by
  cases l with
  | nil => simp [listAt] at h
  | cons z r => split <;> simp [listAt]

theorem nextPhase_with (s : Sup K) (L R : Foot K) (v : Vec K) (last : Phase K) :
    Sup.nextPhase { s with left := L, right := R, stepVec := v } last = s.nextPhase last := by
  have e1 : ∀ t, Sup.nextType { s with left := L, right := R, stepVec := v } t = s.nextType t := by
    intro t; cases t <;> rfl
  have e2 : ∀ t, Sup.period { s with left := L, right := R, stepVec := v } t = s.period t := by
    intro t; cases t <;> rfl
  unfold Sup.nextPhase
  rw [e1, e2]

theorem nextPhase_moved {l l' r : TLState K} (h : TLMoved a b l l') (e : l.nextPhase = .ok r) :
    ∃ r', l'.nextPhase = .ok r' ∧ SupMoved a b r.sup r'.sup ∧ r'.idx = r.idx ∧ r'.phaseTimer = r.phaseTimer ∧
      r'.horizon = r.horizon ∧ r'.var = l'.var ∧ r.var = l.var ∧ r.sup.N = l.sup.N ∧
      ((r.sup.isInDS = .ok true ∧ r.sup.M ≤ 1) ∨ 2 * l.sup.N + 2 ≤ l.var.size) := by
  obtain ⟨h1, h2, h3, h4, h5, h6, h7, h8⟩ := h
  obtain ⟨L, R, v, hs, hL, hR⟩ := h1.with_eq
  cases l' with
  | mk sup' idx' pt' hz' var' =>
  simp only at hs h2 h3 h4 h5
  subst hs h2 h3 h4
  unfold TLState.nextPhase at e ⊢
  simp only [nextPhase_with]
  by_cases hc : l.phaseTimer < EPS
  · rw [if_pos hc] at e
    rw [if_pos hc]
    obtain ⟨last, e1, e⟩ := bind_eq_ok.1 e
    simp only [res_pure, Except.ok.injEq] at e
    subst e
    rw [e1, ok_bind]
    refine ⟨_, rfl, ⟨rfl, hL, hR⟩, rfl, rfl, rfl, rfl, rfl, rfl, ?_⟩
    rcases h8 with ⟨d, m0⟩ | h8
    · refine Or.inl ⟨?_, ?_⟩
      · unfold Sup.isInDS at d ⊢
        simp only
        rw [listAt_front e1]
        exact d
      · simp only; split <;> omega
    · exact Or.inr h8
  · rw [if_neg hc] at e
    rw [if_neg hc]
    cases e
    refine ⟨_, rfl, ⟨rfl, hL, hR⟩, rfl, rfl, rfl, rfl, rfl, rfl, ?_⟩
    rcases h8 with ⟨d, m0⟩ | h8
    · exact Or.inl ⟨d, by omega⟩
    · exact Or.inr h8

theorem body_moved {l l' r : TLState K} (h : TLMoved a b l l') (e : l.body = .ok r) :
    ∃ r', l'.body = .ok r' ∧ TLMoved a b r r' ∧ r.sup.N = l.sup.N := by
  unfold TLState.body at e ⊢
  obtain ⟨l1, e1, e⟩ := bind_eq_ok.1 e
  obtain ⟨v1, e2, e⟩ := bind_eq_ok.1 e
  obtain ⟨v2, e3, e⟩ := bind_eq_ok.1 e
  simp only [res_pure, Except.ok.injEq] at e
  subst e
  obtain ⟨l1', f1, g1, g2, g3, g4, g5, g6, g7, g8⟩ := nextPhase_moved h e1
  rw [f1, ok_bind, g5]
  rw [g6] at e2
  have hv : PlanMoved a b l1.sup.N l.var l'.var := by rw [g7]; exact h.var
  rw [← g7] at g8
  have hN : 0 < l1.sup.N := by rw [g7]; exact h.N
  obtain ⟨v1', f2, p1, p2, p3⟩ := enlargeLoop_moved g1 hN hv g8 e2
  rw [f2, ok_bind]
  have hev : ∃ m, v1.size = 2 * l1.sup.N + 2 * m := by
    obtain ⟨m, hm⟩ := h.even
    unfold Sup.enlargeLoop at e2
    have := (whileLoop_ok (fun u : Vec K => ∃ m, u.size = 2 * l1.sup.N + 2 * m) e2 ⟨m, by rw [g7, hm]⟩
      (by
        rintro u t - ⟨k, hk⟩ ht
        exact ⟨k + 1, by rw [Sup.enlarge_size ht, hk]; ring⟩)).1
    exact this
  obtain ⟨m, hm⟩ := hev
  obtain ⟨v2', f3, q1, q2, q3⟩ := trim_moved g1 p1 hm e3
  rw [f3, ok_bind]
  have hT : l1'.sup.T = l1.sup.T := by rw [g1.rest]
  refine ⟨_, rfl, ⟨g1, g2, by simp only [g3, hT], by simp only [g4, hT], q1, hN, q3, ?_⟩, g7⟩
  simp only
  rcases g8 with ⟨d, m0⟩ | g8
  · by_cases hM : l1.sup.M = 0
    · exact Or.inl ⟨d, hM⟩
    · right; omega
  · right; omega

theorem popPhase_moved (h : SupMoved a b s s') {X X' v : Vec K} (hX : PlanMoved a b s.N X X')
    (hev : ∃ m, X.size = 2 * s.N + 2 * m) (hp : StepPlanned s X) {t : Sup K} (e : s.popPhase X = .ok (t, v)) :
    ∃ t' v', s'.popPhase X' = .ok (t', v') ∧ SupMoved a b t t' ∧ PlanMoved a b t.N v v' ∧ t.N = s.N ∧
      (∃ m, v.size = 2 * t.N + 2 * m) ∧ (t.isInDS = .ok true ∨ 2 * t.N + 2 ≤ v.size ∨ t.timeline = []) := by
  obtain ⟨L, R, sv, hs, hL, hR⟩ := h.with_eq
  subst hs
  unfold Sup.popPhase at e ⊢
  simp only at e ⊢
  by_cases hc : s.ttnp < EPS
  · rw [if_pos hc] at e
    rw [if_pos hc]
    obtain ⟨ds, e1, e⟩ := bind_eq_ok.1 e
    have e1' : Sup.isInDS { s with left := L, right := R, stepVec := sv } = .ok ds := e1
    rw [e1', ok_bind]
    have hds : ∀ f : Phase K, listAt s.timeline.tail 0 = .ok f → f.type = .DS →
        Sup.isInDS { s with timeline := s.timeline.tail, ttnp := f.duration } = .ok true := by
      intro f e3 hd
      unfold Sup.isInDS
      simp only
      rw [e3, ok_bind, res_pure]
      simp [hd]
    have hsz : ∀ f : Phase K, listAt s.timeline.tail 0 = .ok f → f.type ≠ .DS →
        2 * s.N + 2 ≤ X.size ∧ (EndsStep s → 2 * s.N + 4 ≤ X.size) := by
      intro f e3 hn
      have := listAt_eq_ok.1 e3
      rw [List.getElem?_tail] at this
      exact hp f f.duration (Or.inr ⟨hc, this, rfl⟩) hn
    cases ds with
    | true =>
      simp only [if_true, res_pure, ok_bind] at e ⊢
      obtain ⟨f, e3, e⟩ := bind_eq_ok.1 e
      simp only [Except.ok.injEq, Prod.mk.injEq] at e
      obtain ⟨rfl, rfl⟩ := e
      rw [e3, ok_bind]
      refine ⟨_, _, rfl, ⟨rfl, hL, hR⟩, hX, rfl, hev, ?_⟩
      by_cases hd : f.type = .DS
      · left; exact hds f e3 hd
      · right; left; exact (hsz f e3 hd).1
    | false =>
      simp only [Bool.false_eq_true, if_false] at e ⊢
      obtain ⟨v1, e2, e⟩ := bind_eq_ok.1 e
      obtain ⟨f, e3, e⟩ := bind_eq_ok.1 e
      simp only [res_pure, Except.ok.injEq, Prod.mk.injEq] at e
      obtain ⟨rfl, rfl⟩ := e
      obtain ⟨v1', g1, g2, hz2⟩ := shorten_moved (s' := { s with left := L, right := R, stepVec := sv }) rfl hX e2
      rw [g1, ok_bind, e3, ok_bind]
      obtain ⟨hz, hz'⟩ := Sup.shorten_size e2
      refine ⟨_, _, rfl, ⟨rfl, hL, hR⟩, g2, rfl, ?_, ?_⟩
      · obtain ⟨m, hm⟩ := hev
        exact ⟨m - 1, by simp only; omega⟩
      · by_cases hd : f.type = .DS
        · left; exact hds f e3 hd
        · right; left
          have hend : EndsStep s := by
            refine ⟨hc, ?_⟩
            unfold Sup.isInDS at e1
            obtain ⟨g, e4, e1⟩ := bind_eq_ok.1 e1
            refine ⟨g, listAt_eq_ok.1 e4, ?_⟩
            simpa using e1
          have := (hsz f e3 hd).2 hend
          simp only
          omega
  · rw [if_neg hc] at e
    rw [if_neg hc]
    simp only [res_pure, Except.ok.injEq, Prod.mk.injEq] at e
    obtain ⟨rfl, rfl⟩ := e
    refine ⟨_, _, rfl, ⟨rfl, hL, hR⟩, hX, rfl, hev, ?_⟩
    cases hf : s.timeline with
    | nil => right; right; rfl
    | cons f r =>
      by_cases hd : f.type = .DS
      · left; unfold Sup.isInDS; rw [hf]; simp [listAt, hd]
      · right; left
        exact (hp f s.ttnp (Or.inl ⟨not_lt.1 hc, by rw [hf]; rfl, rfl⟩) hd).1

theorem sampleWeight_with (s : Sup K) (L R : Foot K) (v : Vec K) :
    Sup.sampleWeight { s with left := L, right := R, stepVec := v } = s.sampleWeight := rfl

theorem selection_with (s : Sup K) (L R : Foot K) (v : Vec K) {t : Sup K} (e : s.selection = .ok t) :
    Sup.selection { s with left := L, right := R, stepVec := v }
      = .ok { t with left := L, right := R, stepVec := v } := by
  unfold Sup.selection at e ⊢
  obtain ⟨_, e1, e⟩ := bind_eq_ok.1 e
  obtain ⟨l, e2, e⟩ := bind_eq_ok.1 e
  obtain ⟨l', e3, e⟩ := bind_eq_ok.1 e
  simp only [res_pure, Except.ok.injEq] at e
  subst e
  have h2 : Sup.selFirst { s with left := L, right := R, stepVec := v } = s.selFirst := rfl
  have h3 : Sup.selOuter { s with left := L, right := R, stepVec := v } = s.selOuter := rfl
  rw [h2, h3]
  simp only
  rw [e1, ok_bind, e2, ok_bind, e3, ok_bind]
  rfl

theorem selection_feet {s t : Sup K} (e : s.selection = .ok t) :
    t.left = s.left ∧ t.right = s.right ∧ t.stepVec = s.stepVec ∧ t.N = s.N := by
  unfold Sup.selection at e
  obtain ⟨_, e1, e⟩ := bind_eq_ok.1 e
  obtain ⟨l, e2, e⟩ := bind_eq_ok.1 e
  obtain ⟨l', e3, e⟩ := bind_eq_ok.1 e
  simp only [res_pure, Except.ok.injEq] at e
  subst e
  exact ⟨rfl, rfl, rfl, rfl⟩

/-- `updateTimeline` on a moved supervisor. -/
theorem updateTimeline_moved (h : SupMoved a b s s') (hN : 0 < s.N) {X X' v : Vec K} (hX : PlanMoved a b s.N X X')
    (hev : ∃ m, X.size = 2 * s.N + 2 * m) (hp : StepPlanned s X) {fb : K} {t : Sup K}
    (e : s.updateTimeline X fb = .ok (t, v)) :
    ∃ t' v', s'.updateTimeline X' fb = .ok (t', v') ∧ SupMoved a b t t' ∧ PlanMoved a b t.N v v' ∧ t.N = s.N ∧
      t'.stepVec.size = t.stepVec.size ∧ t.stepVec.size = v.size - 2 * s.N ∧
      (∀ i, t.stepVec.get i = v.get (2 * s.N + i)) ∧ (∀ i, t'.stepVec.get i = v'.get (2 * s.N + i)) ∧
      ∃ m, v.size = 2 * t.N + 2 * m := by
  obtain ⟨L, R, sv, hs, hL, hR⟩ := h.with_eq
  subst hs
  unfold Sup.updateTimeline at e ⊢
  obtain ⟨_, r1, e⟩ := bind_eq_ok.1 e
  obtain ⟨_, r2, e⟩ := bind_eq_ok.1 e
  have r1 := require_eq_ok.1 r1
  have r2 := require_eq_ok.1 r2
  simp only
  rw [require_pos r1, ok_bind, hX.size, require_pos r2, ok_bind]
  obtain ⟨⟨s1, v1⟩, e1, e⟩ := bind_eq_ok.1 e
  have h0 : SupMoved a b { s with fb := fb } { s with fb := fb, left := L, right := R, stepVec := sv } :=
    ⟨rfl, hL, hR⟩
  obtain ⟨s1', v1', f1, p1, p2, p3, p4, p5⟩ := popPhase_moved h0 hX hev hp e1
  rw [f1, ok_bind]
  obtain ⟨l, e2, e⟩ := bind_eq_ok.1 e
  simp only at e e2 p3 ⊢
  have hs1 : s1'.ttnp = s1.ttnp ∧ s1'.N = s1.N ∧ s1'.T = s1.T := by rw [p1.rest]; exact ⟨rfl, rfl, rfl⟩
  have hnil : s1.timeline ≠ [] := by
    intro hnil
    unfold Sup.popPhase at e1
    split at e1
    · obtain ⟨ds, -, e1⟩ := bind_eq_ok.1 e1
      dsimp only at e1
      split at e1
      all_goals
        obtain ⟨_, -, e1⟩ := bind_eq_ok.1 e1
        obtain ⟨f, e3, e1⟩ := bind_eq_ok.1 e1
        simp only [res_pure, Except.ok.injEq, Prod.mk.injEq] at e1
        obtain ⟨rfl, -⟩ := e1
        simp only at hnil
        rw [hnil] at e3
        simp [listAt] at e3
    · simp only [res_pure, Except.ok.injEq, Prod.mk.injEq] at e1
      obtain ⟨rfl, -⟩ := e1
      simp only at hnil
      rw [hnil] at r1
      simp at r1
  have hl0 : TLMoved a b ⟨{ s1 with M := 0 }, 0, s1.ttnp, s1.N * s1.T, v1⟩
      ⟨{ s1' with M := 0 }, 0, s1'.ttnp, s1'.N * s1'.T, v1'⟩ := by
    refine ⟨⟨by conv_lhs => rw [p1.rest], p1.left, p1.right⟩, rfl, hs1.1, by simp only [hs1], p2, by simp only; omega,
      p4, ?_⟩
    rcases p5 with p5 | p5 | p5
    · exact Or.inl ⟨p5, rfl⟩
    · exact Or.inr p5
    · exact absurd p5 hnil
  obtain ⟨l', f2, q, hlN⟩ := whileLoop_rel (cond' := fun l : TLState K => -EPS < l.horizon) (body' := TLState.body)
    (fun u u' => TLMoved a b u u' ∧ u.sup.N = s.N) (by rintro u u' ⟨hu, -⟩; rw [hu.horizon])
    (fun u u' hu _ u2 hb => by
      obtain ⟨r', g1, g2, g3⟩ := body_moved hu.1 hb
      exact ⟨r', g1, g2, g3.trans hu.2⟩) ⟨hl0, p3⟩ e2
  rw [f2, ok_bind]
  obtain ⟨q1, q2, q3, q4, q5, q6, q7, q8⟩ := q
  obtain ⟨L1, R1, sv1, hs2, hL1, hR1⟩ := q1.with_eq
  rw [hs2, q2]
  simp only at e ⊢
  obtain ⟨sg, e3, e⟩ := bind_eq_ok.1 e
  obtain ⟨W, e4, e⟩ := bind_eq_ok.1 e
  obtain ⟨t', e5, e⟩ := bind_eq_ok.1 e
  simp only [res_pure, Except.ok.injEq, Prod.mk.injEq] at e
  obtain ⟨rfl, rfl⟩ := e
  obtain ⟨g1, g2⟩ := Vec.segment?_eq_ok e3
  rw [hlN] at g1 g2
  rw [hlN] at q5
  rw [Vec.segment?_ok (v := l'.var) (s := 2 * l.sup.N) (l := l'.var.size - 2 * l.sup.N)
    (by rw [q5.size, hlN]; omega), ok_bind]
  have e4' := (sampleWeight_with _ L1 R1 ⟨l'.var.size - 2 * l.sup.N, fun i => l'.var.get (2 * l.sup.N + i)⟩).trans e4
  simp only at e4'
  rw [e4', ok_bind]
  have e5' := selection_with _ L1 R1 ⟨l'.var.size - 2 * l.sup.N, fun i => l'.var.get (2 * l.sup.N + i)⟩ e5
  simp only at e5'
  rw [e5', ok_bind]
  obtain ⟨k1, k2, k3, k4⟩ := selection_feet e5
  simp only at k1 k2 k3 k4
  refine ⟨_, _, rfl, ⟨rfl, by rw [k1]; exact hL1, by rw [k2]; exact hR1⟩, by rw [k4, hlN]; exact q5, k4.trans hlN,
    ?_, ?_, ?_, ?_, by rw [k4]; exact q7⟩
  · simp only
    rw [k3, g2, q5.size, hlN]
  · rw [k3, g2]
  · intro i; rw [k3, g2]
  · intro i; simp only [hlN]

end

end MPC
