import Verif.Lemmas.HumReach
import Verif.Lemmas.HumFeasible

/-! # Sizes of the QP matrices and of the solvers kept by the humanoid generator -/

set_option linter.unusedSectionVars false

namespace MPC

variable {K : Type} [Field K] [LinearOrder K] [IsStrictOrderedRing K] [FloorRing K]

/-- Calls that do not rebuild the tables. -/
def HCall.Plain : HCall K → Prop
  | .setNbSamples _ => False
  | .setConfig _ _ => False
  | _ => True

/-- Sizes of the solvers. -/
def HWalkgen.solverDims (w : HWalkgen K) : List (ℕ × ℕ) := w.solvers.map fun s => (s.nbVar, s.nbCtr)

/-- Entry `k` of the table of QP matrices has the size of the problem number `k`. -/
def QpTable (w : HWalkgen K) : Prop :=
  ∀ (k : ℕ) (q : QPMatrices K), w.qps[k]? = some q →
    q.DimensionsAreConsistent (2 * w.lip.N + 2 * (k / (w.maxCtr + 1))) (k % (w.maxCtr + 1))

/-- What a plain call keeps. -/
structure HumFrame (w w' : HWalkgen K) : Prop where
  N : w'.lip.N = w.lip.N
  maxCtr : w'.maxCtr = w.maxCtr
  withCop : w'.withCop = w.withCop
  withFeet : w'.withFeet = w.withFeet
  solvers : w'.solverDims = w.solverDims
  qps : QpTable w → QpTable w'

theorem HumFrame.refl (w : HWalkgen K) : HumFrame w w := ⟨rfl, rfl, rfl, rfl, rfl, id⟩

theorem HumFrame.trans {w w' w'' : HWalkgen K} (h : HumFrame w w') (h' : HumFrame w' w'') : HumFrame w w'' :=
  ⟨h'.N.trans h.N, h'.maxCtr.trans h.maxCtr, h'.withCop.trans h.withCop, h'.withFeet.trans h.withFeet,
    h'.solvers.trans h.solvers, fun q => h'.qps (h.qps q)⟩

theorem HumFrame.of {w w' : HWalkgen K} (hN : w'.lip.N = w.lip.N) (h1 : w'.maxCtr = w.maxCtr)
    (h2 : w'.withCop = w.withCop) (h3 : w'.withFeet = w.withFeet) (h4 : w'.solvers = w.solvers)
    (h5 : w'.qps = w.qps) : HumFrame w w' :=
  ⟨hN, h1, h2, h3, by unfold HWalkgen.solverDims; rw [h4], fun q k a hk => by
    rw [hN, h1]; exact q k a (h5 ▸ hk)⟩

theorem addObjective_dims {q q' : QPMatrices K} {w : K} {h : Res (Mat K)} {g : Res (Vec K)} {a b : ℕ}
    (e : q.addObjective w h g = .ok q') (hd : q.DimensionsAreConsistent a b) :
    q'.DimensionsAreConsistent a b := by
  rcases addObjective_ok e with ⟨-, rfl⟩ | ⟨-, H, G, -, -, -, -, -, rfl⟩
  · exact hd
  · exact hd

theorem fillQP_dims {hull : Vec (Pt K) → Res (Polygon K)} {w : HWalkgen K} {a b : ℕ}
    {q q' : QPMatrices K} {m n : ℕ} (h : w.fillQP hull a b q = .ok q') (hd : q.DimensionsAreConsistent m n) :
    q'.DimensionsAreConsistent m n := by
  obtain ⟨q1, q2, q3, q4, h1, h2, h3, hc, hf⟩ := hfillQP_ok h
  have d3 := addObjective_dims h3 (addObjective_dims h2 (addObjective_dims h1 (a := m) (b := n) hd))
  have d4 : q4.DimensionsAreConsistent m n := by
    rcases hc with ⟨-, c, -, hc⟩ | ⟨-, rfl⟩
    · exact (addConstraint_dims hc).2 d3
    · exact d3
  rcases hf with ⟨-, c, -, hf⟩ | ⟨-, rfl⟩
  · exact (addConstraint_dims hf).2 d4
  · exact d4

theorem HWalkgen.begin_frame {w w' : HWalkgen K} {fb : K} (h : HumInv w) (hb : w.begin fb = .ok w') :
    w'.lip.N = w.lip.N ∧ w'.maxCtr = w.maxCtr ∧ w'.withCop = w.withCop ∧ w'.withFeet = w.withFeet ∧
      w'.solvers = w.solvers ∧ w'.qps = w.qps := by
  unfold HWalkgen.begin at hb
  obtain ⟨⟨s, X⟩, h1, hb⟩ := bind_eq_ok.1 hb
  dsimp only at hb
  have key : ∃ l, (w.lip.setFeedbackPeriod fb = .ok l ∨ l = w.lip) ∧ (do
      require (0 < fb)
      require (s.N = l.N)
      HWalkgen.firstGuess { w with sup := s, X := X, lip := l }) = .ok w' := by
    split at hb
    · obtain ⟨l, h2, hb⟩ := bind_eq_ok.1 hb
      exact ⟨l, .inl h2, hb⟩
    · obtain ⟨l, h2, hb⟩ := bind_eq_ok.1 hb
      exact ⟨l, .inr (Except.ok.inj h2).symm, hb⟩
  obtain ⟨l, h2, hb⟩ := key
  obtain ⟨_, -, hb⟩ := bind_eq_ok.1 hb
  obtain ⟨_, -, hb⟩ := bind_eq_ok.1 hb
  have hl : l.N = w.lip.N := by
    rcases h2 with h2 | rfl
    · unfold Lip.setFeedbackPeriod at h2
      obtain ⟨_, -, h2⟩ := bind_eq_ok.1 h2
      obtain ⟨-, -, p2, -⟩ := Lip.refresh_fresh (l := { w.lip with fb := fb }) h.fresh.auto h2
      exact p2
    · rfl
  unfold HWalkgen.firstGuess at hb
  split at hb
  · simp only [bind_eq_ok] at hb
    obtain ⟨_, -, _, -, _, -, _, -, _, -, _, -, _, -, _, -, _, -, _, -, _, -, _, -, hb⟩ := hb
    obtain rfl := Except.ok.inj hb
    exact ⟨hl, rfl, rfl, rfl, rfl, rfl⟩
  · obtain rfl := Except.ok.inj hb
    exact ⟨hl, rfl, rfl, rfl, rfl, rfl⟩

/-- Stages and sizes of `prepare`. -/
theorem HWalkgen.prepare_frame {hull : Vec (Pt K) → Res (Polygon K)} {w w' : HWalkgen K} {fb : K} {idx : ℕ}
    {qp : QPMatrices K} (h : HumInv w) (hp : w.prepare hull fb = .ok (w', idx, qp)) :
    HumFrame w w' ∧ w'.solvers = w.solvers ∧ ∃ a b, w'.nbCtr hull = .ok (a, b) ∧
      idx = w'.sup.M * (w'.maxCtr + 1) + (a + b) ∧
      (QpTable w → qp.DimensionsAreConsistent (2 * w'.lip.N + 2 * (idx / (w'.maxCtr + 1)))
        (idx % (w'.maxCtr + 1))) := by
  obtain ⟨w0, a, b, q0, q1, h0, h1, h2, h3, h4, h5, rfl⟩ := hprepare_ok hp
  obtain ⟨e1, e2, e3, e4, e5, e6⟩ := HWalkgen.begin_frame h h0
  have h3 := listAt_eq_ok.1 h3
  have hq : QpTable w → qp.DimensionsAreConsistent (2 * w0.lip.N + 2 * (idx / (w0.maxCtr + 1)))
      (idx % (w0.maxCtr + 1)) := by
    intro ht
    have d := ht idx q0 (e6 ▸ h3)
    rw [← e1, ← e2] at d
    have := fillQP_dims h4 d
    rw [h5]
    exact this
  refine ⟨⟨e1, e2, e3, e4, ?_, ?_⟩, e5, a, b, ?_, h2, hq⟩
  · unfold HWalkgen.solverDims; rw [← e5]
  · intro ht k q hk
    have hk : (w0.qps.set idx qp)[k]? = some q := hk
    rw [List.getElem?_set] at hk
    split at hk
    · rename_i hik
      have hk2 := hk
      clear hk
      split at hk2
      · obtain rfl := Option.some.inj hk2
        rw [← hik]
        exact hq ht
      · cases hk2
    · rw [e6] at hk
      have := ht k q hk
      rw [← e1, ← e2] at this
      exact this
  · exact h1

theorem HWalkgen.finish_frame {w w' : HWalkgen K} {fb : K} (hf : w.finish fb = .ok w') : HumFrame w w' := by
  unfold HWalkgen.finish at hf
  obtain ⟨X, -, hf⟩ := bind_eq_ok.1 hf
  obtain ⟨t, -, hf⟩ := bind_eq_ok.1 hf
  obtain ⟨j, -, hf⟩ := bind_eq_ok.1 hf
  obtain ⟨l₁, h1, hf⟩ := bind_eq_ok.1 hf
  obtain ⟨j', -, hf⟩ := bind_eq_ok.1 hf
  obtain ⟨l₂, h2, hf⟩ := bind_eq_ok.1 hf
  obtain ⟨sv, -, hf⟩ := bind_eq_ok.1 hf
  obtain ⟨s, h3, hf⟩ := bind_eq_ok.1 hf
  obtain rfl := Except.ok.inj hf
  obtain ⟨sx, -, h1⟩ := bind_eq_ok.1 h1
  obtain rfl := Except.ok.inj h1
  obtain ⟨sy, -, h2⟩ := bind_eq_ok.1 h2
  obtain rfl := Except.ok.inj h2
  exact HumFrame.of rfl rfl rfl rfl rfl rfl

theorem solverSolve_dims {o : Oracle K} {s s' : SolverState K} {m : QPMatrices K} {it : ℕ} {x y : Vec K}
    {ws os b : Bool} (h : solverSolve o s m it x ws os = .ok (b, y, s')) :
    m.DimensionsAreConsistent s.nbVar s.nbCtr ∧ s'.nbVar = s.nbVar ∧ s'.nbCtr = s.nbCtr := by
  unfold solverSolve at h
  obtain ⟨_, h1, h⟩ := bind_eq_ok.1 h
  obtain ⟨_, -, h⟩ := bind_eq_ok.1 h
  refine ⟨require_eq_ok.1 h1, ?_⟩
  dsimp only at h
  split at h
  · have := Except.ok.inj h
    simp only [Prod.mk.injEq] at this
    obtain ⟨-, -, rfl⟩ := this
    exact ⟨rfl, rfl⟩
  · have := Except.ok.inj h
    simp only [Prod.mk.injEq] at this
    obtain ⟨-, -, rfl⟩ := this
    exact ⟨rfl, rfl⟩

/-- Stages of `solve`, with the solver. -/
theorem HWalkgen.solve_stages {hull : Vec (Pt K) → Res (Polygon K)} {o : Oracle K} {w w' : HWalkgen K}
    {fb : K} {b : Bool} (hs : w.solve hull o fb = .ok (b, w')) :
    ∃ w₁ idx qp sv dX sv', w.prepare hull fb = .ok (w₁, idx, qp) ∧ w₁.solvers[idx]? = some sv ∧
      qp.DimensionsAreConsistent sv.nbVar sv.nbCtr ∧ sv'.nbVar = sv.nbVar ∧ sv'.nbCtr = sv.nbCtr ∧
      HWalkgen.finish { w₁ with dX := dX, solvers := w₁.solvers.set idx sv', calls := w₁.calls + 1 } fb
        = .ok w' := by
  obtain ⟨⟨w₁, idx, qp⟩, h1, hs⟩ := bind_eq_ok.1 hs
  obtain ⟨sv, h2, hs⟩ := bind_eq_ok.1 hs
  obtain ⟨⟨found, dX, sv'⟩, h3, hs⟩ := bind_eq_ok.1 hs
  obtain ⟨w₂, h4, hs⟩ := bind_eq_ok.1 hs
  obtain ⟨-, rfl⟩ := Prod.mk.inj (Except.ok.inj hs)
  obtain ⟨d1, d2, d3⟩ := solverSolve_dims h3
  exact ⟨w₁, idx, qp, sv, dX, sv', h1, listAt_eq_ok.1 h2, d1, d2, d3, h4⟩

theorem HWalkgen.solve_frame {hull : Vec (Pt K) → Res (Polygon K)} {o : Oracle K} {w w' : HWalkgen K}
    {fb : K} {b : Bool} (h : HumInv w) (hs : w.solve hull o fb = .ok (b, w')) : HumFrame w w' := by
  obtain ⟨w₁, idx, qp, sv, dX, sv', h1, h2, -, d2, d3, h4⟩ := HWalkgen.solve_stages hs
  obtain ⟨f1, -⟩ := HWalkgen.prepare_frame h h1
  refine f1.trans (HumFrame.trans (w' := { w₁ with
    dX := dX, solvers := w₁.solvers.set idx sv', calls := w₁.calls + 1 }) ⟨rfl, rfl, rfl, rfl, ?_, id⟩
    (HWalkgen.finish_frame h4))
  unfold HWalkgen.solverDims
  refine List.ext_getElem? fun k => ?_
  rw [List.getElem?_map, List.getElem?_map]
  show Option.map _ (w₁.solvers.set idx sv')[k]? = _
  rw [List.getElem?_set]
  split
  · rename_i hk
    subst hk
    split
    · rw [h2]
      simp [d2, d3]
    · rename_i hlen
      rw [List.getElem?_eq_none (not_lt.1 hlen)]
  · rfl

theorem HWalkgen.step_frame {hull : Vec (Pt K) → Res (Polygon K)} {o : Oracle K} {w w' : HWalkgen K} {b : Bool}
    {c : HCall K} (h : HumInv w) (hc : c.Plain) (hs : w.step hull o c = .ok (b, w')) : HumFrame w w' := by
  cases c with
  | setNbSamples n => exact hc.elim
  | setConfig a b => exact hc.elim
  | setSamplingPeriod T =>
    obtain ⟨_, -, hs⟩ := bind_eq_ok.1 hs
    obtain ⟨l, hl, hs⟩ := bind_eq_ok.1 hs
    obtain ⟨s, hsup, hs⟩ := bind_eq_ok.1 hs
    obtain ⟨-, rfl⟩ := Prod.mk.inj (Except.ok.inj hs)
    obtain ⟨_, -, hl⟩ := bind_eq_ok.1 hl
    obtain ⟨-, -, p2, -⟩ := Lip.refresh_fresh (l := { w.lip with T := T, fb := T }) h.fresh.auto hl
    exact HumFrame.of p2 rfl rfl rfl rfl rfl
  | setStepPeriod p =>
    obtain ⟨_, -, hs⟩ := bind_eq_ok.1 hs
    obtain ⟨_, -, hs⟩ := bind_eq_ok.1 hs
    obtain ⟨s, h1, hs⟩ := bind_eq_ok.1 hs
    obtain ⟨-, rfl⟩ := Prod.mk.inj (Except.ok.inj hs)
    exact HumFrame.of rfl rfl rfl rfl rfl rfl
  | setInitialDoubleSupportLength p =>
    obtain ⟨s, h1, hs⟩ := bind_eq_ok.1 hs
    obtain ⟨-, rfl⟩ := Prod.mk.inj (Except.ok.inj hs)
    exact HumFrame.of rfl rfl rfl rfl rfl rfl
  | setKin left g =>
    obtain ⟨-, rfl⟩ := Prod.mk.inj (Except.ok.inj hs)
    exact HumFrame.of rfl rfl rfl rfl rfl rfl
  | setCop left g =>
    obtain ⟨-, rfl⟩ := Prod.mk.inj (Except.ok.inj hs)
    exact HumFrame.of rfl rfl rfl rfl rfl rfl
  | setVelRef v =>
    obtain ⟨_, -, hs⟩ := bind_eq_ok.1 hs
    obtain ⟨-, rfl⟩ := Prod.mk.inj (Except.ok.inj hs)
    exact HumFrame.of rfl rfl rfl rfl rfl rfl
  | setAngularVelRef v =>
    obtain ⟨_, -, hs⟩ := bind_eq_ok.1 hs
    obtain ⟨-, rfl⟩ := Prod.mk.inj (Except.ok.inj hs)
    exact HumFrame.refl _
  | setFootState left a v =>
    obtain ⟨_, -, hs⟩ := bind_eq_ok.1 hs
    obtain ⟨-, rfl⟩ := Prod.mk.inj (Except.ok.inj hs)
    exact HumFrame.of rfl rfl rfl rfl rfl rfl
  | setComState a v =>
    cases a with
    | x =>
      obtain ⟨l, hl, hs⟩ := bind_eq_ok.1 hs
      obtain ⟨-, rfl⟩ := Prod.mk.inj (Except.ok.inj hs)
      obtain ⟨_, -, hl⟩ := bind_eq_ok.1 hl
      obtain rfl := Except.ok.inj hl
      exact HumFrame.of rfl rfl rfl rfl rfl rfl
    | y =>
      obtain ⟨l, hl, hs⟩ := bind_eq_ok.1 hs
      obtain ⟨-, rfl⟩ := Prod.mk.inj (Except.ok.inj hs)
      obtain ⟨_, -, hl⟩ := bind_eq_ok.1 hl
      obtain rfl := Except.ok.inj hl
      exact HumFrame.of rfl rfl rfl rfl rfl rfl
    | z =>
      obtain ⟨_, -, hs⟩ := bind_eq_ok.1 hs
      obtain ⟨_, -, hs⟩ := bind_eq_ok.1 hs
      obtain ⟨_, -, hs⟩ := bind_eq_ok.1 hs
      obtain ⟨l, hl, hs⟩ := bind_eq_ok.1 hs
      obtain ⟨-, rfl⟩ := Prod.mk.inj (Except.ok.inj hs)
      obtain ⟨-, -, p2, -⟩ := Lip.refreshCop_fresh
        (l := { w.lip with comHeight := v.get 0, z := { w.lip.z with p := v.get 0 } }) h.fresh
        ⟨rfl, rfl, rfl, rfl, rfl, rfl, rfl, rfl, rfl⟩ hl
      exact HumFrame.of p2 rfl rfl rfl rfl rfl
  | setMaxHeight left x =>
    obtain ⟨-, rfl⟩ := Prod.mk.inj (Except.ok.inj hs)
    exact HumFrame.of rfl rfl rfl rfl rfl rfl
  | setWeightings wt =>
    obtain ⟨_, -, hs⟩ := bind_eq_ok.1 hs
    obtain ⟨_, -, hs⟩ := bind_eq_ok.1 hs
    obtain ⟨_, -, hs⟩ := bind_eq_ok.1 hs
    obtain ⟨-, rfl⟩ := Prod.mk.inj (Except.ok.inj hs)
    exact HumFrame.of rfl rfl rfl rfl rfl rfl
  | setMove m =>
    obtain ⟨ds, -, hs⟩ := bind_eq_ok.1 hs
    obtain ⟨-, rfl⟩ := Prod.mk.inj (Except.ok.inj hs)
    exact HumFrame.of rfl rfl rfl rfl rfl rfl
  | solve fb => exact HWalkgen.solve_frame h hs

theorem HWalkgen.run_frame {hull : Vec (Pt K) → Res (Polygon K)} {o : Oracle K} {cs : List (HCall K)} :
    ∀ {w w' : HWalkgen K}, HumInv w → (∀ c ∈ cs, c.Plain) → w.run hull o cs = .ok w' → HumFrame w w' := by
  induction cs with
  | nil => intro w w' h _ hr; obtain rfl := Except.ok.inj hr; exact HumFrame.refl _
  | cons c cs ih =>
    intro w w' h hc hr
    obtain ⟨⟨b, w₁⟩, h1, hr⟩ := bind_eq_ok.1 hr
    exact (HWalkgen.step_frame h (hc c (by simp)) h1).trans
      (ih (h.step h1) (fun c hc' => hc c (by simp [hc'])) hr)

theorem HWalkgen.run_append {hull : Vec (Pt K) → Res (Polygon K)} {o : Oracle K} {cs cs' : List (HCall K)} :
    ∀ {w w' : HWalkgen K}, w.run hull o (cs ++ cs') = .ok w' →
      ∃ w₁, w.run hull o cs = .ok w₁ ∧ w₁.run hull o cs' = .ok w' := by
  induction cs with
  | nil => intro w w' hr; exact ⟨w, rfl, hr⟩
  | cons c cs ih =>
    intro w w' hr
    obtain ⟨⟨b, w₁⟩, h1, hr⟩ := bind_eq_ok.1 hr
    obtain ⟨w₂, h2, h3⟩ := ih hr
    refine ⟨w₂, ?_, h3⟩
    unfold HWalkgen.run
    rw [h1]
    exact h2

theorem table_getElem? {α : Type} {steps m : ℕ} {f : ℕ → ℕ → α} {k : ℕ} {a : α}
    (h : (HWalkgen.table steps m f)[k]? = some a) :
    k < (steps + 1) * (m + 1) ∧ a = f (k / (m + 1)) (k % (m + 1)) := by
  unfold HWalkgen.table at h
  rw [List.getElem?_map] at h
  obtain ⟨j, hj, rfl⟩ := Option.map_eq_some_iff.1 h
  obtain ⟨hk, hj⟩ := List.getElem?_eq_some_iff.1 hj
  rw [List.length_range] at hk
  rw [List.getElem_range] at hj
  subst hj
  exact ⟨hk, rfl⟩

theorem computeConstantPart_table (w : HWalkgen K) : QpTable w.computeConstantPart := by
  intro k q hk
  unfold HWalkgen.computeConstantPart at hk ⊢
  dsimp only at hk ⊢
  obtain ⟨-, rfl⟩ := table_getElem? hk
  exact ⟨rfl, rfl, rfl, rfl, rfl, rfl, rfl, rfl, rfl⟩

theorem HWalkgen.step_table {hull : Vec (Pt K) → Res (Polygon K)} {o : Oracle K} {w w' : HWalkgen K} {b : Bool}
    {c : HCall K} (h : HumInv w) (ht : QpTable w) (hs : w.step hull o c = .ok (b, w')) : QpTable w' := by
  by_cases hc : c.Plain
  · exact (HWalkgen.step_frame h hc hs).qps ht
  cases c with
  | setNbSamples n =>
    obtain ⟨_, -, hs⟩ := bind_eq_ok.1 hs
    obtain ⟨l, hl, hs⟩ := bind_eq_ok.1 hs
    obtain ⟨s, hsup, hs⟩ := bind_eq_ok.1 hs
    obtain ⟨-, rfl⟩ := Prod.mk.inj (Except.ok.inj hs)
    exact computeConstantPart_table _
  | setConfig a b =>
    obtain ⟨-, rfl⟩ := Prod.mk.inj (Except.ok.inj hs)
    exact computeConstantPart_table _
  | _ => exact absurd trivial hc

theorem HWalkgen.run_table {hull : Vec (Pt K) → Res (Polygon K)} {o : Oracle K} {cs : List (HCall K)} :
    ∀ {w w' : HWalkgen K}, HumInv w → QpTable w → w.run hull o cs = .ok w' → QpTable w' := by
  induction cs with
  | nil => intro w w' h ht hr; obtain rfl := Except.ok.inj hr; exact ht
  | cons c cs ih =>
    intro w w' h ht hr
    obtain ⟨⟨b, w₁⟩, h1, hr⟩ := bind_eq_ok.1 hr
    exact ih (h.step h1) (HWalkgen.step_table h ht h1) hr

/-- The new generator. -/
theorem HWalkgen.make_table {w : HWalkgen K} (h : HWalkgen.make = .ok w) :
    QpTable w ∧ w.lip.N = 1 ∧ w.maxCtr = 0 ∧ w.withCop = false ∧ w.withFeet = false ∧
      w.solverDims = [(2, 0), (4, 0)] := by
  unfold HWalkgen.make at h
  obtain ⟨s, hs, h⟩ := bind_eq_ok.1 h
  obtain ⟨l, hl, h⟩ := bind_eq_ok.1 h
  obtain ⟨_, hN, h⟩ := bind_eq_ok.1 h
  have hN := require_eq_ok.1 hN
  obtain ⟨_, -, h⟩ := bind_eq_ok.1 h
  obtain rfl := Except.ok.inj h
  obtain ⟨-, -, p2, -⟩ := Lip.refresh_fresh (K := K) rfl hl
  have p2 : l.N = 1 := p2
  refine ⟨computeConstantPart_table _, p2, rfl, rfl, rfl, ?_⟩
  have hsN : s.N = 1 := hN.trans p2
  simp only [HWalkgen.solverDims, HWalkgen.computeConstantPart, HWalkgen.table, hsN, p2, Bool.false_eq_true,
    if_false]
  rfl

theorem HumHistory.table {hull : Vec (Pt K) → Res (Polygon K)} {w : HWalkgen K} (h : HumHistory hull w) : QpTable w := by
  induction h with
  | make h0 => exact (HWalkgen.make_table h0).1
  | call h h1 ih => exact HWalkgen.step_table h.inv ih h1
  | solvers S _ ih => exact ih

end MPC
