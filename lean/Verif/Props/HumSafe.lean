import Verif.Lemmas.HumBegin
import Verif.Props.HumCycle
import Verif.Props.HumSolver
import Verif.Props.Hull

/-! # Property C68: `HumanoidWalkgen::solve` does not fault -/

set_option linter.unusedSectionVars false

namespace MPC

open Finset

section
variable {K : Type} [Field K] [LinearOrder K] [IsStrictOrderedRing K] [FloorRing K]

theorem index_lt {M N c m : ℕ} (hM : M ≤ N) (hc : c ≤ m) : M * (m + 1) + c < (N + 1) * (m + 1) := by
  have : M * (m + 1) ≤ N * (m + 1) := Nat.mul_le_mul_right _ hM
  have e : (N + 1) * (m + 1) = N * (m + 1) + (m + 1) := by ring
  omega

/-- The preparation, with what the rest of `solve` needs. -/
theorem prepare_total [Archimedean K] {hull : Vec (Pt K) → Res (Polygon K)}
    {w : HWalkgen K} {fb : K} (hr : HumHistory hull w) (hreach : Reach (· = fb) CanStop (w.sup, w.X))
    (hu : HumUsable fb w) (hh : w.withCop = true → ∀ s X p, w.sup.updateTimeline w.X fb = .ok (s, X) →
      s.dsCopPoints = .ok p → HullWorks hull p) :
    ∃ w0 idx qp c, w.prepare hull fb = .ok ({ w0 with qps := w0.qps.set idx qp }, idx, qp) ∧ Begun hull fb w w0 ∧
      c ≤ w0.maxCtr ∧ idx = w0.sup.M * (w0.maxCtr + 1) + c ∧
      qp.DimensionsAreConsistent (2 * w0.lip.N + 2 * w0.sup.M) c := by
  obtain ⟨w0, hb, hB⟩ := begin_ok hr.inv hreach hu hh
  obtain ⟨nb, dx, dy, dv, Bx, By, px, py, hD, hdv, hv, hSr, hSc⟩ := hB.data
  obtain ⟨a, b, hn, hale, hble, hae, hbe⟩ := nbCtrE hB.polygons hB.M
  obtain ⟨s, X, l, f, hfr⟩ := hB.frame
  have t := hr.tab
  have m1 : w0.maxCtr = w.maxCtr := by rw [hfr]
  have m2 : w0.withCop = w.withCop := by rw [hfr]
  have m3 : w0.withFeet = w.withFeet := by rw [hfr]
  have m4 : w0.qps = w.qps := by rw [hfr]
  have m5 : w0.weighting = w.weighting := by rw [hfr]
  have m6 : w0.velRef = w.velRef := by rw [hfr]
  have m7 : w0.boundSize = w.boundSize := by rw [hfr]
  have hc : a + b ≤ w0.maxCtr := by
    have := hu.table
    rw [m2, hB.N, hB.cops.1] at hale
    rw [m3, hB.N, hB.cops.2] at hble
    rw [m1]
    omega
  have hidx : w0.index (a + b) < w0.qps.length := by
    rw [m4, t.table]
    unfold HWalkgen.index
    rw [m1]
    exact index_lt (hB.N ▸ hB.M) (m1 ▸ hc)
  obtain ⟨q0, hq0⟩ : ∃ q0, w0.qps[w0.index (a + b)]? = some q0 := ⟨_, List.getElem?_eq_getElem hidx⟩
  have hd0 := hr.table _ q0 (m4 ▸ hq0)
  have e1 : w0.index (a + b) / (w.maxCtr + 1) = w0.sup.M := by
    unfold HWalkgen.index
    rw [m1, Nat.mul_comm, Nat.mul_add_div (Nat.succ_pos _), Nat.div_eq_of_lt (by omega), Nat.add_zero]
  have e2 : w0.index (a + b) % (w.maxCtr + 1) = a + b := by
    unfold HWalkgen.index
    rw [m1, Nat.mul_comm, Nat.mul_add_mod, Nat.mod_eq_of_lt (by omega)]
  rw [e1, e2, ← hB.N] at hd0
  obtain ⟨q1, hf, hd1⟩ := fillQPE hD hdv hv hSr hSc hB.shaped hB.inv.N hB.X
    (by rw [m5, m6, hB.N]; exact hu.ref) (by rw [m7, hB.N]; exact t.bounds) hB.polygons hae hbe le_rfl hd0
  refine ⟨w0, w0.index (a + b), scaleQP q1 (1 / smallestSignificant q1.Q EPS) (1 / smallestSignificant q1.A EPS), a + b,
    ?_, hB, hc, rfl, ?_⟩
  · unfold HWalkgen.prepare
    rw [hb, ok_bind, hn, ok_bind]
    dsimp only
    rw [listAt_of_get? hq0, ok_bind, hf, ok_bind, normalizeMatrices_ok _ _ EPS_pos.le, ok_bind]
    rfl
  · exact hd1

/-- **C68, preparation.** On a grid of times, with complete polygons and a regular LIP model, every reachable
generator prepares its QP without a fault, whatever the number of samples, the configuration and the weightings; the
QP has the dimensions of its place in the table. -/
theorem C68_prepare [Archimedean K] (hull : Vec (Pt K) → Res (Polygon K))
    (w : HWalkgen K) (fb : K) (hr : HumHistory hull w) (hreach : Reach (· = fb) CanStop (w.sup, w.X))
    (hu : HumUsable fb w) (hh : w.withCop = true → ∀ s X p, w.sup.updateTimeline w.X fb = .ok (s, X) →
      s.dsCopPoints = .ok p → HullWorks hull p) :
    ∃ w' idx qp c, w.prepare hull fb = .ok (w', idx, qp) ∧ w'.sup.M ≤ w'.lip.N ∧ c ≤ w'.maxCtr ∧
      idx = w'.sup.M * (w'.maxCtr + 1) + c ∧ qp.DimensionsAreConsistent (2 * w'.lip.N + 2 * w'.sup.M) c := by
  obtain ⟨w0, idx, qp, c, h1, hB, h2, h3, h4⟩ := prepare_total hr hreach hu hh
  exact ⟨_, idx, qp, c, h1, hB.M, h2, h3, h4⟩

theorem SolversFit.frame {w w' : HWalkgen K} (h : SolversFit w) (hf : HumFrame w w') : SolversFit w' := by
  intro M hM c hc
  rw [hf.N] at hM
  rw [hf.maxCtr] at hc
  obtain ⟨s, h1, h2, h3⟩ := h M hM c hc
  have hg := congrArg (fun l => l[M * (w.maxCtr + 1) + c]?) hf.solvers
  unfold HWalkgen.solverDims at hg
  rw [List.getElem?_map, List.getElem?_map, h1] at hg
  obtain ⟨s', hs, he⟩ := Option.map_eq_some_iff.1 hg
  obtain ⟨a1, a2⟩ := Prod.mk.inj he
  exact ⟨s', by rw [hf.maxCtr]; exact hs, by rw [a1, h2, hf.N], by rw [a2, h3]⟩

theorem updateState_total {j fb : K} (h : 0 < fb) (s : State3 K) : ∃ s', updateState j fb s = .ok s' := by
  unfold updateState
  rw [require_pos h, ok_bind]
  exact ⟨_, rfl⟩

/-- **C68** (part). On a grid of times, with complete polygons and a regular LIP model, a reachable generator whose
solvers have the right dimensions solves without a fault, whatever the answer of the QP solver. Missing: `SolversFit`
should follow from the history; it does for plain histories (`C68_plain_solvers`), and is false after `setNbSamples`
(`C42_violated_samples`). -/
theorem C68_solve_partial [Archimedean K] (hull : Vec (Pt K) → Res (Polygon K))
    (w : HWalkgen K) (fb : K) (hr : HumHistory hull w) (hreach : Reach (· = fb) CanStop (w.sup, w.X))
    (hu : HumUsable fb w) (hh : w.withCop = true → ∀ s X p, w.sup.updateTimeline w.X fb = .ok (s, X) →
      s.dsCopPoints = .ok p → HullWorks hull p) (hs : SolversFit w) (o' : Oracle K) :
    ∃ b w', w.solve hull o' fb = .ok (b, w') := by
  have h0 : 0 < fb := (EPS_pos (K := K)).trans hu.grid.pos
  obtain ⟨w0, idx, qp, c, hp, hB, hc, hidx, hd⟩ := prepare_total hr hreach hu hh
  obtain ⟨s, X, l, f, hfr⟩ := hB.frame
  have m1 : w0.maxCtr = w.maxCtr := by rw [hfr]
  have m2 : w0.solvers = w.solvers := by rw [hfr]
  obtain ⟨sv, hsv, hv1, hv2⟩ := hs w0.sup.M (hB.N ▸ hB.M) c (m1 ▸ hc)
  rw [← m1, ← hidx, ← m2] at hsv
  unfold HWalkgen.solve
  rw [hp, ok_bind]
  dsimp only
  rw [listAt_of_get? hsv, ok_bind]
  have hsol : ∃ (b : Bool) (dX : Vec K) (sv' : SolverState K), solverSolve o' { sv with calls := w0.calls } qp 10000
      ⟨2 * w0.lip.N + 2 * w0.sup.M, w0.dX.get⟩ false false = .ok (b, dX, sv') ∧
      dX.size = 2 * w0.lip.N + 2 * w0.sup.M := by
    unfold solverSolve
    rw [require_pos (by dsimp only; rw [hv1, hv2, ← hB.N]; exact hd), ok_bind]
    dsimp only
    rw [requireIndex_pos (by rw [hv1, hB.N]), ok_bind]
    split
    · exact ⟨_, _, _, rfl, rfl⟩
    · exact ⟨_, _, _, rfl, rfl⟩
  obtain ⟨b, dX, sv', hsol, hdX⟩ := hsol
  rw [hsol, ok_bind]
  dsimp only
  obtain ⟨nb, dx, dy, dv, Bx, By, px, py, hD, -⟩ := hB.data
  have hX := hB.X
  obtain ⟨X1, eX, zX, -⟩ := addE (u := w0.X) (v := dX) (by rw [hX, hdX])
  unfold HWalkgen.finish
  dsimp only
  rw [eX, ok_bind]
  obtain ⟨t, et, zt, -⟩ := convert_ok (w := { w0 with
      dX := dX, X := X1, solvers := w0.solvers.set idx sv', calls := w0.calls + 1, qps := w0.qps.set idx qp })
    hD hB.shaped hB.inv.N (by dsimp only; omega)
  rw [et, ok_bind]
  have hN := hB.inv.fresh.N
  have hNN := hB.inv.N
  dsimp only at zt
  rw [vecAtE (by omega), ok_bind]
  obtain ⟨sx, ex⟩ := updateState_total (j := t.get 0) h0 w0.lip.x
  obtain ⟨sy, ey⟩ := updateState_total (j := t.get w0.lip.N) h0 w0.lip.y
  unfold Lip.updateStateX Lip.updateStateY
  rw [ex, ok_bind, res_pure, ok_bind, vecAtE (by omega), ok_bind]
  dsimp only
  rw [ey, ok_bind, res_pure, ok_bind]
  obtain ⟨v, ev, zv, -⟩ := segE (t := t) (o := 2 * w0.sup.N) (n := 2 * w0.sup.M) (by omega)
  rw [ev, ok_bind]
  obtain ⟨s'', es⟩ := hB.feet v zv
  rw [es, ok_bind]
  exact ⟨_, _, rfl⟩

/-! ### Runs -/

theorem updateFeet_cop {s s' : Sup K} {sv : Vec K} {fb : K} (h : s.updateFeetStates sv fb = .ok s') :
    s'.left.cop = s.left.cop ∧ s'.right.cop = s.right.cop := by
  have hfly : ∀ {f g : Foot K} {a b c d e : K}, f.fly a b c d e = .ok g → g.cop = f.cop := by
    intro f g a b c d e h
    unfold Foot.fly at h
    obtain ⟨_, -, h⟩ := bind_eq_ok.1 h
    obtain ⟨_, -, h⟩ := bind_eq_ok.1 h
    dsimp only at h
    split at h
    all_goals
      obtain ⟨_, -, h⟩ := bind_eq_ok.1 h
      cases h; rfl
  unfold Sup.updateFeetStates at h
  obtain ⟨f, hf, h⟩ := bind_eq_ok.1 h
  obtain ⟨ds, hds, h⟩ := bind_eq_ok.1 h
  dsimp only at h
  split at h
  · cases hty : f.type with
    | DS => rw [hty] at h; simp at h
    | leftSS =>
      rw [hty] at h
      obtain ⟨_, -, h⟩ := bind_eq_ok.1 h
      obtain ⟨_, -, h⟩ := bind_eq_ok.1 h
      obtain ⟨g, hg, h⟩ := bind_eq_ok.1 h
      cases h
      exact ⟨rfl, hfly hg⟩
    | rightSS =>
      rw [hty] at h
      obtain ⟨_, -, h⟩ := bind_eq_ok.1 h
      obtain ⟨_, -, h⟩ := bind_eq_ok.1 h
      obtain ⟨g, hg, h⟩ := bind_eq_ok.1 h
      cases h
      exact ⟨hfly hg, rfl⟩
  · cases h
    exact ⟨rfl, rfl⟩

/-- Nothing that matters changes. -/
theorem HumUsable.congr {fb : K} {w w' : HWalkgen K} (h : HumUsable fb w) (hg : Grid fb w'.sup)
    (hfb : w'.lip.fb = fb ∨ w'.lip.fb = w.lip.fb) (hN : w'.lip.N = w.lip.N) (hT : w'.lip.T = w.lip.T)
    (hc : w'.lip.comHeight = w.lip.comHeight) (hw : w'.weighting = w.weighting)
    (hv : w'.velRef.size = w.velRef.size ∨ w'.velRef.size = 2 * w'.lip.N) (h1 : w'.withCop = w.withCop)
    (h2 : w'.withFeet = w.withFeet) (h3 : w'.maxCtr = w.maxCtr) (k1 : w'.sup.left.cop = w.sup.left.cop)
    (k2 : w'.sup.right.cop = w.sup.right.cop) (k3 : w'.sup.left.kin = w.sup.left.kin)
    (k4 : w'.sup.right.kin = w.sup.right.kin) : HumUsable fb w' where
  grid := hg
  period := hfb.elim .inl fun e => by rw [e]; exact h.period
  ref := fun h0 => hv.elim (fun e => by rw [e, hN]; exact h.ref (hw ▸ h0)) id
  regular := by rw [hT, hc]; exact h.regular
  cop := by rw [h1, k1, k2]; exact h.cop
  kin := by rw [h2, k3, k4]; exact h.kin
  table := by
    have := h.table
    unfold Sup.maxNbCop Sup.maxNbKin at this ⊢
    rw [h1, h2, h3, hN, k1, k2, k3, k4]
    exact this

/-- `solve` leaves a generator that may solve again, with the same polygons. -/
theorem HumUsable.solve [Archimedean K] {hull : Vec (Pt K) → Res (Polygon K)} {o : Oracle K}
    {w w2 : HWalkgen K} {fb : K} {b : Bool} (hr : HumHistory hull w)
    (hreach : Reach (· = fb) CanStop (w.sup, w.X)) (hu : HumUsable fb w)
    (hh : w.withCop = true → ∀ s X p, w.sup.updateTimeline w.X fb = .ok (s, X) →
      s.dsCopPoints = .ok p → HullWorks hull p) (hs : w.solve hull o fb = .ok (b, w2)) :
    HumUsable fb w2 ∧ w2.withCop = w.withCop := by
  have h0 : 0 < fb := (EPS_pos (K := K)).trans hu.grid.pos
  have hf := HWalkgen.solve_frame hr.inv hs
  have hcyc := C64_cycle hull o w w2 fb b hr hs
  obtain ⟨f, mv, R, hI⟩ := hreach.ginv h0.le hu.grid
  obtain ⟨c1, c2, c3, c4, -⟩ := hcyc.params hI.hist
  obtain ⟨w0, idx, qp, c, hp, hB, hc, hidx, hd⟩ := prepare_total hr hreach hu hh
  obtain ⟨s, X, l, fst, hfr⟩ := hB.frame
  obtain ⟨s₁, v₁, hup, -, hfeet⟩ := hcyc
  obtain ⟨s₀, u₀, f₁, m, hU⟩ := hI.hist.update hup
  have hsame := hU.preview.same
  have hleft : s₁.left = w.sup.left := hsame.left.trans hU.left
  have hright : s₁.right = w.sup.right := hsame.right.trans hU.right
  obtain ⟨-, -, -, -, -, -, -, -, -, k3, k4, -⟩ := Sup.updateFeet_frame hfeet
  obtain ⟨k1, k2⟩ := updateFeet_cop hfeet
  rw [hleft] at k1 k3
  rw [hright] at k2 k4
  obtain ⟨w₁, idx', qp', sv, dX, sv', e1, -, -, -, -, h4⟩ := HWalkgen.solve_stages hs
  rw [hp] at e1
  cases e1
  unfold HWalkgen.finish at h4
  obtain ⟨X', -, h4⟩ := bind_eq_ok.1 h4
  obtain ⟨t, -, h4⟩ := bind_eq_ok.1 h4
  obtain ⟨j, -, h4⟩ := bind_eq_ok.1 h4
  obtain ⟨l₁, h1, h4⟩ := bind_eq_ok.1 h4
  obtain ⟨j', -, h4⟩ := bind_eq_ok.1 h4
  obtain ⟨l₂, h2, h4⟩ := bind_eq_ok.1 h4
  obtain ⟨sv, -, h4⟩ := bind_eq_ok.1 h4
  obtain ⟨s', h3, h4⟩ := bind_eq_ok.1 h4
  obtain rfl := Except.ok.inj h4
  obtain ⟨sx, -, h1⟩ := bind_eq_ok.1 h1
  obtain rfl := Except.ok.inj h1
  obtain ⟨sy, -, h2⟩ := bind_eq_ok.1 h2
  obtain rfl := Except.ok.inj h2
  have hTT : w0.lip.T = w.lip.T := by
    rw [← hB.inv.T, ← hr.inv.T, ← (Sup.updateFeet_frame h3).2.1]
    exact c2
  refine ⟨hu.congr (hu.grid.congr c1 c2 c3 c4) (.inl hB.fb) hB.N hTT hB.comHeight ?_ (.inl ?_) hf.withCop
    hf.withFeet hf.maxCtr k1 k2 k3 k4, hf.withCop⟩
  · dsimp only; rw [hfr]
  · dsimp only; rw [hfr]

/-- **C68, runs** (part, `SolversFit` as above). From a configured generator at rest, whose solvers have the right dimensions, and with a
constructor of polygons that works, no sequence of `solve`, `setMove`, new references and new CoM states leads to a
fault of `solve`, whatever the answers of the QP solver. -/
theorem C68_walk_partial [Archimedean K] (hull : Vec (Pt K) → Res (Polygon K)) (o : Oracle K)
    (w w' : HWalkgen K) (fb : K) (hr : HumHistory hull w) (h0 : Ready (w.sup, w.X)) (hu : HumUsable fb w)
    (hh : w.withCop = true → ∀ w₁, HumWalks hull o fb w w₁ → ∀ s X p, w₁.sup.updateTimeline w₁.X fb = .ok (s, X) →
      s.dsCopPoints = .ok p → HullWorks hull p) (hs : SolversFit w) (h : HumWalks hull o fb w w') :
    (∃ b w'', w'.step hull o (.solve fb) = .ok (b, w'')) ∧ ∀ m, ∃ w'', w'.step hull o (.setMove m) = .ok (true, w'') := by
  have hfb : 0 < fb := (EPS_pos (K := K)).trans hu.grid.pos
  have key : HumHistory hull w' ∧ Reach (· = fb) CanStop (w'.sup, w'.X) ∧ HumUsable fb w' ∧
      w'.withCop = w.withCop ∧ SolversFit w' := by
    induction h with
    | refl => exact ⟨hr, .start h0, hu, rfl, hs⟩
    | @solve w₁ w₂ b hw₁ e ih =>
      obtain ⟨hr', hR, hu', e1, hs'⟩ := ih
      obtain ⟨i1, i2⟩ := hu'.solve hr' hR (fun hc => hh (e1 ▸ hc) w₁ hw₁) e
      exact ⟨hr'.call e, .cycle hR rfl (C64_cycle hull o w₁ w₂ fb b hr' e), i1, i2.trans e1,
        hs'.frame (HWalkgen.solve_frame hr'.inv e)⟩
    | @setMove w₁ w₂ m b _ hm e ih =>
      obtain ⟨hr', hR, hu', e1, hs'⟩ := ih
      refine ⟨hr'.call e, ?_⟩
      have hf := HWalkgen.step_frame hr'.inv (by trivial) e
      unfold HWalkgen.step at e
      obtain ⟨ds, -, e⟩ := bind_eq_ok.1 e
      obtain ⟨-, rfl⟩ := Prod.mk.inj (Except.ok.inj e)
      exact ⟨.setMove hR hm, hu'.congr (hu'.grid.congr rfl rfl rfl rfl) (.inr rfl) rfl rfl rfl rfl (.inl rfl) rfl
        rfl rfl rfl rfl rfl rfl, e1, hs'.frame hf⟩
    | @setVelRef w₁ w₂ v b _ e ih =>
      obtain ⟨hr', hR, hu', e1, hs'⟩ := ih
      refine ⟨hr'.call e, ?_⟩
      have hf := HWalkgen.step_frame hr'.inv (by trivial) e
      unfold HWalkgen.step at e
      obtain ⟨_, hv, e⟩ := bind_eq_ok.1 e
      obtain ⟨-, rfl⟩ := Prod.mk.inj (Except.ok.inj e)
      exact ⟨hR, hu'.congr hu'.grid (.inr rfl) rfl rfl rfl rfl (.inr (require_eq_ok.1 hv)) rfl
        rfl rfl rfl rfl rfl rfl, e1, hs'.frame hf⟩
    | @setComX w₁ w₂ v b _ e ih =>
      obtain ⟨hr', hR, hu', e1, hs'⟩ := ih
      refine ⟨hr'.call e, ?_⟩
      have hf := HWalkgen.step_frame hr'.inv (by trivial) e
      unfold HWalkgen.step at e
      obtain ⟨l, hl, e⟩ := bind_eq_ok.1 e
      obtain ⟨-, rfl⟩ := Prod.mk.inj (Except.ok.inj e)
      obtain ⟨_, -, hl⟩ := bind_eq_ok.1 hl
      obtain rfl := Except.ok.inj hl
      exact ⟨hR, hu'.congr hu'.grid (.inr rfl) rfl rfl rfl rfl (.inl rfl) rfl
        rfl rfl rfl rfl rfl rfl, e1, hs'.frame hf⟩
    | @setComY w₁ w₂ v b _ e ih =>
      obtain ⟨hr', hR, hu', e1, hs'⟩ := ih
      refine ⟨hr'.call e, ?_⟩
      have hf := HWalkgen.step_frame hr'.inv (by trivial) e
      unfold HWalkgen.step at e
      obtain ⟨l, hl, e⟩ := bind_eq_ok.1 e
      obtain ⟨-, rfl⟩ := Prod.mk.inj (Except.ok.inj e)
      obtain ⟨_, -, hl⟩ := bind_eq_ok.1 hl
      obtain rfl := Except.ok.inj hl
      exact ⟨hR, hu'.congr hu'.grid (.inr rfl) rfl rfl rfl rfl (.inl rfl) rfl
        rfl rfl rfl rfl rfl rfl, e1, hs'.frame hf⟩
  obtain ⟨hr', hR, hu', e1, hs'⟩ := key
  constructor
  · exact C68_solve_partial hull w' fb hr' hR hu' (fun hc => hh (e1 ▸ hc) w' h) hs' o
  · intro m
    obtain ⟨f, mv, R, hI⟩ := hR.ginv hfb.le hu'.grid
    have hfr : (w'.sup.setMove m).timeline[0]? = some f := hI.hist.front
    refine ⟨{ w' with
      sup := w'.sup.setMove m, first := if decide (f.type = .DS) then true else w'.first }, ?_⟩
    unfold HWalkgen.step
    dsimp only
    rw [Sup.isInDS_ok hfr, ok_bind]
    rfl

/-- A new generator, and one on which only plain calls were made, has solvers of the right dimensions. -/
theorem C68_plain_solvers (hull : Vec (Pt K) → Res (Polygon K)) (o : Oracle K) (cs : List (HCall K))
    (hc : ∀ c ∈ cs, c.Plain) (w : HWalkgen K) (hr : HumReaches hull o cs w) : SolversFit w := by
  obtain ⟨w₀, h0, hrun⟩ := hr
  obtain ⟨t1, t2, t3, t4, t5, t6⟩ := HWalkgen.make_table h0
  refine SolversFit.frame (w := w₀) ?_ (HWalkgen.run_frame (HumInv.make h0) hc hrun)
  intro M hM c hcc
  rw [t2] at hM ⊢
  rw [t3] at hcc ⊢
  have hc0 : c = 0 := by omega
  subst hc0
  unfold HWalkgen.solverDims at t6
  have hg := congrArg (fun l => l[M * (0 + 1) + 0]?) t6
  rw [List.getElem?_map] at hg
  have hM : M = 0 ∨ M = 1 := by omega
  rcases hM with rfl | rfl <;>
  · obtain ⟨s, hs, he⟩ := Option.map_eq_some_iff.1 hg
    obtain ⟨a1, a2⟩ := Prod.mk.inj he
    exact ⟨s, hs, a1, a2⟩

/-! ### The polygons -/

/-- The polygon built on given vertices is complete. -/
theorem C68_vertices (p : Vec (Pt K)) (g : Polygon K) (h : Polygon.ofVertices p = .ok g) :
    g.Complete ∧ g.nbGeneral ≤ p.size := by
  obtain ⟨g', e, h1, h2, h3⟩ := edges_ok p p.size le_rfl
  cases h.symm.trans e
  have hn : g.nbGeneral = g.coefX.size := h1.2
  exact ⟨⟨hn.le, by rw [hn, h1.1], by rw [hn, h2]; exact h3⟩, hn.trans_le h3⟩

end

/-- The constructor of polygons works on separated points. -/
theorem C68_points {δ : ℝ} {p : Vec (Pt ℝ)} (hp : Spec.Separated δ p) : HullWorks (Polygon.ofPoints δ) p := by
  obtain ⟨g, hg, hv⟩ := C24_separated_partial hp
  have h := hg
  unfold Polygon.ofPoints at h
  obtain ⟨l, -, h⟩ := bind_eq_ok.1 h
  obtain ⟨g', e, h1, h2, -⟩ := edges_ok (listVec l) (listVec l).size le_rfl
  cases h.symm.trans e
  exact ⟨g, hg, (C68_vertices _ _ h).1, ((C68_vertices _ _ h).1.rows).trans hv⟩

/-! ### Concrete runs -/

theorem demoDiamond_complete : demoDiamond.Complete := by
  obtain ⟨g, e, h1, h2, h3⟩ := edges_ok (⟨4, fun i => if i = 0 then ⟨2, 0⟩ else if i = 1 then ⟨0, 2⟩ else
    if i = 2 then ⟨-2, 0⟩ else ⟨0, -2⟩⟩ : Vec (Pt ℚ)) 4 le_rfl
  have : demoDiamond = g := by
    unfold demoDiamond Polygon.ofVertices
    rw [e]
  rw [this]
  exact (C68_vertices _ _ e).1

/-- A user of three samples of one second gives the polygons of the feet, then turns both constraints on. -/
def safeCalls : List (HCall ℚ) :=
  [.setInitialDoubleSupportLength 1, .setNbSamples 3, .setStepPeriod 2, .setKin true demoDiamond,
    .setKin false demoDiamond, .setCop true demoDiamond, .setCop false demoDiamond, .setConfig true true,
    .setVelRef (Vec.const 6 1)]

set_option maxRecDepth 100000 in
theorem safe_checks : okAnd (fun w => decide (w.sup.N = 3 ∧ w.sup.T = 1 ∧ w.sup.stepPeriod = 2 ∧
      w.sup.dsPeriod = 1) && decide ((w.sup.timeline.map fun p => (p.type, p.duration)) = [(.DS, 1)] ∧
      w.sup.ttnp = 1 ∧ w.sup.M = 0 ∧ w.sup.move = false ∧ w.X.size = 6) &&
      decide (w.sup.left.x.factor.size = 12 ∧ w.sup.left.y.factor.size = 12 ∧ w.sup.left.z.factor.size = 12) &&
      decide (w.sup.right.x.factor.size = 12 ∧ w.sup.right.y.factor.size = 12 ∧ w.sup.right.z.factor.size = 12) &&
      decide (w.lip.N = 3 ∧ w.lip.T = 1 ∧ w.lip.comHeight = 1 ∧ w.velRef.size = 6 ∧ w.withCop = true ∧
        w.withFeet = true) && decide (EPS < |1 / 2 - w.lip.fb| ∨ w.lip.fb = 1 / 2) && decide (w.maxCtr = 36) &&
      decide (w.sup.left.cop.nbGeneral ≤ w.sup.left.cop.coefX.size ∧ w.sup.left.cop.nbGeneral ≤ w.sup.left.cop.coefY.size ∧
        w.sup.left.cop.nbGeneral ≤ w.sup.left.cop.vertices.size ∧ w.sup.left.cop.vertices.size = 4) &&
      decide (w.sup.right.cop.nbGeneral ≤ w.sup.right.cop.coefX.size ∧
        w.sup.right.cop.nbGeneral ≤ w.sup.right.cop.coefY.size ∧
        w.sup.right.cop.nbGeneral ≤ w.sup.right.cop.vertices.size ∧ w.sup.right.cop.vertices.size = 4) &&
      decide (w.sup.left.kin.nbGeneral ≤ w.sup.left.kin.coefX.size ∧ w.sup.left.kin.nbGeneral ≤ w.sup.left.kin.coefY.size ∧
        w.sup.left.kin.nbGeneral ≤ w.sup.left.kin.vertices.size ∧ w.sup.left.kin.vertices.size = 4) &&
      decide (w.sup.right.kin.nbGeneral ≤ w.sup.right.kin.coefX.size ∧
        w.sup.right.kin.nbGeneral ≤ w.sup.right.kin.coefY.size ∧
        w.sup.right.kin.nbGeneral ≤ w.sup.right.kin.vertices.size ∧ w.sup.right.kin.vertices.size = 4))
    (HWalkgen.make >>= fun w => w.run (fun _ => .ok demoRect) oneOracle safeCalls) = true := by
  decide +kernel

theorem timeline_of_map {l : List (Phase ℚ)} {t : PhaseType} {d : ℚ}
    (h : (l.map fun p => (p.type, p.duration)) = [(t, d)]) : l = [⟨t, d⟩] := by
  match l, h with
  | [⟨t', d'⟩], h =>
    simp only [List.map_cons, List.map_nil, List.cons.injEq, Prod.mk.injEq, and_true] at h
    rw [h.1, h.2]

theorem regular_half (c : ℕ) (h1 : 1 ≤ c) (h : (c : ℚ) * (1 / 2) ≤ 1) :
    ((c : ℚ) * (1 / 2)) ^ 2 * GRAVITY_NORM ≠ 6 * 1 := by
  have h2 : (c : ℚ) ≤ 2 := by linarith
  have h3 : c ≤ 2 := by exact_mod_cast h2
  interval_cases c <;> norm_num [GRAVITY_NORM]

theorem demoRect_works (p : Vec (Pt ℚ)) : HullWorks (fun _ => .ok demoRect) p :=
  ⟨demoRect, rfl, ⟨Nat.zero_le _, Nat.zero_le _, Nat.zero_le _⟩, Nat.zero_le _⟩

theorem safe_ready : ∃ w, HumReaches (fun _ => .ok demoRect) oneOracle safeCalls w ∧ Ready (w.sup, w.X) ∧
    HumUsable (1 / 2) w ∧ w.withCop = true ∧ w.withFeet = true ∧ w.lip.N = 3 ∧ w.maxCtr = 36 := by
  obtain ⟨w, h, hc⟩ := okAnd_true safe_checks
  obtain ⟨w0, h0, hw⟩ := bind_eq_ok.1 h
  simp only [Bool.and_eq_true, decide_eq_true_eq] at hc
  obtain ⟨⟨⟨⟨⟨⟨⟨⟨⟨⟨⟨c1, c2, c3, c4⟩, c5, c6, c7, c8, c9⟩, cl⟩, cr⟩, l1, l2, l3, l4, l5, l6⟩, lf⟩, mc⟩,
    ⟨a1, a2, a3, a4⟩⟩, ⟨b1, b2, b3, b4⟩⟩, ⟨d1, d2, d3, d4⟩⟩, ⟨e1, e2, e3, e4⟩⟩ := hc
  have hE : (EPS : ℚ) ≤ 1 := by norm_num [EPS]
  have hE2 : (EPS : ℚ) ≤ 2 := by norm_num [EPS]
  have hK : HasKin w.sup := ⟨by rw [d4]; omega, by rw [e4]; omega⟩
  have hmaxc : w.sup.maxNbCop = 8 := by unfold Sup.maxNbCop; rw [a4, b4]; rfl
  have hmaxk : w.sup.maxNbKin = 4 := by unfold Sup.maxNbKin; rw [d4, e4]; rfl
  refine ⟨w, ⟨w0, h0, hw⟩, ⟨by simp [c1], by simp [c2, hE], by simp [c3, hE2], by simp [c4, hE], hK, ?_, ?_,
    c7, c8, by simp [c1, c9], cl, cr⟩, ⟨⟨by norm_num [EPS], ⟨2, by omega, by rw [c2]; norm_num⟩,
    ⟨4, by omega, by rw [c3]; norm_num⟩, ⟨2, by omega, by rw [c4]; norm_num⟩, by rw [c1, c2, c3]; norm_num⟩,
    lf.symm, fun _ => by rw [l4, l1], ?_, fun _ => ⟨⟨a1, a2, a3⟩, ⟨b1, b2, b3⟩⟩, fun _ => ⟨⟨d1, d2, d3⟩, ⟨e1, e2, e3⟩⟩,
    by rw [l5, l6, l1, hmaxc, hmaxk, mc]; simp⟩, ⟨l5, l6, l1, mc⟩⟩
  · simp only [c4]; exact timeline_of_map c5
  · simp only [c4]; exact c6
  · rw [l2, l3]; exact regular_half

/-- The hypotheses of `C68_prepare` are met with three samples and both constraints. -/
example : ∃ w, HumHistory (fun _ => .ok demoRect) w ∧ Reach (· = (1 / 2 : ℚ)) CanStop (w.sup, w.X) ∧
    HumUsable (1 / 2) w ∧ (w.withCop = true ∧ w.withFeet = true ∧ w.lip.N = 3 ∧ w.maxCtr = 36) ∧
    (w.withCop = true → ∀ s X p, w.sup.updateTimeline w.X (1 / 2) = .ok (s, X) → s.dsCopPoints = .ok p →
      HullWorks (fun _ => .ok demoRect) p) := by
  obtain ⟨w, h1, h2, h3, h4⟩ := safe_ready
  exact ⟨w, h1.history, .start h2, h3, h4, fun _ _ _ p _ _ => demoRect_works p⟩

/-- The generator with solvers of the right sizes. -/
def fitted (w : HWalkgen ℚ) : HWalkgen ℚ :=
  { w with solvers := HWalkgen.table w.sup.N w.maxCtr fun i j => SolverState.make (2 * w.lip.N + 2 * i) j }

theorem fitted_fit {w : HWalkgen ℚ} (h : w.sup.N = w.lip.N) : SolversFit (fitted w) := by
  intro M hM c hc
  have hM : M ≤ w.lip.N := hM
  have hc : c ≤ w.maxCtr := hc
  have hlt := index_lt hM hc
  refine ⟨SolverState.make (2 * w.lip.N + 2 * M) c, ?_, rfl, rfl⟩
  have e1 : (M * (w.maxCtr + 1) + c) / (w.maxCtr + 1) = M := by
    rw [Nat.mul_comm, Nat.mul_add_div (by omega), Nat.div_eq_of_lt (by omega), Nat.add_zero]
  have e2 : (M * (w.maxCtr + 1) + c) % (w.maxCtr + 1) = c := by
    rw [Nat.mul_comm, Nat.mul_add_mod, Nat.mod_eq_of_lt (by omega)]
  simp only [fitted, HWalkgen.table, h]
  rw [List.getElem?_map, List.getElem?_range hlt]
  simp only [Option.map_some, e1, e2]

/-- The hypotheses of `C68_walk_partial` are met with three samples and both constraints, solvers of the right sizes being
given: the robot starts to walk and any number of control cycles succeed. -/
example : ∃ w, HumHistory (fun _ => .ok demoRect) w ∧ Ready (w.sup, w.X) ∧ HumUsable (1 / 2) w ∧ SolversFit w ∧
    (w.withCop = true ∧ w.withFeet = true ∧ w.lip.N = 3) ∧ ∀ n : ℕ, ∃ w',
    w.run (fun _ => .ok demoRect) oneOracle (.setMove true :: List.replicate n (.solve (1 / 2))) = .ok w' := by
  obtain ⟨w, h1, h2, h3, h4, h5, h6, -⟩ := safe_ready
  have hH : HumHistory (fun _ => .ok demoRect) (fitted w) := .solvers _ h1.history
  have hF : SolversFit (fitted w) := fitted_fit h1.inv.N
  have hU : HumUsable (1 / 2) (fitted w) := ⟨h3.1, h3.2, h3.3, h3.4, h3.5, h3.6, h3.7⟩
  have key := fun w' => C68_walk_partial (fun _ => .ok demoRect) oneOracle (fitted w) w' (1 / 2) hH h2 hU
    (fun _ _ _ _ _ p _ _ => demoRect_works p) hF
  have hn : ∀ n w1, HumWalks (fun _ => .ok demoRect) oneOracle (1 / 2) (fitted w) w1 →
      ∃ w', w1.run (fun _ => .ok demoRect) oneOracle (List.replicate n (.solve (1 / 2))) = .ok w' := by
    intro n
    induction n with
    | zero => exact fun w1 _ => ⟨w1, rfl⟩
    | succ n ih =>
      intro w1 hw
      obtain ⟨b, w2, e⟩ := (key w1 hw).1
      obtain ⟨w', e'⟩ := ih w2 (.solve hw e)
      exact ⟨w', by rw [List.replicate_succ, HWalkgen.run, e, ok_bind]; exact e'⟩
  refine ⟨fitted w, hH, h2, hU, hF, ⟨h4, h5, h6⟩, fun n => ?_⟩
  obtain ⟨w1, e⟩ := (key (fitted w) .refl).2 true
  obtain ⟨w', e'⟩ := hn n w1 (.setMove .refl (Or.inl rfl) e)
  exact ⟨w', by rw [HWalkgen.run, e, ok_bind]; exact e'⟩

set_option maxRecDepth 100000 in
theorem safe_walk_checks : okAnd (fun r => decide (r.1.sup.N = 1 ∧ r.1.sup.T = 1 ∧ r.1.sup.stepPeriod = 1 ∧
      r.1.sup.dsPeriod = 1 ∧ 0 < r.1.sup.left.kin.vertices.size ∧ 0 < r.1.sup.right.kin.vertices.size) &&
      decide ((r.1.sup.timeline.map fun p => (p.type, p.duration)) = [(.DS, 1)] ∧ r.1.sup.ttnp = 1 ∧ r.1.sup.M = 0 ∧
        r.1.sup.move = false ∧ r.1.X.size = 2) &&
      decide (r.1.sup.left.x.factor.size = 12 ∧ r.1.sup.left.y.factor.size = 12 ∧ r.1.sup.left.z.factor.size = 12) &&
      decide (r.1.sup.right.x.factor.size = 12 ∧ r.1.sup.right.y.factor.size = 12 ∧ r.1.sup.right.z.factor.size = 12) &&
      decide (r.1.lip.N = 1 ∧ r.1.lip.T = 1 ∧ r.1.lip.comHeight = 1 ∧ r.1.velRef.size = 2 ∧ r.1.withCop = false ∧
        r.1.withFeet = false) && decide (EPS < |1 / 2 - r.1.lip.fb| ∨ r.1.lip.fb = 1 / 2) &&
      decide (r.2.sup.M = 1 ∧ r.2.sup.move = true))
    (do
      let w ← HWalkgen.make >>= fun w => w.run (fun _ => .ok demoRect) oneOracle readyCalls
      let w1 ← w.step (fun _ => .ok demoRect) oneOracle (.setMove true)
      let w2 ← w1.2.step (fun _ => .ok demoRect) oneOracle (.solve (1 / 2))
      let w3 ← w2.2.step (fun _ => .ok demoRect) oneOracle (.setVelRef (Vec.const 2 1))
      let w4 ← w3.2.step (fun _ => .ok demoRect) oneOracle (.solve (1 / 2))
      let w5 ← w4.2.step (fun _ => .ok demoRect) oneOracle (.solve (1 / 2))
      pure (w, w5.2)) = true := by
  decide +kernel

/-- The hypotheses of `C68_walk_partial` are met, and its conclusion holds in a state with a footstep in the preview. -/
example : ∃ w w', HumReaches (fun _ => .ok demoRect) oneOracle readyCalls w ∧ Ready (w.sup, w.X) ∧
    HumUsable (1 / 2) w ∧ SolversFit w ∧ HumWalks (fun _ => .ok demoRect) oneOracle (1 / 2) w w' ∧
    (w'.sup.M = 1 ∧ w'.sup.move = true) ∧
    ∃ b w'', w'.step (fun _ => .ok demoRect) oneOracle (.solve (1 / 2)) = .ok (b, w'') := by
  obtain ⟨r, h, hc⟩ := okAnd_true safe_walk_checks
  obtain ⟨w, hw, h⟩ := bind_eq_ok.1 h
  obtain ⟨w0, h0, hw⟩ := bind_eq_ok.1 hw
  obtain ⟨⟨b1, w1⟩, h1, h⟩ := bind_eq_ok.1 h
  obtain ⟨⟨b2, w2⟩, h2, h⟩ := bind_eq_ok.1 h
  obtain ⟨⟨b3, w3⟩, h3, h⟩ := bind_eq_ok.1 h
  obtain ⟨⟨b4, w4⟩, h4, h⟩ := bind_eq_ok.1 h
  obtain ⟨⟨b5, w5⟩, h5, h⟩ := bind_eq_ok.1 h
  obtain rfl := Except.ok.inj h
  simp only [Bool.and_eq_true, decide_eq_true_eq] at hc
  obtain ⟨⟨⟨⟨⟨⟨⟨c1, c2, c3, c4, hK⟩, c5, c6, c7, c8, c9⟩, cl⟩, cr⟩, l1, l2, l3, l4, l5, l6⟩, lf⟩, hM⟩ := hc
  have hE : (EPS : ℚ) ≤ 1 := by norm_num [EPS]
  have hR : HumReaches (fun _ => .ok demoRect) oneOracle readyCalls w := ⟨w0, h0, hw⟩
  have hY : Ready (w.sup, w.X) := ⟨by simp [c1], by simp [c2, hE], by simp [c3, hE], by simp [c4, hE], hK,
    by simp only [c4]; exact timeline_of_map c5, by simp only [c4]; exact c6, c7, c8, by simp [c1, c9], cl, cr⟩
  have hU : HumUsable (1 / 2) w := ⟨⟨by norm_num [EPS], ⟨2, by omega, by rw [c2]; norm_num⟩,
    ⟨2, by omega, by rw [c3]; norm_num⟩, ⟨2, by omega, by rw [c4]; norm_num⟩, by rw [c1, c2, c3]; norm_num⟩,
    lf.symm, fun _ => by rw [l4, l1], by rw [l2, l3]; exact regular_half, by simp [l5], by simp [l6],
    by simp [l5, l6]⟩
  have hS : SolversFit w := C68_plain_solvers _ _ readyCalls (by simp [readyCalls, HCall.Plain]) w hR
  have hW : HumWalks (fun _ => .ok demoRect) oneOracle (1 / 2) w w5 :=
    .solve (.solve (.setVelRef (.solve (.setMove .refl (Or.inl rfl) h1) h2) h3) h4) h5
  exact ⟨w, w5, hR, hY, hU, hS, hW, hM,
    (C68_walk_partial _ _ w w5 _ hR.history hY hU (by simp [l5]) hS hW).1⟩

/-! ### The feedback period of the LIP model -/

/-- The initial double support lasts 2.1001 seconds. -/
def periodCalls : List (HCall ℚ) :=
  [.setInitialDoubleSupportLength (21001 / 10000), .setStepPeriod 1, .setKin true demoRect, .setKin false demoRect,
    .setMove true]

set_option maxRecDepth 100000 in
theorem period_checks : okAnd (fun r => decide (r.1 = true ∧ r.2.lip.fb = 1001 / 10000 ∧ r.2.sup.T = 1 ∧
      r.2.sup.stepPeriod = 1 ∧ r.2.sup.ttnp = 2) && decide (faultOf (r.2.solve (fun _ => .ok demoRect) oneOracle (1 / 10)) =
        some .assertFail))
    (do
      let w ← HWalkgen.make >>= fun w => w.run (fun _ => .ok demoRect) oneOracle periodCalls
      w.solve (fun _ => .ok demoRect) oneOracle (1001 / 10000)) = true := by
  decide +kernel

/-- **C68 fails when the period changes slightly.** The supervisor uses every new feedback period, the LIP model keeps
its own for changes up to `EPSILON`. After a cycle of 0.1001 s, all durations are multiples of 0.1 s; a cycle of 0.1 s
fails an assertion, since the LIP model has nine dynamics for a sample and the supervisor asks for the tenth. -/
theorem C68_violated_period : ∃ w w2, HumReaches (fun _ => .ok demoRect) oneOracle periodCalls w ∧
    w.solve (fun _ => .ok demoRect) oneOracle (1001 / 10000) = .ok (true, w2) ∧
    (w2.sup.T = 1 ∧ w2.sup.stepPeriod = 1 ∧ w2.sup.ttnp = 2) ∧ |(1 / 10 : ℚ) - w2.lip.fb| = EPS ∧
    w2.solve (fun _ => .ok demoRect) oneOracle (1 / 10) = .error .assertFail := by
  obtain ⟨⟨b, w2⟩, h, hc⟩ := okAnd_true period_checks
  obtain ⟨w, hw, h⟩ := bind_eq_ok.1 h
  obtain ⟨w0, h0, hw⟩ := bind_eq_ok.1 hw
  simp only [Bool.and_eq_true, decide_eq_true_eq] at hc
  obtain ⟨⟨rfl, c1, c2, c3, c4⟩, c5⟩ := hc
  exact ⟨w, w2, ⟨w0, h0, hw⟩, h, ⟨c2, c3, c4⟩, by rw [c1]; norm_num [EPS, abs_of_neg], faultOf_some c5⟩

end MPC
