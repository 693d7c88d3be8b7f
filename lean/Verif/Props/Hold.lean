import Verif.Lemmas.HoldJerk

/-! # The plan of the humanoid in two successive control cycles (C73) -/

set_option linter.unusedSectionVars false

namespace MPC

open Finset

variable {K : Type} [Field K] [LinearOrder K] [IsStrictOrderedRing K] [FloorRing K]

theorem footstep_congr {N M : ℕ} {X X' : ℕ → K} (h : ∀ k < 2 * N + 2 * M, X k = X' k) {i : ℕ} (hi : i < M) :
    Spec.footstep N M X i = Spec.footstep N M X' i := by
  unfold Spec.footstep
  rw [h _ (by omega), h _ (by omega)]

theorem previous_congr {N M : ℕ} {X X' : ℕ → K} (h : ∀ k < 2 * N + 2 * M, X k = X' k) (p : Pt K) {q : ℕ} (hq : q ≤ M) :
    Spec.previous N M p X q = Spec.previous N M p X' q := by
  cases q with
  | zero => rfl
  | succ q => exact footstep_congr h hq

theorem plannedCop_congr {N M : ℕ} {X X' : ℕ → K} (h : ∀ k < 2 * N + 2 * M, X k = X' k) (p : Pt K) {q i : ℕ} (hq : q ≤ M)
    (hi : i < N) : Spec.plannedCop N M p X q i = Spec.plannedCop N M p X' q i := by
  unfold Spec.plannedCop
  rw [previous_congr h p hq, h i (by omega), h (N + i) (by omega)]

/-- **C73, the preview.** Inside of a sampling interval (the next sample is `n ≥ 2` control cycles ahead), the next QP is
stated for the same phases, footsteps, samples and support foot, the next sample being `n - 1` cycles ahead, and starts
from the plan of this cycle. -/
theorem C73_hold [Archimedean K] (hull : Vec (Pt K) → Res (Polygon K)) (o : Oracle K) (w w' w2 w'' : HWalkgen K) (fb : K)
    (b : Bool) (qp qp'' : QPMatrices K) (n : ℤ) (hr : HumHistory hull w) (hR : Reach (· = fb) CanStop (w.sup, w.X))
    (hg : Grid fb w.sup) (hG : HumGives hull w fb w' qp) (hs : w.solve hull o fb = .ok (b, w2))
    (hn : w'.sup.nbCalls = .ok n) (h2 : 2 ≤ n) (hG'' : HumGives hull w2 fb w'' qp'') :
    Spec.SamePreview w'.sup w''.sup ∧ w''.sup.nbCalls = .ok (n - 1) ∧ w''.X.size = w2.X.size ∧
      ∀ k < w2.X.size, w''.X.get k = w2.X.get k := by
  obtain ⟨v', hP⟩ := cycle_pair hr hG hs hG''
  exact hold_preview hR hg hP.update hP.size hP.feet hn h2 hP.next

/-- **C73, the motion (partial).** Full statement: inside of a sampling interval, keeping the plan is keeping the motion:
the conversion of the plan of this cycle in the next cycle gives the same jerks, and hence the same states of the CoM at
the samples. Proved: when no coefficient of the inverses of the CoP dynamics was erased. Excluded: erased coefficients, for
which the jerks are not those of the plan (`C41_violated`). -/
theorem C73_jerks_partial [Archimedean K] (hull : Vec (Pt K) → Res (Polygon K)) (o : Oracle K) (w w' w2 w'' : HWalkgen K)
    (fb : K) (b : Bool) (qp qp'' : QPMatrices K) (n : ℤ) (hr : HumHistory hull w)
    (hR : Reach (· = fb) CanStop (w.sup, w.X)) (hg : Grid fb w.sup) (hG : HumGives hull w fb w' qp)
    (hs : w.solve hull o fb = .ok (b, w2)) (hn : w'.sup.nbCalls = .ok n) (h2 : 2 ≤ n)
    (hG'' : HumGives hull w2 fb w'' qp'') (hf : w'.lip.fb = fb) (he : w'.ExactInverse n) (he'' : w''.ExactInverse (n - 1))
    (X t : Vec K) (hX : ∀ k < w2.X.size, X.get k = w2.X.get k) (ht : HWalkgen.convert { w'' with X := X } = .ok t) :
    ∀ i < w'.lip.N, t.get i = w2.transformedX.get i ∧ t.get (w'.lip.N + i) = w2.transformedX.get (w'.lip.N + i) ∧
      Spec.jerkTrajectory ((n - 1) * fb) w'.lip.T w2.lip.x t.get i
        = Spec.jerkTrajectory (n * fb) w'.lip.T w'.lip.x w2.transformedX.get i ∧
      Spec.jerkTrajectory ((n - 1) * fb) w'.lip.T w2.lip.y (fun k => t.get (w'.lip.N + k)) i
        = Spec.jerkTrajectory (n * fb) w'.lip.T w'.lip.y (fun k => w2.transformedX.get (w'.lip.N + k)) i := by
  obtain ⟨v', hP⟩ := cycle_pair hr hG hs hG''
  obtain ⟨hS, hn'', hz, hv⟩ := hold_preview hR hg hP.update hP.size hP.feet hn h2 hP.next
  have hrows := rows_exist hR hg hP.update
  obtain ⟨idx, nv, nc, hp, hd⟩ := hG
  obtain ⟨idx'', nv'', nc'', hp'', hd''⟩ := hG''
  obtain ⟨x1, x2, -, -⟩ := prepare_state hP.history.inv hp''
  obtain ⟨f1, f2⟩ := hP.times hf
  obtain ⟨n1, p, e1, hp1, hE, -⟩ := C41_jerks_partial hull w w' fb idx qp hr hp w2.X _ hP.convert
  obtain rfl : n1 = n := Except.ok.inj (e1.symm.trans hn)
  obtain ⟨n2, p2, e2, hp2, hE'', -⟩ := C41_jerks_partial hull w2 w'' fb idx'' qp'' hP.history hp'' X t ht
  obtain rfl : n2 = n1 - 1 := Except.ok.inj (e2.symm.trans hn'')
  obtain ⟨v1, v2⟩ := convert_pivots hP.history hp'' ht hn'' he''
  obtain rfl : p2 = p := supportAt_unique ((hS.support p2).1 hp2) hp1
  replace hE := hE he
  replace hE'' := hE'' he''
  rw [hP.samples, hP.height, f1, f2, hS.steps] at hE''
  rw [hP.samples, hP.height, f2] at v2
  rw [hP.height, f1] at v1
  rw [hf] at hE
  push_cast at hE'' v1
  have hsz : w2.X.size = 2 * w'.lip.N + 2 * w'.sup.M := by
    obtain ⟨-, -, -, -, -, h, -⟩ := hold_feet hR hg hP.update hP.size hP.feet hP.next
    rw [h, hP.N]
  have hsame : ∀ i < w'.lip.N, ∀ q, RowIsUnit w'.sup i q → q ≤ w'.sup.M →
      Spec.plannedCop w'.lip.N w'.sup.M p2 X.get q i = Spec.plannedCop w'.lip.N w'.sup.M p2 w2.X.get q i :=
    fun i hi q _ hqM => plannedCop_congr (fun k hk => hX k (by omega)) p2 hqM hi
  have hS1 : fb + ((n1 : K) - 1) * fb = n1 * fb := by ring
  have key : ∀ {x x2 : State3 K} {J J' : ℕ → K}, x2 = Spec.cubic x (J 0) fb →
      (∀ i < w'.lip.N, Spec.motionCop (((n1 : K) - 1) * fb) w'.lip.T w'.lip.comHeight x2 J' i
        = Spec.motionCop ((n1 : K) * fb) w'.lip.T w'.lip.comHeight x J i) →
      ∀ i < w'.lip.N, J' i = J i ∧ Spec.jerkTrajectory (((n1 : K) - 1) * fb) w'.lip.T x2 J' i
        = Spec.jerkTrajectory ((n1 : K) * fb) w'.lip.T x J i := by
    intro x x2 J J' hx h i hi
    subst hx
    have := jerks_unique (J := J') (J' := J) v1 v2 (fun i hi => by
      rw [h i hi]
      unfold Spec.motionCop
      rw [traj_hold, hS1]) i hi
    rw [traj_hold, hS1] at this
    exact this
  have kx := key (x2 := w2.lip.x) (J := w2.transformedX.get) (J' := t.get) (x1 ▸ hP.x) fun i hi => by
    obtain ⟨q, hqM, hq⟩ := hrows i (by rw [hP.N]; exact hi)
    have a1 := (hE'' i hi q ((hS.row i (by rw [hP.N]; exact hi) q).2 hq)).1
    rw [x1] at a1
    rw [a1, (hE i hi q hq).1, hsame i hi q hq hqM]
  have ky := key (x2 := w2.lip.y) (J := fun k => w2.transformedX.get (w'.lip.N + k))
      (J' := fun k => t.get (w'.lip.N + k)) (by rw [← x2, hP.y, Nat.add_zero]) fun i hi => by
    obtain ⟨q, hqM, hq⟩ := hrows i (by rw [hP.N]; exact hi)
    have a1 := (hE'' i hi q ((hS.row i (by rw [hP.N]; exact hi) q).2 hq)).2
    rw [x2] at a1
    rw [a1, (hE i hi q hq).2, hsame i hi q hq hqM]
  exact fun i hi => ⟨(kx i hi).1, (ky i hi).1, (kx i hi).2, (ky i hi).2⟩

/-- **C73, the next sample.** When a sampling interval ends, the next QP is stated for the phases and footsteps of this
one, from the next sample on; `k` phases and `q` footsteps are completed. -/
theorem C73_next [Archimedean K] (hull : Vec (Pt K) → Res (Polygon K)) (o : Oracle K) (w w' w2 w'' : HWalkgen K) (fb : K)
    (b : Bool) (qp qp'' : QPMatrices K) (hr : HumHistory hull w) (hR : Reach (· = fb) CanStop (w.sup, w.X))
    (hg : Grid fb w.sup) (hG : HumGives hull w fb w' qp) (hs : w.solve hull o fb = .ok (b, w2))
    (hn : w'.sup.nbCalls = .ok 1) (hG'' : HumGives hull w2 fb w'' qp'') :
    ∃ k q f, w'.sup.timeline[0]? = some f ∧ Spec.NextPreview w'.sup w''.sup k q ∧
      (k = 0 ∧ q = 0 ∧ EPS ≤ w2.sup.ttnp ∨ k = 1 ∧ (q = if f.type = .DS then 0 else 1) ∧ w2.sup.ttnp < EPS) := by
  obtain ⟨v', hP⟩ := cycle_pair hr hG hs hG''
  obtain ⟨k, q, f, h1, h2, h3, -⟩ := next_preview hR hg hP.update hP.size hP.feet hn hP.next
  exact ⟨k, q, f, h1, h2, h3⟩

/-- **C73, the rest of the motion (partial).** Full statement: when a sampling interval ends, the rest of the plan, with the
footsteps the code keeps, has the rest of the motion: the jerks and the states of the CoM at the samples are those of this
cycle, from the next sample on. Proved: when a whole sampling period is left until the next sample, no coefficient of the
inverses of the CoP dynamics was erased, and the walk does not end with this single support. Excluded: erased coefficients
(`C41_violated`) and the end of a walk, where the CoPs of the plan are then relative to a point between the feet instead of the
last footstep. -/
theorem C73_tail_partial [Archimedean K] (hull : Vec (Pt K) → Res (Polygon K)) (o : Oracle K) (w w' w2 w'' : HWalkgen K)
    (fb : K) (b : Bool) (qp qp'' : QPMatrices K) (hr : HumHistory hull w) (hR : Reach (· = fb) CanStop (w.sup, w.X))
    (hg : Grid fb w.sup) (hT : w.sup.T ≤ w.sup.stepPeriod) (hfly : fb < (w.sup.stepPeriod - w.sup.T) / 2 + EPS)
    (hG : HumGives hull w fb w' qp) (hs : w.solve hull o fb = .ok (b, w2)) (hn : w'.sup.nbCalls = .ok 1)
    (hG'' : HumGives hull w2 fb w'' qp'') (hwalk : w'.sup.move = true ∨ ∃ f, w'.sup.timeline[0]? = some f ∧ f.type = .DS)
    (hf : w'.lip.fb = fb) (m : ℤ) (hm : w''.sup.nbCalls = .ok m) (hmT : (m : K) * fb = w'.lip.T)
    (he : w'.ExactInverse 1) (he'' : w''.ExactInverse m) (X t : Vec K)
    (hX : ∀ i, i + 1 < w'.lip.N → X.get i = w2.X.get (i + 1) ∧ X.get (w'.lip.N + i) = w2.X.get (w'.lip.N + (i + 1)))
    (hsteps : ∀ k, 2 * w'.lip.N ≤ k → X.get k = w''.X.get k) (ht : HWalkgen.convert { w'' with X := X } = .ok t) :
    ∀ i, i + 1 < w'.lip.N → t.get i = w2.transformedX.get (i + 1) ∧
      t.get (w'.lip.N + i) = w2.transformedX.get (w'.lip.N + (i + 1)) ∧
      Spec.jerkTrajectory w'.lip.T w'.lip.T w2.lip.x t.get i
        = Spec.jerkTrajectory fb w'.lip.T w'.lip.x w2.transformedX.get (i + 1) ∧
      Spec.jerkTrajectory w'.lip.T w'.lip.T w2.lip.y (fun k => t.get (w'.lip.N + k)) i
        = Spec.jerkTrajectory fb w'.lip.T w'.lip.y (fun k => w2.transformedX.get (w'.lip.N + k)) (i + 1) := by
  obtain ⟨v', hP⟩ := cycle_pair hr hG hs hG''
  obtain ⟨k, q, f, hf0, hS, -, hkeep⟩ := next_preview hR hg hP.update hP.size hP.feet hn hP.next
  obtain ⟨idx, nv, nc, hp, hd⟩ := hG
  obtain ⟨idx'', nv'', nc'', hp'', hd''⟩ := hG''
  obtain ⟨x1, x2, -, -⟩ := prepare_state hP.history.inv hp''
  obtain ⟨f1, f2⟩ := hP.times hf
  obtain ⟨n1, p, e1, hp1, hE, -⟩ := C41_jerks_partial hull w w' fb idx qp hr hp w2.X _ hP.convert
  obtain rfl : n1 = 1 := Except.ok.inj (e1.symm.trans hn)
  obtain ⟨n2, p2, e2, hp2, hE'', -⟩ := C41_jerks_partial hull w2 w'' fb idx'' qp'' hP.history hp'' X t ht
  obtain rfl : n2 = m := Except.ok.inj (e2.symm.trans hm)
  obtain ⟨v1, v2⟩ := convert_pivots hP.history hp'' ht hm he''
  replace hE := hE he
  replace hE'' := hE'' he''
  rw [hP.samples, hP.height, f1, f2, hmT] at hE''
  rw [hP.height, f1, hmT] at v1
  rw [hf, Int.cast_one, one_mul] at hE
  have hkeep := hkeep (hwalk.symm.imp_left (fun ⟨f', h1, h2⟩ => by
    rw [Option.some.inj (hf0.symm.trans h1)]; exact h2)) hT hfly p p2 hp1 hp2
  rw [hP.N, hS.N, hP.N] at hkeep
  have hplan : ∀ i, i + 1 < w'.lip.N → ∃ j j', RowIsUnit w'.sup (i + 1) j ∧ RowIsUnit w''.sup i j' ∧
      Spec.plannedCop w'.lip.N w''.sup.M p2 X.get j' i = Spec.plannedCop w'.lip.N w'.sup.M p w2.X.get j (i + 1) := by
    intro i hi
    obtain ⟨j, r1, r2⟩ := hS.row i (by rw [hP.N]; exact hi)
    refine ⟨j + q, j, r1, r2, ?_⟩
    have hjM : j + q ≤ w'.sup.M := by
      obtain ⟨q', hq', hu'⟩ := rows_exist hR hg hP.update (i + 1) (by rw [hP.N]; exact hi)
      rw [rowIsUnit_unique r1 hu']; exact hq'
    obtain ⟨-, hk⟩ := hkeep j hjM
    have hXp : Spec.previous w'.lip.N w''.sup.M p2 X.get j = Spec.previous w'.lip.N w''.sup.M p2 w''.X.get j := by
      cases j with
      | zero => rfl
      | succ j =>
        show Spec.footstep _ _ _ _ = Spec.footstep _ _ _ _
        unfold Spec.footstep
        rw [hsteps _ (by omega), hsteps _ (by omega)]
    unfold Spec.plannedCop
    rw [hXp, hk, (hX i hi).1, (hX i hi).2]
  have key : ∀ {x x2 : State3 K} {J J' : ℕ → K}, x2 = Spec.cubic x (J 0) fb →
      (∀ i, i + 1 < w'.lip.N → Spec.motionCop w'.lip.T w'.lip.T w'.lip.comHeight x2 J' i
        = Spec.motionCop fb w'.lip.T w'.lip.comHeight x J (i + 1)) →
      ∀ i, i + 1 < w'.lip.N → J' i = J (i + 1) ∧ Spec.jerkTrajectory w'.lip.T w'.lip.T x2 J' i
        = Spec.jerkTrajectory fb w'.lip.T x J (i + 1) := by
    intro x x2 J J' hx h i hi
    subst hx
    have := jerks_unique (n := w'.lip.N - 1) (J := J') (J' := fun k => J (k + 1)) v1 (fun _ => v1) (fun i hi => by
      rw [h i (by omega)]
      unfold Spec.motionCop
      rw [traj_next]) i (by omega)
    rw [traj_next] at this
    exact this
  have kx := key (x2 := w2.lip.x) (J := w2.transformedX.get) (J' := t.get) (x1 ▸ hP.x) fun i hi => by
    obtain ⟨j, j', r1, r2, e⟩ := hplan i hi
    have a1 := (hE'' i (by omega) j' r2).1
    rw [x1] at a1
    rw [a1, (hE (i + 1) hi j r1).1, e]
  have ky := key (x2 := w2.lip.y) (J := fun k => w2.transformedX.get (w'.lip.N + k))
      (J' := fun k => t.get (w'.lip.N + k)) (by rw [← x2, hP.y, Nat.add_zero]) fun i hi => by
    obtain ⟨j, j', r1, r2, e⟩ := hplan i hi
    have a1 := (hE'' i (by omega) j' r2).2
    rw [x2] at a1
    rw [a1, (hE (i + 1) hi j r1).2, e]
  exact fun i hi => ⟨(kx i hi).1, (ky i hi).1, (kx i hi).2, (ky i hi).2⟩

/-- The polygon built from points is determined by these points. -/
def Spec.HullOfPoints (hull : Vec (Pt K) → Res (Polygon K)) : Prop :=
  ∀ p p' : Vec (Pt K), p.size = p'.size → (∀ i < p.size, p.get i = p'.get i) → hull p = hull p'

theorem doubleSupport_unique {s : Sup K} {l r t l' r' t' : Pt K} (h : Spec.DoubleSupport s l r t)
    (h' : Spec.DoubleSupport s l' r' t') : l = l' ∧ r = r' ∧ t = t' := by
  obtain ⟨f, hf, a1, a2, a3, a4⟩ := h
  obtain ⟨f', hf', b1, b2, b3, b4⟩ := h'
  obtain rfl : f = f' := Option.some.inj (hf.symm.trans hf')
  cases hm : s.move with
  | true =>
    obtain ⟨rfl, rfl, rfl⟩ := a1 hm
    obtain ⟨rfl, rfl, rfl⟩ := b1 hm
    exact ⟨rfl, rfl, rfl⟩
  | false =>
    cases ht : f.type with
    | DS =>
      obtain ⟨rfl, rfl, rfl⟩ := a2 hm ht
      obtain ⟨rfl, rfl, rfl⟩ := b2 hm ht
      exact ⟨rfl, rfl, rfl⟩
    | leftSS =>
      obtain ⟨rfl, rfl, rfl⟩ := a3 hm ht
      obtain ⟨rfl, rfl, rfl⟩ := b3 hm ht
      exact ⟨rfl, rfl, rfl⟩
    | rightSS =>
      obtain ⟨rfl, rfl, rfl⟩ := a4 hm ht
      obtain ⟨rfl, rfl, rfl⟩ := b4 hm ht
      exact ⟨rfl, rfl, rfl⟩

theorem supportPolygon_unique {hull : Vec (Pt K) → Res (Polygon K)} (hh : Spec.HullOfPoints hull) {s : Sup K} {i : ℕ}
    {g g' : Polygon K} (h : Spec.SupportPolygon hull s i g) (h' : Spec.SupportPolygon hull s i g') : g = g' := by
  obtain ⟨ph, hp, a1, a2, a3⟩ := h
  obtain ⟨ph', hp', b1, b2, b3⟩ := h'
  obtain rfl : ph = ph' := Option.some.inj (hp.symm.trans hp')
  cases ht : ph.type with
  | leftSS => rw [a1 ht, b1 ht]
  | rightSS => rw [a2 ht, b2 ht]
  | DS =>
    obtain ⟨l, r, t, p, d, ⟨u1, u2, u3⟩, u⟩ := a3 ht
    obtain ⟨l', r', t', p', d', ⟨w1, w2, w3⟩, w⟩ := b3 ht
    obtain ⟨rfl, rfl, rfl⟩ := doubleSupport_unique d d'
    have : hull p = hull p' := by
      refine hh p p' (u1.trans w1.symm) fun i hi => ?_
      rcases lt_or_ge i s.left.cop.vertices.size with hc | hc
      · rw [u2 i hc, w2 i hc]
      · have e1 := u3 (i - s.left.cop.vertices.size) (by omega)
        have e2 := w3 (i - s.left.cop.vertices.size) (by omega)
        rw [show s.left.cop.vertices.size + (i - s.left.cop.vertices.size) = i by omega] at e1 e2
        rw [e1, e2]
    exact Except.ok.inj (u.symm.trans (this.trans w))

theorem stepPolygon_unique {s : Sup K} {i : ℕ} {g g' : Polygon K} (h : Spec.StepPolygon s i g)
    (h' : Spec.StepPolygon s i g') : g = g' := by
  obtain ⟨f, ph, hf, hp, h⟩ := h
  obtain ⟨f', ph', hf', hp', h'⟩ := h'
  obtain rfl : f = f' := Option.some.inj (hf.symm.trans hf')
  obtain rfl : ph = ph' := Option.some.inj (hp.symm.trans hp')
  rcases h with ⟨h1, rfl⟩ | ⟨h1, rfl⟩ <;> rcases h' with ⟨h2, rfl⟩ | ⟨h2, rfl⟩
  · rfl
  · rw [h1] at h2; cases h2
  · rw [h1] at h2; cases h2
  · rfl

/-- **C73, feasibility (partial).** Full statement: inside of a sampling interval, a plan that is feasible in a cycle is feasible
in the next one. Proved: exactly when each footstep of the plan can be reached from the one before, unless the walk is ending
and the last footstep was moved. Missing: the other plans, for which it is false (`C73_violated`,
`C73_violated_stop`). -/
theorem C73_feasible_partial [Archimedean K] (hull : Vec (Pt K) → Res (Polygon K)) (hh : Spec.HullOfPoints hull)
    (o : Oracle K) (w w' w2 w'' : HWalkgen K) (fb : K) (b : Bool) (qp qp'' : QPMatrices K) (n : ℤ)
    (hr : HumHistory hull w) (hR : Reach (· = fb) CanStop (w.sup, w.X)) (hg : Grid fb w.sup)
    (hG : HumGives hull w fb w' qp) (hs : w.solve hull o fb = .ok (b, w2))
    (hx : Spec.Feasible qp (o w'.calls qp 10000).2) (hn : w'.sup.nbCalls = .ok n) (h2 : 2 ≤ n)
    (hG'' : HumGives hull w2 fb w'' qp'')
    (hstop : w'.sup.move = false → (∃ f, w'.sup.timeline[0]? = some f ∧ f.type ≠ .DS) →
      Spec.footstep w'.lip.N w'.sup.M w2.X.get 0 = Spec.footstep w'.lip.N w'.sup.M w'.X.get 0) :
    Spec.Feasible qp'' (fun _ => 0) ↔ (w'.withFeet = true → ∀ i < w'.sup.M, ∀ g p, Spec.StepPolygon w'.sup i g →
      Spec.SupportAt w'.sup p → Spec.SatisfiesConstraints g (Spec.seenFrom (Spec.footstep w'.lip.N w'.sup.M w2.X.get i)
        (Spec.previous w'.lip.N w'.sup.M p w2.X.get i))) := by
  obtain ⟨v', hP⟩ := cycle_pair hr hG hs hG''
  obtain ⟨hS, hn'', hz, hv⟩ := hold_preview hR hg hP.update hP.size hP.feet hn h2 hP.next
  have hsz : w2.X.size = 2 * w'.lip.N + 2 * w'.sup.M := by
    obtain ⟨-, -, -, -, -, h, -⟩ := hold_feet hR hg hP.update hP.size hP.feet hP.next
    rw [h, hP.N]
  obtain ⟨pol1, pol2⟩ := hold_polygons (hull := hull) hR hg hP.update hP.size hP.feet hn h2 hP.next (by
    intro hm hf
    rw [hP.N, hstop hm hf]
    unfold Spec.footstep
    rw [hP.foot' _ (by omega), hP.foot' _ (by omega)])
  obtain ⟨cop, kin, p, c1, k1, hF⟩ := hum_feasible hG
  obtain ⟨cop'', kin'', p'', c2, k2, hF''⟩ := hum_feasible hG''
  obtain ⟨idx, nv, nc, hp, hd⟩ := hG
  obtain ⟨-, -, n1, n2, -, -, htab⟩ := HWalkgen.prepare_frame hr.inv hp
  obtain ⟨w1, qp1, ⟨idx1, nv1, nc1, hp1, hd1⟩, -, -, h3, -⟩ := C41_follows hull o w w2 fb b hr hs
  obtain ⟨rfl, h⟩ := Prod.mk.inj (Except.ok.inj (hp1.symm.trans hp))
  obtain ⟨rfl, rfl⟩ := Prod.mk.inj h
  have hps : 2 * w1.lip.N + 2 * w1.sup.M ≤ qp1.p.size := by
    obtain ⟨-, -, a, b', -, hidx, hdim⟩ := HWalkgen.prepare_frame hr.inv hp
    have e : qp1.p.size = _ := (hdim hr.table).2.2.1
    have : w1.sup.M ≤ idx1 / (w1.maxCtr + 1) := by
      rw [Nat.le_div_iff_mul_le (Nat.succ_pos _), hidx]
      exact Nat.le_add_right _ _
    omega
  obtain ⟨-, y2, y3⟩ := (hF _).1 hx
  rw [hP.withCop, hP.samples] at c2
  rw [hP.withFeet, hS.steps] at k2
  rw [hF'', hP.withCop, hP.withFeet, hP.samples, hS.steps]
  have hX : ∀ k < 2 * w1.lip.N + 2 * w1.sup.M, w''.X.get k + 0 = w2.X.get k := fun k hk => by
    rw [add_zero]; exact hv k (by omega)
  have hX' : ∀ k < 2 * w1.lip.N + 2 * w1.sup.M, w1.X.get k + (o w1.calls qp1 10000).2 k = w2.X.get k :=
    fun k hk => (h3 k (by omega)).symm
  have hX0 : ∀ k < 2 * w1.lip.N + 2 * w1.sup.M, w''.X.get k = w2.X.get k := fun k hk => hv k (by omega)
  constructor
  · rintro ⟨-, -, z3⟩ hw i hi g p1 hg1 hp1'
    obtain ⟨⟨b1, b2, b3, b4⟩, hrw, -⟩ := z3 hw i hi
    have e1 : kin'' i = g := stepPolygon_unique ((pol2 i _).1 ((k2 hw).2 i hi)) hg1
    have e2 : p'' = p1 := supportAt_unique ((hS.support _).1 (k2 hw).1) hp1'
    unfold FootRows at hrw
    rw [footstep_congr hX hi, previous_congr hX0 p'' hi.le, e1, e2] at b1 b2 b3 b4
    rw [footstep_congr hX hi, previous_congr hX p'' hi.le, e1, e2] at hrw
    exact ⟨b1, b2, b3, b4, hrw⟩
  · intro hall
    refine ⟨?_, ?_, ?_⟩
    · intro i _
      simp only [abs_zero]
      exact MAXBOUND_pos.le
    · intro hc i hi
      have e : cop'' i = cop i :=
        supportPolygon_unique hh ((pol1 i (by rw [hP.N]; exact hi) _).1 (c2 hc i hi)) (c1 hc i hi)
      have e1 : Spec.localCop w1.lip.N (fun k => w''.X.get k + 0) i
          = Spec.localCop w1.lip.N (fun k => w1.X.get k + (o w1.calls qp1 10000).2 k) i := by
        unfold Spec.localCop
        dsimp only
        rw [hX i (by omega), hX (w1.lip.N + i) (by omega), hX' i (by omega), hX' (w1.lip.N + i) (by omega)]
      rw [e, e1]
      refine ⟨(y2 hc i hi).1, fun r _ => ?_⟩
      simp only [Spec.localCop, mul_zero, add_zero, abs_zero]
      exact MAXBOUND_pos.le
    · intro hw i hi
      have hg1 := (pol2 i _).1 ((k2 hw).2 i hi)
      have hp1' := (hS.support _).1 (k2 hw).1
      obtain ⟨b1, b2, b3, b4, hrw⟩ := hall hw i hi _ _ hg1 hp1'
      unfold FootBounds FootRows
      rw [footstep_congr hX hi, previous_congr hX0 p'' hi.le, previous_congr hX p'' hi.le]
      refine ⟨⟨b1, b2, b3, b4⟩, hrw, fun r _ => ?_⟩
      have : stepMove w1.lip.N w1.sup.M (fun _ => (0 : K)) i = ⟨0, 0⟩ := by
        unfold stepMove Spec.seenFrom Spec.footstep
        cases i <;> simp [Spec.previous, Spec.footstep]
      rw [this]
      simp only [mul_zero, add_zero, abs_zero]
      exact MAXBOUND_pos.le

end MPC
