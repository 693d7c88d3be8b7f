import Verif.Lemmas.CopRun
import Verif.Lemmas.HumTable
import Verif.Props.HumCycle

/-! # The CoP of the robot at the sampling instants (C71) -/

set_option linter.unusedSectionVars false

namespace MPC

open Finset

variable {K : Type} [Field K] [LinearOrder K] [IsStrictOrderedRing K] [FloorRing K]

/-- What a successful `solve` does with a feasible answer. -/
theorem hsolve_cop {hull : Vec (Pt K) → Res (Polygon K)} {o : Oracle K} {w w' w2 : HWalkgen K} {fb : K} {b : Bool}
    {qp : QPMatrices K} (hr : HumHistory hull w) (hG : HumGives hull w fb w' qp) (hc : w'.withCop = true)
    (hs : w.solve hull o fb = .ok (b, w2)) (hx : Spec.Feasible qp (o w'.calls qp 10000).2) :
    w2.lip.comHeight = w'.lip.comHeight ∧ w'.sup.N = w'.lip.N ∧ 0 < w'.lip.N ∧
    HWalkgen.convert { w' with X := w2.X } = .ok w2.transformedX ∧
    w2.lip.x = Spec.cubic w'.lip.x (w2.transformedX.get 0) fb ∧
    w2.lip.y = Spec.cubic w'.lip.y (w2.transformedX.get w'.lip.N) fb ∧ w2.X.size = w'.X.size ∧
    w'.sup.updateFeetStates ⟨2 * w'.sup.M, fun i => w2.X.get (2 * w'.sup.N + i)⟩ fb = .ok w2.sup ∧
    ∀ i < w'.lip.N, ∃ g, Spec.SupportPolygon hull w'.sup i g ∧
      Spec.SatisfiesConstraints g (Spec.localCop w'.lip.N w2.X.get i) := by
  obtain ⟨idx, nv, nc, hp, hd⟩ := hG
  obtain ⟨w1, qp1, ⟨idx1, nv1, nc1, hp1, hd1⟩, h1, -, h3, h4, h5, h6, h7⟩ := C41_follows hull o w w2 fb b hr hs
  obtain ⟨rfl, h⟩ := Prod.mk.inj (Except.ok.inj (hp1.symm.trans hp))
  obtain ⟨rfl, rfl⟩ := Prod.mk.inj h
  obtain ⟨hI, -, -, -⟩ := hr.inv.prepare hp
  obtain ⟨-, -, n1, n2, -, -, htab⟩ := HWalkgen.prepare_frame hr.inv hp
  have hsz := (htab hr.table).2.2.1
  have hH : w2.lip.comHeight = w1.lip.comHeight := by
    obtain ⟨w3, idx3, qp3, t, lip, hp3, -, -, -, -, -, -, -, -, hx3, hy3, -⟩ := hsolve_ok hs
    obtain ⟨rfl, -⟩ := Prod.mk.inj (Except.ok.inj (hp3.symm.trans hp))
    obtain ⟨sx, -, hx3⟩ := bind_eq_ok.1 hx3
    obtain ⟨sy, -, hy3⟩ := bind_eq_ok.1 hy3
    have hx3 := Except.ok.inj hx3
    have hy3 := Except.ok.inj hy3
    rw [← hy3, ← hx3]
  refine ⟨hH, hI.N, hI.fresh.N, h4, h5, h6, h1, by rw [hI.N]; exact h7, fun i hi => ?_⟩
  obtain ⟨cop, c1, c2⟩ := C38_inside ⟨idx1, nv1, nc1, hp1, hd1⟩ hc
  refine ⟨cop i, c1 i hi, ?_⟩
  have := c2 _ hx i hi
  unfold Spec.localCop at this ⊢
  rw [h3 i (by omega), h3 (w1.lip.N + i) (by omega)]
  exact this

/-- **C71, partial.** Full statement: at every sampling instant of a walk, the CoP of the robot is supported by the feet
that are on the ground then. Proved: on a grid of times, when the solver answers with a feasible plan, no coefficient of
the inverse of the CoP dynamics was erased, and the first footstep is not moved during the very last cycle of the walk.
Excluded: erased coefficients (`C41_violated`) and a last footstep moved at the last moment (`C71_violated`). -/
theorem C71_sample_partial [Archimedean K] (hull : Vec (Pt K) → Res (Polygon K)) (o : Oracle K) (w w' w2 : HWalkgen K)
    (fb : K) (b : Bool) (qp : QPMatrices K) (hr : HumHistory hull w) (hR : Reach (· = fb) CanStop (w.sup, w.X))
    (hg : Grid fb w.sup) (hT : w.sup.T ≤ w.sup.stepPeriod) (hfly : fb < (w.sup.stepPeriod - w.sup.T) / 2 + EPS)
    (hG : HumGives hull w fb w' qp) (hc : w'.withCop = true) (hs : w.solve hull o fb = .ok (b, w2))
    (hx : Spec.Feasible qp (o w'.calls qp 10000).2) (hn : w'.sup.nbCalls = .ok 1) (hf : w'.lip.fb = fb)
    (he : w'.ExactInverse 1) (ph : Phase K) (R : K) (hph : Running w2.sup ph R)
    (hlast : ph.type = .DS → (∃ f, w'.sup.timeline[0]? = some f ∧ f.type ≠ .DS) →
      Spec.footstep w'.lip.N w'.sup.M w2.X.get 0 = Spec.footstep w'.lip.N w'.sup.M w'.X.get 0) :
    Spec.Supported hull w2.sup ph.type w2.robotCop := by
  obtain ⟨h1, hN, hN0, h4, h5, h6, hz, h7, h8⟩ := hsolve_cop hr hG hc hs hx
  obtain ⟨idx, nv, nc, hp, hd⟩ := hG
  obtain ⟨X, hu, hzX, hXX⟩ := hprepare_timeline hp
  obtain ⟨q, hrow, htl, hsup⟩ := sample_support hR hg hT hfly hu (hz.trans hzX) h7 hn hph
  obtain ⟨n, p, hn', hp', hexact, -⟩ := C41_jerks_partial hull w w' fb idx qp hr hp w2.X _ h4
  obtain rfl : n = 1 := Except.ok.inj (hn'.symm.trans hn)
  obtain ⟨ex, ey⟩ := hexact he 0 hN0 q hrow
  obtain ⟨g, hsp, hin⟩ := h8 0 hN0
  have hcop : Spec.localCop w'.lip.N w2.X.get 0
      = Spec.seenFrom w2.robotCop (Spec.previous w'.lip.N w'.sup.M p w2.X.get q) := by
    have hx' : w2.robotCop.x = (Spec.plannedCop w'.lip.N w'.sup.M p w2.X.get q 0).x := by
      rw [← ex]
      show Spec.copOf 1 w2.lip.comHeight 0 GRAVITY_NORM w2.lip.x = Spec.copOf 1 w'.lip.comHeight 0 GRAVITY_NORM _
      rw [h1, h5, hf]
      simp only [Spec.jerkTrajectory, Int.cast_one, one_mul]
    have hy' : w2.robotCop.y = (Spec.plannedCop w'.lip.N w'.sup.M p w2.X.get q 0).y := by
      rw [← ey]
      show Spec.copOf 1 w2.lip.comHeight 0 GRAVITY_NORM w2.lip.y = Spec.copOf 1 w'.lip.comHeight 0 GRAVITY_NORM _
      rw [h1, h6, hf]
      simp only [Spec.jerkTrajectory, Int.cast_one, one_mul, Nat.add_zero]
    unfold Spec.seenFrom
    rw [hx', hy']
    simp [Spec.localCop, Spec.plannedCop]
  obtain ⟨s1, s2, s3⟩ := hsup p hp'
  obtain ⟨ph', hph', k1, k2, k3⟩ := hsp
  obtain rfl := Option.some.inj (htl.symm.trans hph')
  obtain ⟨c1, c2⟩ := Sup.updateFeet_cop h7
  rw [hN] at s1 s2 s3
  rw [hcop] at hin
  unfold Spec.Supported
  cases ht : ph.type with
  | leftSS =>
    rw [k1 ht, s1 ht] at hin
    dsimp only
    rw [c1]
    exact hin
  | rightSS =>
    rw [k2 ht, s2 ht] at hin
    dsimp only
    rw [c2]
    exact hin
  | DS =>
    obtain ⟨l, r, t, pts, hds, hun, hhull⟩ := k3 ht
    have hkeep : ∀ f, w'.sup.timeline[0]? = some f → f.type ≠ .DS → Spec.footstep w'.lip.N w'.sup.M w2.X.get 0
        = ⟨w'.sup.stepVec.get 0, w'.sup.stepVec.get w'.sup.M⟩ := by
      intro f hf0 hne
      rw [hlast ht ⟨f, hf0, hne⟩]
      have hv := Sup.updateTimeline_stepVec hu
      unfold Spec.footstep
      rw [hv, hv, hXX _ (by omega), hXX _ (by omega), hN, Nat.add_zero, Nat.add_zero]
    obtain ⟨rfl, rfl, rfl⟩ := s3 ht l r t hds hkeep
    refine ⟨_, pts, g, ?_, hhull, hin⟩
    unfold Spec.IsUnion at hun ⊢
    rw [c1, c2]
    exact hun

/-- The CoP `t` after the call of `solve` from `w` to `w2`. -/
def copAfter (w w2 : HWalkgen K) (t : K) : Pt K :=
  ⟨Spec.copOf 1 w.lip.comHeight 0 GRAVITY_NORM (Spec.cubic w.lip.x (w2.transformedX.get 0) t),
    Spec.copOf 1 w.lip.comHeight 0 GRAVITY_NORM (Spec.cubic w.lip.y (w2.transformedX.get w.lip.N) t)⟩

/-- In one call, the CoP stays close to the segment to a point of `C`. -/
theorem cop_cycle {hull : Vec (Pt K) → Res (Polygon K)} {o : Oracle K} {C : Pt K → Prop} {A fb : K} {n : ℕ}
    {w w2 : HWalkgen K} (h : CopCycle hull o C A fb n w w2) :
    0 < fb ∧ copAfter w w2 fb = w2.robotCop ∧ (0 < n → ∃ c, C c ∧ ∀ t, 0 ≤ t → t ≤ n * fb →
      |(copAfter w w2 t).x - ((1 - t / (n * fb)) * w.robotCop.x + t / (n * fb) * c.x)| ≤ t * (n * fb - t) / 2 * A ∧
      |(copAfter w w2 t).y - ((1 - t / (n * fb)) * w.robotCop.y + t / (n * fb) * c.y)| ≤ t * (n * fb - t) / 2 * A) := by
  obtain ⟨w', qp, b, q, hr, hG, hc, hs, hx, hn, hf, he, hrow, hC, a1, a2, a3, a4⟩ := h
  obtain ⟨h1, hN, hN0, h4, h5, h6, hz, h7, h8⟩ := hsolve_cop hr hG hc hs hx
  obtain ⟨idx, nv, nc, hp, hd⟩ := hG
  obtain ⟨-, -, -, hfb⟩ := hr.inv.prepare hp
  obtain ⟨e1, e2, e3, e4⟩ := prepare_state hr.inv hp
  refine ⟨hfb, ?_, fun hn0 => ?_⟩
  · unfold copAfter HWalkgen.robotCop
    rw [h1, h5, h6, e1, e2, e3, e4]
  · obtain ⟨n', p, hn', hp', hexact, -⟩ := C41_jerks_partial hull w w' fb idx qp hr hp w2.X _ h4
    obtain rfl : n' = n := Except.ok.inj (hn'.symm.trans hn)
    obtain ⟨ex, ey⟩ := hexact he 0 hN0 q hrow
    obtain ⟨g, hsp, hin⟩ := h8 0 hN0
    have hS : (0 : K) < n * fb := mul_pos (by exact_mod_cast hn0) hfb
    refine ⟨Spec.plannedCop w'.lip.N w'.sup.M p w2.X.get q 0, hC p g _ hp' hsp hin, fun t h0 ht => ?_⟩
    have ex' : (copAfter w w2 (n * fb)).x = (Spec.plannedCop w'.lip.N w'.sup.M p w2.X.get q 0).x := by
      rw [← ex]
      unfold Spec.motionCop copAfter
      simp only [Spec.jerkTrajectory, Int.cast_natCast, hf, e1, e3]
    have ey' : (copAfter w w2 (n * fb)).y = (Spec.plannedCop w'.lip.N w'.sup.M p w2.X.get q 0).y := by
      rw [← ey]
      unfold Spec.motionCop copAfter
      simp only [Spec.jerkTrajectory, Int.cast_natCast, hf, e2, e3, e4, Nat.add_zero]
    rw [← ex', ← ey']
    exact ⟨cop_chord hS h0 ht a1 a3, cop_chord hS h0 ht a2 a4⟩

/-- The invariant of the calls between two samples. -/
theorem near_step {C : Pt K → Prop} (hC : Spec.ConvexSet C) {z c u : Pt K} {A fb t : K} {n k : ℕ} (hfb : 0 < fb)
    (hkn : k < n) (hz : Spec.Near C (k * fb * (n * fb - k * fb) / 2 * A) z) (hc : C c) (h0 : 0 ≤ t)
    (h1 : t ≤ ((n - k : ℕ) : K) * fb)
    (hx : |u.x - ((1 - t / (((n - k : ℕ) : K) * fb)) * z.x + t / (((n - k : ℕ) : K) * fb) * c.x)|
      ≤ t * (((n - k : ℕ) : K) * fb - t) / 2 * A)
    (hy : |u.y - ((1 - t / (((n - k : ℕ) : K) * fb)) * z.y + t / (((n - k : ℕ) : K) * fb) * c.y)|
      ≤ t * (((n - k : ℕ) : K) * fb - t) / 2 * A) :
    Spec.Near C ((k * fb + t) * (n * fb - (k * fb + t)) / 2 * A) u := by
  obtain ⟨z', hz', dx, dy⟩ := hz
  have hm : (((n - k : ℕ) : K)) = n - k := by rw [Nat.cast_sub hkn.le]
  have hm0 : (0 : K) < n - k := by rw [← hm]; exact_mod_cast Nat.sub_pos_of_lt hkn
  rw [hm] at h1 hx hy
  have hS : 0 < ((n : K) - k) * fb := mul_pos hm0 hfb
  set r := t / (((n : K) - k) * fb) with hr
  have hrt : r * (((n : K) - k) * fb) = t := div_mul_cancel₀ _ hS.ne'
  have hr0 : 0 ≤ r := by positivity
  have hr1 : 0 ≤ 1 - r := sub_nonneg.2 ((div_le_one hS).2 h1)
  have key : ∀ {a b c d : K}, |a - ((1 - r) * b + r * c)| ≤ t * (((n : K) - k) * fb - t) / 2 * A →
      |b - d| ≤ k * fb * (n * fb - k * fb) / 2 * A →
      |a - ((1 - r) * d + r * c)| ≤ (k * fb + t) * (n * fb - (k * fb + t)) / 2 * A := by
    intro a b c d i1 i2
    have e : a - ((1 - r) * d + r * c) = (a - ((1 - r) * b + r * c)) + (1 - r) * (b - d) := by ring
    rw [e]
    refine (abs_add_le _ _).trans ?_
    rw [abs_mul, abs_of_nonneg hr1]
    have i3 := mul_le_mul_of_nonneg_left i2 hr1
    have e2 : (1 - r) * (k * fb * (n * fb - k * fb) / 2 * A)
        = k * fb * ((n - k) * fb - t) / 2 * A := by
      rw [← hrt]; ring
    rw [e2] at i3
    have e3 : (k * fb + t) * (n * fb - (k * fb + t)) / 2 * A
        = t * (((n : K) - k) * fb - t) / 2 * A + k * fb * ((n - k) * fb - t) / 2 * A := by ring
    rw [e3]
    exact add_le_add i1 i3
  exact ⟨_, hC z' c (1 - r) r hz' hc hr1 hr0 (by ring), key hx dx, key hy dy⟩

theorem cop_loop {hull : Vec (Pt K) → Res (Polygon K)} {o : Oracle K} {C : Pt K → Prop} {A fb : K} {n k : ℕ}
    {w₀ w : HWalkgen K} (hC : Spec.ConvexSet C) (h0 : C w₀.robotCop) (h : CopLoop hull o C A fb n w₀ k w) :
    Spec.Near C (k * fb * (n * fb - k * fb) / 2 * A) w.robotCop := by
  induction h with
  | start => exact ⟨_, h0, by simp, by simp⟩
  | @cycle k w w2 _ hk hc ih =>
    obtain ⟨hfb, e, hcyc⟩ := cop_cycle hc
    obtain ⟨c, hCc, hcyc⟩ := hcyc (by omega)
    have h1 : fb ≤ ((n - k : ℕ) : K) * fb := by
      have : (1 : K) ≤ ((n - k : ℕ) : K) := by exact_mod_cast Nat.sub_pos_of_lt hk
      nlinarith
    obtain ⟨hx, hy⟩ := hcyc fb hfb.le h1
    have := near_step hC hfb hk ih hCc hfb.le h1 hx hy
    rw [e] at this
    have e2 : ((k + 1 : ℕ) : K) * fb = k * fb + fb := by push_cast; ring
    rw [e2]
    exact this

/-- **C71, between the samples (partial).** The CoP of the robot is in a convex set `C` at a sample, and `n` calls of
`solve` lead to the next one, whose support polygon is part of `C`. At the time `τ` after the sample, `τ ≤ T = n fb`, the
CoP of the robot is at most `τ (T - τ) A / 2 ≤ T² A / 8` away from `C`, where `A` bounds the acceleration of the CoM; in
particular it is in `C` at the next sample.
Missing: that it is in `C` at all times, which the constraints of the QP do not imply. -/
theorem C71_between_partial (hull : Vec (Pt K) → Res (Polygon K)) (o : Oracle K) (C : Pt K → Prop) (A fb : K) (n k : ℕ)
    (w₀ w w2 : HWalkgen K) (hC : Spec.ConvexSet C) (h0 : C w₀.robotCop) (h : CopLoop hull o C A fb n w₀ k w)
    (hk : k < n) (hc : CopCycle hull o C A fb (n - k) w w2) (t : K) (ht : 0 ≤ t) (ht' : t ≤ fb) :
    let τ := k * fb + t
    Spec.Near C (τ * (n * fb - τ) / 2 * A) (copAfter w w2 t) ∧
      τ * (n * fb - τ) / 2 * A ≤ (n * fb) ^ 2 / 8 * A ∧ copAfter w w2 fb = w2.robotCop ∧
      (k + 1 = n → C w2.robotCop) := by
  obtain ⟨hfb, e, hcyc⟩ := cop_cycle hc
  obtain ⟨c, hCc, hcyc⟩ := hcyc (by omega)
  have h1 : fb ≤ ((n - k : ℕ) : K) * fb := by
    have : (1 : K) ≤ ((n - k : ℕ) : K) := by exact_mod_cast Nat.sub_pos_of_lt hk
    nlinarith
  obtain ⟨hx, hy⟩ := hcyc t ht (ht'.trans h1)
  have hA : 0 ≤ A := by
    obtain ⟨_, _, _, _, -, -, -, -, -, -, -, -, -, -, a1, -⟩ := hc
    exact (abs_nonneg _).trans a1
  refine ⟨near_step hC hfb hk (cop_loop hC h0 h) hCc ht (ht'.trans h1) hx hy, ?_, e, fun hkn => ?_⟩
  · refine mul_le_mul_of_nonneg_right ?_ hA
    nlinarith [sq_nonneg (n * fb - 2 * (k * fb + t))]
  · obtain ⟨c', hc', d1, d2⟩ := cop_loop hC h0 (h.cycle hk hc)
    rw [hkn] at d1 d2
    simp only [sub_self, mul_zero, zero_div, zero_mul, abs_nonpos_iff, sub_eq_zero] at d1 d2
    have : w2.robotCop = c' := by
      cases hw : w2.robotCop; cases c'
      rw [hw] at d1 d2
      dsimp only at d1 d2
      rw [d1, d2]
    rw [this]
    exact hc'

end MPC
