import Verif.Props.ZebTilt
import Verif.Spec.Expansion

/-!
# Properties C50, C51, C52: the objectives of `ZebulonWalkgen`
-/

set_option linter.unusedSectionVars false

namespace MPC

open Finset

variable {K : Type} [Field K] [LinearOrder K] [IsStrictOrderedRing K] [FloorRing K]
variable {o : Oracle K} {tr : Trig K} {cx cy : K} {cs : List (ZebCall K)} {w : Zeb K} {fb : K}

/-! ### C50 -/

theorem zHasGradHess {n M : ℕ} {D : ℕ → ℕ → K} {off : ℕ → K} {f : (ℕ → K) → K} {x0 : ℕ → K} {G : Vec K} {H : Mat K}
    (hG : G.Is M (LsqGrad n M D off x0)) (hH : H.Is M M (gram n D))
    (hf : ∀ X, f X = 1 / 2 * ∑ i ∈ range n, (∑ j ∈ range M, D i j * X j + off i) ^ 2) :
    Spec.HasGradHess M f x0 G H := by
  refine ⟨hG.1, hH.1, hH.2.1, fun i hi j hj => ?_, fun d => ?_⟩
  · rw [hH.2.2 i hi j hj, hH.2.2 j hj i hi, gram_symm]
  · have e := zExpand n M D off x0 d
    have e1 : ∑ i ∈ range M, G.get i * d i = ∑ i ∈ range M, LsqGrad n M D off x0 i * d i :=
      sum_congr rfl fun i hi => by rw [hG.2 i (mem_range.1 hi)]
    have e2 : ∑ i ∈ range M, ∑ j ∈ range M, d i * H.get i j * d j
        = ∑ i ∈ range M, ∑ j ∈ range M, d i * gram n D i j * d j :=
      sum_congr rfl fun i hi => sum_congr rfl fun j hj => by rw [hH.2.2 i (mem_range.1 hi) j (mem_range.1 hj)]
    rw [hf, hf, e1, e2]
    linear_combination 1 / 2 * e

/-- **C50, base velocity tracking.** In every reachable state and for every `x0`, the gradient and the Hessian of the
objective are those of half the sum of the squared velocity errors, as a function of the jerks of the base. -/
theorem C50_base_velocity (hw : ZebReaches o tr cx cy cs w)
    (hr : (zebSettingsOf cx cy cs).velRef.size = 2 * (zebSettingsOf cx cy cs).nbSamples) (x0 : Vec K)
    (hx : x0.size = 2 * (zebSettingsOf cx cy cs).nbSamples) :
    ∃ G, w.velObj.getGradient w.base w.base.vel x0 = .ok G ∧
      Spec.HasGradHess (2 * (zebSettingsOf cx cy cs).nbSamples)
        (fun X => 1 / 2 * (zebSettingsOf cx cy cs).velCost w.state
          fun i => X (i - 2 * (zebSettingsOf cx cy cs).nbSamples)) x0.get G w.velObj.hessian := by
  have h := zReachable_inv hw
  change ZInv tr (zebSettingsOf cx cy cs) _ _ w at h
  generalize zebSettingsOf cx cy cs = s at *
  have hm := h.part.user.model
  have hf : w.velObj.hessian.Is (2 * s.nbSamples) (2 * s.nbSamples) (gram (2 * s.nbSamples) (zVelD s)) :=
    h.part.fresh .vel trivial
  obtain ⟨G, e, hG⟩ := ZTrack.getGradient_ok (t := w.velObj) (b := w.base) (dyn := w.base.vel) (x0 := x0)
    (by rw [hm.vel, hm.bN]; exact velDyn_is s.period s.period s.nbSamples) (by rw [hm.bN]; exact hf)
    (by rw [h.part.user.velRef, hm.bN, hr]) (by rw [hm.bN, hx])
  rw [hm.bN, h.part.user.velRef] at hG
  refine ⟨G, e, zHasGradHess hG hf fun X => ?_⟩
  rw [zVelCost]
  simp only [Nat.add_sub_cancel_left]
  rfl

/-- **C50, base position tracking.** -/
theorem C50_base_position (hw : ZebReaches o tr cx cy cs w)
    (hr : (zebSettingsOf cx cy cs).posRef.size = 2 * (zebSettingsOf cx cy cs).nbSamples) (x0 : Vec K)
    (hx : x0.size = 2 * (zebSettingsOf cx cy cs).nbSamples) :
    ∃ G, w.posObj.getGradient w.base w.base.pos x0 = .ok G ∧
      Spec.HasGradHess (2 * (zebSettingsOf cx cy cs).nbSamples)
        (fun X => 1 / 2 * (zebSettingsOf cx cy cs).posCost w.state
          fun i => X (i - 2 * (zebSettingsOf cx cy cs).nbSamples)) x0.get G w.posObj.hessian := by
  have h := zReachable_inv hw
  change ZInv tr (zebSettingsOf cx cy cs) _ _ w at h
  generalize zebSettingsOf cx cy cs = s at *
  have hm := h.part.user.model
  have hf : w.posObj.hessian.Is (2 * s.nbSamples) (2 * s.nbSamples) (gram (2 * s.nbSamples) (zPosD s)) :=
    h.part.fresh .pos trivial
  obtain ⟨G, e, hG⟩ := ZTrack.getGradient_ok (t := w.posObj) (b := w.base) (dyn := w.base.pos) (x0 := x0)
    (by rw [hm.pos, hm.bN]; exact posDyn_is s.period s.period s.nbSamples) (by rw [hm.bN]; exact hf)
    (by rw [h.part.user.posRef, hm.bN, hr]) (by rw [hm.bN, hx])
  rw [hm.bN, h.part.user.posRef] at hG
  refine ⟨G, e, zHasGradHess hG hf fun X => ?_⟩
  rw [zPosCost]
  simp only [Nat.add_sub_cancel_left]
  rfl

/-- **C50, CoM centering.** The error is that of the CoM relative to the base with respect to the reference shifted by
the gravity shift in use (`C52_used_shift` says which one this is). -/
theorem C50_com_centering (hw : ZebReaches o tr cx cy cs w) (x0 : Vec K)
    (hx : x0.size = 4 * (zebSettingsOf cx cy cs).nbSamples) :
    ∃ G, w.comObj.getGradient w.lip w.base x0 = .ok G ∧
      Spec.HasGradHess (4 * (zebSettingsOf cx cy cs).nbSamples)
        (fun X => 1 / 2 * (zebSettingsOf cx cy cs).comCost ((Spec.ZebSettings.init cx cy).usedShift (0, 0) cs) w.state X)
        x0.get G w.comObj.hessian := by
  have h := zReachable_inv hw
  change ZInv tr (zebSettingsOf cx cy cs) _ _ w at h
  generalize zebSettingsOf cx cy cs = s at *
  generalize (Spec.ZebSettings.init cx cy).usedShift (0, 0) cs = k at *
  have hu := h.part.user
  have hf : w.comObj.hessian.Is (4 * s.nbSamples) (4 * s.nbSamples) (gram (2 * s.nbSamples) (zComD s)) :=
    h.part.fresh .com trivial
  obtain ⟨hgs, hsh⟩ : w.comObj.gravityShift.Is (2 * s.nbSamples) (zStack s.nbSamples (fun _ => k.1) fun _ => k.2) ∧
      w.comObj.shift.Is (2 * s.nbSamples)
        fun i => s.comRef.get i + zStack s.nbSamples (fun _ => k.1) (fun _ => k.2) i := h.part.fresh .shift trivial
  obtain ⟨G, e, hG⟩ := ComCentering.getGradient_ok (x0 := x0) hu.model hf hu.comRef.1 hsh.1 hgs.1 hx
  refine ⟨G, e, zHasGradHess (hG.congr fun r hr => ?_) hf fun X => by rw [← zComCost w.lip w.base X]; rfl⟩
  show LsqGrad _ _ (zComD s) _ _ _ = LsqGrad _ _ (zComD s) _ _ _
  unfold LsqGrad
  congr 1
  refine sum_congr rfl fun i hi => ?_
  congr 1
  obtain ⟨j, hj, hi⟩ := two_cases (mem_range.1 hi)
  unfold comOff zShifted
  rcases hi with rfl | rfl
  · rw [zStack_lo _ _ hj, zStack_lo _ _ hj, hsh.2 _ (by omega)]
  · rw [zStack_hi, zStack_hi, hsh.2 _ (by omega)]

/-- **C50, CoP centering.** -/
theorem C50_cop_centering (hw : ZebReaches o tr cx cy cs w)
    (hr : (zebSettingsOf cx cy cs).copRef.size = 2 * (zebSettingsOf cx cy cs).nbSamples) (x0 : Vec K)
    (hx : x0.size = 4 * (zebSettingsOf cx cy cs).nbSamples) :
    ∃ G, w.copObj.getGradient w.lip w.base x0 = .ok G ∧
      Spec.HasGradHess (4 * (zebSettingsOf cx cy cs).nbSamples)
        (fun X => 1 / 2 * (zebSettingsOf cx cy cs).copCost w.state X) x0.get G w.copObj.hessian := by
  have h := zReachable_inv hw
  change ZInv tr (zebSettingsOf cx cy cs) _ _ w at h
  generalize zebSettingsOf cx cy cs = s at *
  have hu := h.part.user
  obtain ⟨hf, -⟩ : w.copObj.hessian.Is (4 * s.nbSamples) (4 * s.nbSamples) (gram (2 * s.nbSamples) (zCopD s)) ∧
      w.copObj.cgSize = 2 * s.nbSamples := h.part.fresh .cop trivial
  have hcr := hu.copRef
  rw [hr] at hcr
  obtain ⟨G, e, hG⟩ := CopCentering.getGradient_ok (x0 := x0) hu.model hf hcr.1 hx
  refine ⟨G, e, zHasGradHess (hG.congr fun r hr => ?_) hf fun X => by rw [← zCopCost w.lip w.base X]; rfl⟩
  show LsqGrad _ _ (zCopD s) _ _ _ = LsqGrad _ _ (zCopD s) _ _ _
  unfold LsqGrad
  congr 1
  refine sum_congr rfl fun i hi => ?_
  congr 1
  obtain ⟨j, hj, hi⟩ := two_cases (mem_range.1 hi)
  unfold copOff
  rcases hi with rfl | rfl
  · rw [zStack_lo _ _ hj, zStack_lo _ _ hj, hcr.2 _ (by omega)]
  · rw [zStack_hi, zStack_hi, hcr.2 _ (by omega)]

/-- **C50, jerk minimisation.** -/
theorem C50_jerk (hw : ZebReaches o tr cx cy cs w) (x0 : Vec K)
    (hx : x0.size = 4 * (zebSettingsOf cx cy cs).nbSamples) :
    ∃ G, zJerkGradient w.lip w.base x0 = .ok G ∧
      Spec.HasGradHess (4 * (zebSettingsOf cx cy cs).nbSamples)
        (fun X => 1 / 2 * (zebSettingsOf cx cy cs).jerkCost X) x0.get G w.jerkH := by
  have h := zReachable_inv hw
  change ZInv tr (zebSettingsOf cx cy cs) _ _ w at h
  generalize zebSettingsOf cx cy cs = s at *
  have hf : w.jerkH = Mat.one (4 * s.nbSamples) := h.part.fresh .jerk trivial
  refine ⟨x0, zJerkGradient_ok h.part.user.model hx, ?_⟩
  rw [hf]
  refine ⟨hx, rfl, rfl, fun i _ j _ => ?_, fun d => ?_⟩
  · simp only [Mat.one, eq_comm]
  · unfold Spec.ZebSettings.jerkCost
    have e : ∀ i ∈ range (4 * s.nbSamples), ∑ j ∈ range (4 * s.nbSamples), d i * (Mat.one (4 * s.nbSamples)).get i j * d j
        = d i ^ 2 := by
      intro i hi
      rw [sum_eq_single_of_mem i hi fun j _ hj => by simp [Mat.one, Ne.symm hj]]
      simp [Mat.one]; ring
    rw [sum_congr rfl e, mul_sum, mul_sum, mul_sum, ← sum_add_distrib, ← sum_add_distrib]
    exact sum_congr rfl fun i _ => by ring

/-- **C50, tilt objectives.** Gradient and Hessian of the tilt and of the tilt velocity objective are those of half
the sum of the squares of their predictions (`C47_code_equation` says what these are). -/
theorem C50_tilt (hw : ZebReaches o tr cx cy cs w) (x0 : Vec K)
    (hx : x0.size = 4 * (zebSettingsOf cx cy cs).nbSamples) :
    (∃ G, w.tiltObj.getGradient w.lip w.base x0 = .ok G ∧
      Spec.HasGradHess (4 * (zebSettingsOf cx cy cs).nbSamples)
        (fun X => 1 / 2 * (zebSettingsOf cx cy cs).tiltCost (w.tiltX w.tiltObj X) (w.tiltY w.tiltObj X)) x0.get G
        w.tiltObj.hessian) ∧
    ∃ G, w.tiltVelObj.getGradient w.lip w.base x0 = .ok G ∧
      Spec.HasGradHess (4 * (zebSettingsOf cx cy cs).nbSamples)
        (fun X => 1 / 2 * (zebSettingsOf cx cy cs).tiltCost (w.tiltX w.tiltVelObj X) (w.tiltY w.tiltVelObj X)) x0.get G
        w.tiltVelObj.hessian := by
  have h := zReachable_inv hw
  change ZInv tr (zebSettingsOf cx cy cs) _ _ w at h
  generalize zebSettingsOf cx cy cs = s at *
  generalize (Spec.ZebSettings.init cx cy).tiltHeight 0 cs = L at *
  have hu := h.part.user
  have key : ∀ {t : Tilt K} {u ps : ℕ → ℕ → K}, t.Is s L s.contactX s.contactY u ps →
      ∃ G, t.getGradient w.lip w.base x0 = .ok G ∧ Spec.HasGradHess (4 * s.nbSamples)
        (fun X => 1 / 2 * s.tiltCost (w.tiltX t X) (w.tiltY t X)) x0.get G t.hessian := by
    intro t u ps ht
    obtain ⟨G, e, hG⟩ := Tilt.getGradient_ok (x0 := x0) hu.model ht hx
    rw [hu.roll, hu.pitch] at hG
    refine ⟨G, e, zHasGradHess hG ht.hessian fun X => ?_⟩
    have := zTiltCost (s := s) (L := L) u ps w.state X s.roll s.pitch s.contactX s.contactY
    show _ = 1 / 2 * ∑ i ∈ range (2 * s.nbSamples), (∑ j ∈ range (4 * s.nbSamples), zTiltD s L u i j * X j + _) ^ 2
    refine congrArg (1 / 2 * ·) (Eq.trans ?_ this)
    unfold Spec.ZebSettings.tiltCost
    refine sum_congr rfl fun i hi => ?_
    rw [tiltX_eq hu ht X (mem_range.1 hi), tiltY_eq hu ht X (mem_range.1 hi)]
  obtain ⟨u, ps, ht, -⟩ : ∃ u ps, w.tiltObj.Is s L s.contactX s.contactY u ps ∧ TiltSol s L u ps :=
    h.part.fresh .tilt trivial
  obtain ⟨v, qs, hv, -⟩ : ∃ u ps, w.tiltVelObj.Is s L s.contactX s.contactY u ps ∧ TiltVelSol s L u ps :=
    h.part.fresh .tiltVel trivial
  exact ⟨key ht, key hv⟩

/-- The hypotheses of the theorems of C50 are met by `zExampleHistory`. -/
example (o : Oracle ℚ) (tr : Trig ℚ) (cx cy : ℚ) : ∃ w, ZebReaches o tr cx cy zExampleHistory w ∧
    (zebSettingsOf cx cy zExampleHistory).RefsCurrent := by
  obtain ⟨w, hw⟩ := C54_no_fault_partial o tr cx cy _ (zExample_legal cx cy).1 (zExample_legal cx cy).2
  exact ⟨w, hw, rfl, rfl, rfl⟩

/-! ### C51 -/

/-- CoM and base follow, for the jerks `X`, the trajectories of positions `a`, `c` and accelerations `b`, `d`
(first the samples along X, then those along Y). -/
def Spec.ZebSettings.Follows (s : Spec.ZebSettings K) (z : Spec.ZebState K) (X : ℕ → K) (a b c d : Vec K) : Prop :=
  ∀ i < s.nbSamples,
    ((s.comX z X i).p = a.get i ∧ (s.comX z X i).a = b.get i ∧ (s.baseX z X i).p = c.get i ∧
      (s.baseX z X i).a = d.get i) ∧
    (s.comY z X i).p = a.get (s.nbSamples + i) ∧ (s.comY z X i).a = b.get (s.nbSamples + i) ∧
      (s.baseY z X i).p = c.get (s.nbSamples + i) ∧ (s.baseY z X i).a = d.get (s.nbSamples + i)

theorem zCop_difference {s : Spec.ZebSettings K} (hg : s.gz ≠ 0) (hm : s.bodyMass + s.baseMass ≠ 0)
    (hM : EPS < s.baseMass ∨ s.baseMass = 0) (g : K) (com base : State3 K) :
    s.predictedCop g com base - (((s.baseMass + s.bodyMass) * s.gz)⁻¹ *
      (s.baseMass * s.gz * base.p - s.baseMass * s.baseHeight * base.a + s.bodyMass * s.gz * com.p
        - s.bodyMass * s.bodyHeight * com.a
        + (s.baseMass * s.baseHeight + s.bodyMass * s.bodyHeight) * g)) = -2 * s.gravityShift g := by
  have hm' : s.baseMass + s.bodyMass ≠ 0 := by rwa [add_comm]
  unfold Spec.ZebSettings.predictedCop Spec.ZebSettings.gravityShift Spec.copOf
  rcases hM with h | h
  · rw [if_pos h, add_comm s.bodyMass s.baseMass]
    field_simp
    ring
  · rw [if_neg (by rw [h]; exact not_lt.2 EPS_pos.le)]
    rw [h] at hm hm' ⊢
    field_simp
    ring

/-- **C51 as the code has it.** After `setComAndCopRef` in any reachable state, if CoM and base follow the
trajectories passed, the predicted CoP relative to the base minus the stored reference is twice the opposite of the
shift due to horizontal gravity: the reference has the term of horizontal gravity with the opposite sign.
(A base mass in `(0, ε]`, which the prediction neglects and the reference does not, is excluded.) -/
theorem C51_difference {a b c d : Vec K} (hw : ZebReaches o tr cx cy (cs ++ [.setComAndCopRef a b c d]) w)
    (hM : EPS < (zebSettingsOf cx cy cs).baseMass ∨ (zebSettingsOf cx cy cs).baseMass = 0) (X : ℕ → K)
    (hX : (zebSettingsOf cx cy cs).Follows w.state X a b c d) :
    ∀ i < (zebSettingsOf cx cy cs).nbSamples,
      (zebSettingsOf cx cy cs).copRelX w.state X i - w.copObj.ref.get i
        = -2 * (zebSettingsOf cx cy cs).gravityShift (zebSettingsOf cx cy cs).gx ∧
      (zebSettingsOf cx cy cs).copRelY w.state X i - w.copObj.ref.get ((zebSettingsOf cx cy cs).nbSamples + i)
        = -2 * (zebSettingsOf cx cy cs).gravityShift (zebSettingsOf cx cy cs).gy := by
  have h := zReachable_inv hw
  have e : (Spec.ZebSettings.init cx cy).after (cs ++ [.setComAndCopRef a b c d])
      = (zebSettingsOf cx cy cs).apply (.setComAndCopRef a b c d) := List.foldl_append ..
  rw [e] at h
  generalize zebSettingsOf cx cy cs = s at *
  have hu := h.part.user
  have hg : s.gz ≠ 0 := hu.model.gz_ne
  have hm : s.bodyMass + s.baseMass ≠ 0 := hu.model.total_pos.ne'
  have href : w.copObj.ref.Is (2 * s.nbSamples) (s.copRefOf a b c d).get := hu.copRef
  intro i hi
  obtain ⟨⟨x1, x2, x3, x4⟩, y1, y2, y3, y4⟩ := hX i hi
  rw [href.2 i (by omega), href.2 (s.nbSamples + i) (by omega)]
  unfold Spec.ZebSettings.copRefOf Spec.ZebSettings.copRelX Spec.ZebSettings.copRelY
  dsimp only
  rw [if_pos hi, if_neg (by omega), ← x1, ← x2, ← x3, ← x4, ← y1, ← y2, ← y3, ← y4]
  constructor
  · have := zCop_difference hg hm hM s.gx (s.comX w.state X i) (s.baseX w.state X i)
    linear_combination this
  · have := zCop_difference hg hm hM s.gy (s.comY w.state X i) (s.baseY w.state X i)
    linear_combination this

/-- **C51 (partial).** For vertical gravity the predicted CoP relative to the base is the stored reference. Missing:
horizontal gravity (false, `C51_violated`), and base masses in `(0, ε]`. -/
theorem C51_vertical_partial {a b c d : Vec K} (hw : ZebReaches o tr cx cy (cs ++ [.setComAndCopRef a b c d]) w)
    (hM : EPS < (zebSettingsOf cx cy cs).baseMass ∨ (zebSettingsOf cx cy cs).baseMass = 0)
    (hgx : (zebSettingsOf cx cy cs).gx = 0) (hgy : (zebSettingsOf cx cy cs).gy = 0) (X : ℕ → K)
    (hX : (zebSettingsOf cx cy cs).Follows w.state X a b c d) :
    ∀ i < (zebSettingsOf cx cy cs).nbSamples,
      (zebSettingsOf cx cy cs).copRelX w.state X i = w.copObj.ref.get i ∧
      (zebSettingsOf cx cy cs).copRelY w.state X i
        = w.copObj.ref.get ((zebSettingsOf cx cy cs).nbSamples + i) := by
  intro i hi
  obtain ⟨h1, h2⟩ := C51_difference hw hM X hX i hi
  rw [hgx] at h1
  rw [hgy] at h2
  simp only [Spec.ZebSettings.gravityShift, mul_zero, zero_div] at h1 h2
  exact ⟨sub_eq_zero.1 h1, sub_eq_zero.1 h2⟩

/-- The history of the examples of C51: a base of mass `2`, horizontal gravity `g`, then the reference of a robot that
stands still at the origin. -/
def zStillHistory (g : ℚ) : List (ZebCall ℚ) := [.setBaseMass 2, .setBaseHeight (1 / 2), .setGravity g 0 10]

/-- A state that does not move, and follows the zero trajectories. -/
theorem zStill_reaches (g : ℚ) (hg : g = 0 ∨ g = 1) (o : Oracle ℚ) : ∃ w, ZebReaches o trigZero 0 0
      (zStillHistory g ++ [.setComAndCopRef (Vec.const 2 0) (Vec.const 2 0) (Vec.const 2 0) (Vec.const 2 0)]) w ∧
    (zebSettingsOf 0 0 (zStillHistory g)).Follows w.state (fun _ => 0) (Vec.const 2 0) (Vec.const 2 0) (Vec.const 2 0)
      (Vec.const 2 0) := by
  have h : okAnd (fun w : Zeb ℚ => zAtRest w)
      (do Zeb.run (fun _ _ _ => (true, fun _ => 0)) trigZero (← Zeb.make trigZero (some 0, some 0))
            (zStillHistory g ++ [.setComAndCopRef (Vec.const 2 0) (Vec.const 2 0) (Vec.const 2 0) (Vec.const 2 0)]))
      = true := by
    rcases hg with rfl | rfl <;> decide +kernel
  obtain ⟨w, e, hw⟩ := okAnd_true h
  rw [zReaches_setters _ _ (by rcases hg with rfl | rfl <;> decide) o] at e
  refine ⟨w, e, ?_⟩
  rw [zAtRest_state hw]
  intro i hi
  obtain rfl : i = 0 := by
    have hi : i < 1 := hi
    omega
  have c : ∀ S : ℚ, Spec.cubic (⟨0, 0, 0⟩ : State3 ℚ) 0 S = ⟨0, 0, 0⟩ := fun S => by simp [Spec.cubic]
  have e1 : (zebSettingsOf 0 0 (zStillHistory g)).comX ⟨⟨0, 0, 0⟩, ⟨0, 0, 0⟩, ⟨0, 0, 0⟩, ⟨0, 0, 0⟩⟩ (fun _ => 0) 0
    = ⟨0, 0, 0⟩ := c _
  have e2 : (zebSettingsOf 0 0 (zStillHistory g)).comY ⟨⟨0, 0, 0⟩, ⟨0, 0, 0⟩, ⟨0, 0, 0⟩, ⟨0, 0, 0⟩⟩ (fun _ => 0) 0
    = ⟨0, 0, 0⟩ := c _
  have e3 : (zebSettingsOf 0 0 (zStillHistory g)).baseX ⟨⟨0, 0, 0⟩, ⟨0, 0, 0⟩, ⟨0, 0, 0⟩, ⟨0, 0, 0⟩⟩ (fun _ => 0) 0
    = ⟨0, 0, 0⟩ := c _
  have e4 : (zebSettingsOf 0 0 (zStillHistory g)).baseY ⟨⟨0, 0, 0⟩, ⟨0, 0, 0⟩, ⟨0, 0, 0⟩, ⟨0, 0, 0⟩⟩ (fun _ => 0) 0
    = ⟨0, 0, 0⟩ := c _
  rw [e1, e2, e3, e4]
  exact ⟨⟨rfl, rfl, rfl, rfl⟩, rfl, rfl, rfl, rfl⟩

/-- The hypotheses of `C51_vertical_partial` are met. -/
example (o : Oracle ℚ) : ∃ w, ZebReaches o trigZero 0 0
      (zStillHistory 0 ++ [.setComAndCopRef (Vec.const 2 0) (Vec.const 2 0) (Vec.const 2 0) (Vec.const 2 0)]) w ∧
    EPS < (zebSettingsOf 0 0 (zStillHistory 0)).baseMass ∧ (zebSettingsOf 0 0 (zStillHistory 0)).gx = 0 ∧
    (zebSettingsOf 0 0 (zStillHistory 0)).gy = 0 ∧
    (zebSettingsOf 0 0 (zStillHistory 0)).Follows w.state (fun _ => 0) (Vec.const 2 0) (Vec.const 2 0) (Vec.const 2 0)
      (Vec.const 2 0) := by
  obtain ⟨w, hw, hf⟩ := zStill_reaches 0 (.inl rfl) o
  exact ⟨w, hw, by show EPS < (2 : ℚ); norm_num [EPS], rfl, rfl, hf⟩

/-- **C51 is violated.** With a horizontal gravity of `1`, a robot that stands still as in the trajectories passed to
`setComAndCopRef` has a predicted CoP that is not the stored reference. -/
theorem C51_violated (o : Oracle ℚ) : ∃ w, ZebReaches o trigZero 0 0
      (zStillHistory 1 ++ [.setComAndCopRef (Vec.const 2 0) (Vec.const 2 0) (Vec.const 2 0) (Vec.const 2 0)]) w ∧
    (zebSettingsOf 0 0 (zStillHistory 1)).Follows w.state (fun _ => 0) (Vec.const 2 0) (Vec.const 2 0) (Vec.const 2 0)
      (Vec.const 2 0) ∧
    (zebSettingsOf 0 0 (zStillHistory 1)).copRelX w.state (fun _ => 0) 0 ≠ w.copObj.ref.get 0 := by
  obtain ⟨w, hw, hf⟩ := zStill_reaches 1 (.inr rfl) o
  refine ⟨w, hw, hf, fun h => ?_⟩
  have := (C51_difference hw (.inl (by show EPS < (2 : ℚ); norm_num [EPS])) _ hf 0 Nat.one_pos).1
  rw [h, sub_self] at this
  have e : (zebSettingsOf (0 : ℚ) 0 (zStillHistory 1)).gravityShift (zebSettingsOf (0 : ℚ) 0 (zStillHistory 1)).gx
    = (1 * 1 + 2 * (1 / 2)) / (2 + 1) * 1 / 10 := rfl
  rw [e] at this
  norm_num at this

/-! ### C52 -/

/-- Whether the last call that changes the shift in use recomputed it (`setNbSamples` resets it to zero); `b` tells
whether it was current at the start. -/
def Spec.shiftCurrent (b : Bool) : List (ZebCall K) → Bool
  | [] => b
  | c :: cs => Spec.shiftCurrent (match c with
    | .setNbSamples _ => false
    | .setGravity _ _ _ => true
    | .setBodyHeight _ => true
    | .setBaseHeight _ => true
    | .setBodyMass _ => true
    | .setBaseMass _ => true
    | _ => b) cs

/-- The shift for the current masses, heights and gravity. -/
def Spec.ZebSettings.currentShift (s : Spec.ZebSettings K) : K × K := (s.gravityShift s.gx, s.gravityShift s.gy)

theorem usedShift_eq (cs : List (ZebCall K)) : ∀ (s : Spec.ZebSettings K) (b : Bool) (k : K × K),
    k = (if b then s.currentShift else (0, 0)) →
    s.usedShift k cs = if Spec.shiftCurrent b cs then (s.after cs).currentShift else (0, 0) := by
  induction cs with
  | nil => intro s b k h; exact h
  | cons c cs ih =>
    intro s b k h
    show (s.apply c).usedShift (s.nextShift k c) cs = _
    unfold Spec.shiftCurrent
    refine ih (s.apply c) _ _ ?_
    cases c <;> first | rfl | exact h

/-- **C52 as the code has it.** In every reachable state the offset subtracted by CoM centering is the reference plus
a shift: the one due to horizontal gravity for the current masses, heights and gravity, unless `setNbSamples` was
called after the last change of these, in which case the shift is zero. -/
theorem C52_used_shift (hw : ZebReaches o tr cx cy cs w) (i : ℕ) (hi : i < (zebSettingsOf cx cy cs).nbSamples) :
    w.comObj.shift.get i = (zebSettingsOf cx cy cs).comRef.get i
      + (if Spec.shiftCurrent true cs then (zebSettingsOf cx cy cs).gravityShift (zebSettingsOf cx cy cs).gx else 0) ∧
    w.comObj.shift.get ((zebSettingsOf cx cy cs).nbSamples + i)
      = (zebSettingsOf cx cy cs).comRef.get ((zebSettingsOf cx cy cs).nbSamples + i)
      + (if Spec.shiftCurrent true cs then (zebSettingsOf cx cy cs).gravityShift (zebSettingsOf cx cy cs).gy else 0) := by
  have h := zReachable_inv hw
  rw [usedShift_eq cs (Spec.ZebSettings.init cx cy) true (0, 0) (by
    simp [Spec.ZebSettings.currentShift, Spec.ZebSettings.gravityShift, Spec.ZebSettings.init])] at h
  change ZInv tr (zebSettingsOf cx cy cs) _ (if Spec.shiftCurrent true cs then (zebSettingsOf cx cy cs).currentShift
    else (0, 0)) w at h
  generalize zebSettingsOf cx cy cs = s at *
  have hsh : w.comObj.shift.Is (2 * s.nbSamples) fun i => s.comRef.get i + zStack s.nbSamples
      (fun _ => (if Spec.shiftCurrent true cs then s.currentShift else (0, 0)).1)
      (fun _ => (if Spec.shiftCurrent true cs then s.currentShift else (0, 0)).2) i := (h.part.fresh .shift trivial).2
  rw [hsh.2 i (by omega), hsh.2 _ (by omega)]
  dsimp only
  rw [zStack_lo _ _ hi, zStack_hi]
  split_ifs <;> exact ⟨rfl, rfl⟩

/-- **C52 (partial).** The offset is the reference plus the shift due to horizontal gravity when gravity is vertical,
or when no `setNbSamples` follows the last change of masses, heights or gravity. Missing: other histories (false,
`C52_violated`). -/
theorem C52_partial (hw : ZebReaches o tr cx cy cs w)
    (hc : Spec.shiftCurrent true cs = true ∨ (zebSettingsOf cx cy cs).gx = 0 ∧ (zebSettingsOf cx cy cs).gy = 0)
    (i : ℕ) (hi : i < (zebSettingsOf cx cy cs).nbSamples) :
    w.comObj.shift.get i = (zebSettingsOf cx cy cs).comRef.get i
      + (zebSettingsOf cx cy cs).gravityShift (zebSettingsOf cx cy cs).gx ∧
    w.comObj.shift.get ((zebSettingsOf cx cy cs).nbSamples + i)
      = (zebSettingsOf cx cy cs).comRef.get ((zebSettingsOf cx cy cs).nbSamples + i)
      + (zebSettingsOf cx cy cs).gravityShift (zebSettingsOf cx cy cs).gy := by
  obtain ⟨h1, h2⟩ := C52_used_shift hw i hi
  rcases hc with h | ⟨hx, hy⟩
  · rw [if_pos h] at h1 h2
    exact ⟨h1, h2⟩
  · have z : (zebSettingsOf cx cy cs).gravityShift 0 = 0 := by simp [Spec.ZebSettings.gravityShift]
    rw [hx, z, ite_self] at h1
    rw [hy, z, ite_self] at h2
    rw [hx, hy, z]
    exact ⟨h1, h2⟩

/-- The hypotheses of `C52_partial` are met with a horizontal gravity of `1`. -/
example (o : Oracle ℚ) : ∃ cs w, ZebReaches o trigZero 0 0 cs w ∧ Spec.shiftCurrent true cs = true ∧
    (zebSettingsOf 0 0 cs).gravityShift (zebSettingsOf 0 0 cs).gx = 1 / 15 := by
  obtain ⟨w, hw, -⟩ := zStill_reaches 1 (.inr rfl) o
  refine ⟨_, w, hw, rfl, ?_⟩
  show ((1 : ℚ) * 1 + 2 * (1 / 2)) / (2 + 1) * 1 / 10 = 1 / 15
  norm_num

/-- **C52 is violated.** After a change of the number of samples, even to its current value, the shift due to
horizontal gravity is lost, also for a reference given afterwards. -/
theorem C52_violated (o : Oracle ℚ) : ∃ cs w, ZebReaches o trigZero 0 0 cs w ∧
    cs = [.setGravity 1 0 10, .setNbSamples 1, .setComRef (Vec.const 2 3)] ∧
    w.comObj.shift.get 0 = 3 ∧
    (zebSettingsOf 0 0 cs).comRef.get 0 + (zebSettingsOf 0 0 cs).gravityShift (zebSettingsOf 0 0 cs).gx
      = 3 + 1 / 10 := by
  obtain ⟨w, hw⟩ := C54_no_fault_partial o trigZero 0 0 [.setGravity 1 0 10, .setNbSamples 1, .setComRef (Vec.const 2 3)]
    (by
      refine ⟨?_, ⟨Nat.one_pos, ?_⟩, rfl, trivial⟩
      · show EPS < |(10 : ℚ)|
        norm_num [EPS]
      · exact zInit_regular 0 0)
    (by refine ⟨?_, ?_, ?_, trivial⟩ <;> (intro fb h; cases h))
  refine ⟨_, w, hw, rfl, ?_, ?_⟩
  · have := (C52_used_shift hw 0 Nat.one_pos).1
    rw [if_neg (by simp [Spec.shiftCurrent]), add_zero] at this
    rw [this]; rfl
  · show (3 : ℚ) + (1 * 1 + 0 * 0) / (0 + 1) * 1 / 10 = 3 + 1 / 10
    norm_num

end MPC
