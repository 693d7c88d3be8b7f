import Verif.Props.Zebulon
import Verif.Spec.ZebRecede
import Verif.Lemmas.Recede

/-! # Lemmas on repeated solving of `ZebulonWalkgen` -/

set_option linter.unusedSectionVars false

namespace MPC

open Finset

variable {K : Type} [Field K] [LinearOrder K] [IsStrictOrderedRing K] [FloorRing K]

theorem stateStep_cubic (j t : K) (z : State3 K) : stateStep j t z = Spec.cubic z j t := by
  simp only [stateStep, Spec.cubic, State3.mk.injEq]
  refine ⟨by ring, by ring, trivial⟩

/-! ### Histories -/

/-- The QP of `ZebGives` has consistent dimensions. -/
theorem ZebGives.consistent {tr : Trig K} {s : Spec.ZebSettings K} {L : K} {k : K × K} {w : Zeb K} (h : ZInv tr s L k w)
    {fb : K} {qp : QPMatrices K} (hg : ZebGives tr w fb qp) : ∃ a b, qp.DimensionsAreConsistent a b := by
  obtain ⟨b, w', e, -⟩ := hg fun _ _ _ => (true, fun _ => 0)
  obtain ⟨hfb, hr⟩ := zCodePre_of_ok h _ (.solve fb) e
  obtain ⟨qp', _, _, _, _, hg', hq, -⟩ := zebGives_of_inv h hr hfb
  obtain rfl := hg.unique h hg'
  exact ⟨_, _, hq.consistent h⟩

theorem zRun_append (o : Oracle K) (tr : Trig K) (w : Zeb K) (cs cs' : List (ZebCall K)) :
    w.run o tr (cs ++ cs') = (w.run o tr cs >>= fun w1 => w1.run o tr cs') := by
  induction cs generalizing w with
  | nil => rfl
  | cons c cs ih =>
    show (w.step o tr c >>= fun x => x.2.run o tr (cs ++ cs'))
      = ((w.step o tr c >>= fun x => x.2.run o tr cs) >>= fun w1 => w1.run o tr cs')
    rcases w.step o tr c with e | ⟨b, w1⟩
    · rfl
    · exact ih w1

theorem zReaches_append {o : Oracle K} {tr : Trig K} {cx cy : K} {cs cs' : List (ZebCall K)} {w w' : Zeb K}
    (hw : ZebReaches o tr cx cy cs w) :
    ZebReaches o tr cx cy (cs ++ cs') w' ↔ w.run o tr cs' = .ok w' := by
  unfold ZebReaches at hw ⊢
  obtain ⟨w0, e0, e1⟩ := bind_eq_ok.1 hw
  rw [e0, ok_bind, zRun_append, e1, ok_bind]

theorem after_append (s : Spec.ZebSettings K) (cs cs' : List (ZebCall K)) :
    s.after (cs ++ cs') = (s.after cs).after cs' := List.foldl_append

theorem tiltHeight_append (s : Spec.ZebSettings K) (L : K) (cs cs' : List (ZebCall K)) :
    s.tiltHeight L (cs ++ cs') = (s.after cs).tiltHeight (s.tiltHeight L cs) cs' := by
  induction cs generalizing s L with
  | nil => rfl
  | cons c cs ih => exact ih _ _

theorem usedShift_append (s : Spec.ZebSettings K) (k : K × K) (cs cs' : List (ZebCall K)) :
    s.usedShift k (cs ++ cs') = (s.after cs).usedShift (s.usedShift k cs) cs' := by
  induction cs generalizing s k with
  | nil => rfl
  | cons c cs ih => exact ih _ _

theorem zRun_limits {tr : Trig K} {s : Spec.ZebSettings K} {L : K} {k : K × K} {w w' : Zeb K} (h : ZInv tr s L k w)
    (o : Oracle K) (cs : List (ZebCall K)) (e : w.run o tr cs = .ok w')
    (hl : 0 ≤ s.velLimit ∧ 0 ≤ s.accLimit ∧ 0 ≤ s.jerkLimit) :
    0 ≤ (s.after cs).velLimit ∧ 0 ≤ (s.after cs).accLimit ∧ 0 ≤ (s.after cs).jerkLimit := by
  induction cs generalizing s L k w with
  | nil => exact hl
  | cons c cs ih =>
    unfold Zeb.run at e
    obtain ⟨⟨b, w1⟩, e1, e⟩ := bind_eq_ok.1 e
    refine ih (zStep_inv h o c e1) e ?_
    have hc := zCodePre_of_ok h o c e1
    cases c with
    | setVelLimit l => exact ⟨hc, hl.2⟩
    | setAccLimit l => exact ⟨hl.1, hc, hl.2.2⟩
    | setJerkLimit l => exact ⟨hl.1, hl.2.1, hc⟩
    | _ => exact hl

theorem zReachable_limits {o : Oracle K} {tr : Trig K} {cx cy : K} {cs : List (ZebCall K)} {w : Zeb K}
    (hw : ZebReaches o tr cx cy cs w) : 0 ≤ (zebSettingsOf cx cy cs).velLimit ∧
      0 ≤ (zebSettingsOf cx cy cs).accLimit ∧ 0 ≤ (zebSettingsOf cx cy cs).jerkLimit := by
  obtain ⟨w0, e0, h0⟩ := zMake_ok tr cx cy
  unfold ZebReaches at hw
  rw [e0, ok_bind] at hw
  exact zRun_limits h0 o cs hw ⟨zero_le_one, zero_le_one, zero_le_one⟩

/-! ### Tilt in balance -/

theorem accTrajectory_rest {T : K} {N : ℕ} {α : ℕ → K} (h : ∀ i < N, α i = 0) {i : ℕ} (hi : i < N) :
    Spec.accTrajectory T T ⟨0, 0⟩ α i = ⟨0, 0⟩ := by
  induction i with
  | zero => simp [Spec.accTrajectory, Spec.quadratic, h 0 hi]
  | succ i ih => simp [Spec.accTrajectory, Spec.quadratic, ih (by omega), h _ hi]

theorem accTrajectory_inj {T : K} (hT : T ≠ 0) {N : ℕ} {γ : ℕ → K}
    (h : ∀ i < N, (Spec.accTrajectory T T ⟨0, 0⟩ γ i).q = 0) : ∀ i < N, γ i = 0 := by
  intro i
  induction i using Nat.strong_induction_on with
  | _ i ih =>
    intro hi
    have h0 := h i hi
    cases i with
    | zero => simpa [Spec.accTrajectory, Spec.quadratic, hT] using h0
    | succ i =>
      have := accTrajectory_rest (T := T) (N := i + 1) (α := γ) (fun j hj => ih j hj (by omega)) (i := i) (by omega)
      simpa [Spec.accTrajectory, Spec.quadratic, this, hT] using h0

/-- In balance, the predicted tilt is exactly zero. -/
theorem PredictsCodeTilt.zero {s : Spec.ZebSettings K} (hT : s.period ≠ 0) {L contact : K} {com base : ℕ → State3 K}
    {τ : State3 K} {ψ ω : ℕ → K} (h : s.PredictsCodeTilt L contact com base τ ψ ω) (hp : τ.p = 0) (hv : τ.v = 0)
    (hr : ∀ i < s.nbSamples, s.tiltRhs L contact (com i) (base i) = 0) : ∀ i < s.nbSamples, ψ i = 0 ∧ ω i = 0 := by
  obtain ⟨α, γ, -, hu, hγ, hb⟩ := h
  have em : ∀ {β : ℕ → K}, (∀ i < s.nbSamples, β i = 0) → ∀ i < s.nbSamples, s.tiltMotion τ β i = ⟨0, 0⟩ := by
    intro β hβ i hi
    unfold Spec.ZebSettings.tiltMotion
    rw [hp, hv]
    exact accTrajectory_rest hβ hi
  have hα : ∀ i < s.nbSamples, α i = 0 := by
    intro i hi
    refine (hu (fun _ => 0) ?_ i hi).symm
    intro j hj
    rw [em (fun _ _ => rfl) j hj, hr j hj]
    simp
  have hm := em hα
  have hγ0 : ∀ i < s.nbSamples, γ i = 0 := by
    refine accTrajectory_inj hT fun i hi => ?_
    have := hγ i hi
    rw [hm i hi] at this
    exact this
  intro i hi
  have hs : ∑ j ∈ range s.nbSamples, |s.tiltStiffness L * (s.tiltMotion τ α j).q - s.tiltInertia L * γ j| = 0 := by
    refine sum_eq_zero fun j hj => ?_
    rw [hm j (mem_range.1 hj), hγ0 j (mem_range.1 hj)]
    simp
  obtain ⟨b1, b2⟩ := hb i hi
  rw [hs, hm i hi, mul_zero] at b1 b2
  exact ⟨by simpa using b1, by simpa using b2⟩

/-! ### Costs -/

theorem tiltCost_nonneg (s : Spec.ZebSettings K) (ψx ψy : ℕ → K) : 0 ≤ s.tiltCost ψx ψy :=
  sum_nonneg fun _ _ => by positivity

theorem tiltCost_zero {s : Spec.ZebSettings K} {ψx ψy : ℕ → K} (hx : ∀ i < s.nbSamples, ψx i = 0)
    (hy : ∀ i < s.nbSamples, ψy i = 0) : s.tiltCost ψx ψy = 0 :=
  sum_eq_zero fun i hi => by rw [hx i (mem_range.1 hi), hy i (mem_range.1 hi)]; ring

theorem totalCost_nonneg (s : Spec.ZebSettings K) (k : K × K) {t t' : K} (ht : 0 ≤ t) (ht' : 0 ≤ t')
    (z : Spec.ZebState K) (X : ℕ → K) : 0 ≤ s.totalCost k t t' z X := by
  have h0 : ∀ c : K, 0 ≤ max c 0 := fun c => le_max_right _ _
  unfold Spec.ZebSettings.totalCost
  have := mul_nonneg (h0 s.weighting.velocityTracking)
    (show 0 ≤ s.velCost z X from sum_nonneg fun _ _ => by positivity)
  have := mul_nonneg (h0 s.weighting.positionTracking)
    (show 0 ≤ s.posCost z X from sum_nonneg fun _ _ => by positivity)
  have := mul_nonneg (h0 s.weighting.copCentering)
    (show 0 ≤ s.copCost z X from sum_nonneg fun _ _ => by positivity)
  have := mul_nonneg (h0 s.weighting.comCentering)
    (show 0 ≤ s.comCost k z X from sum_nonneg fun _ _ => by positivity)
  have := mul_nonneg (h0 s.weighting.jerkMinimization)
    (show 0 ≤ s.jerkCost X from sum_nonneg fun _ _ => by positivity)
  have := mul_nonneg (h0 s.weighting.tiltMinimization) ht
  have := mul_nonneg (h0 s.weighting.tiltVelMinimization) ht'
  linarith

theorem max_mul_zero {a b : K} (h : 0 < a → b = 0) : max a 0 * b = 0 := by
  rcases le_or_gt a 0 with h1 | h1
  · rw [max_eq_right h1, zero_mul]
  · rw [h h1, mul_zero]

theorem totalCost_zero {s : Spec.ZebSettings K} {k : K × K} {t t' : K} {z : Spec.ZebState K}
    (ht : 0 < s.weighting.tiltMinimization → t = 0) (ht' : 0 < s.weighting.tiltVelMinimization → t' = 0)
    (h : s.Meets k z fun _ => 0) : s.totalCost k t t' z (fun _ => 0) = 0 := by
  unfold Spec.ZebSettings.totalCost
  rw [max_mul_zero ht, max_mul_zero ht', max_mul_zero (b := s.velCost z _), max_mul_zero (b := s.posCost z _),
    max_mul_zero (b := s.copCost z _), max_mul_zero (b := s.comCost k z _), max_mul_zero (b := s.jerkCost _)]
  · ring
  · intro _; exact sum_eq_zero fun i _ => by simp
  · intro hp; refine sum_eq_zero fun i hi => ?_
    obtain ⟨a, b⟩ := (h i (mem_range.1 hi)).2.2.2 hp
    rw [a, b]; ring
  · intro hp; refine sum_eq_zero fun i hi => ?_
    obtain ⟨a, b⟩ := (h i (mem_range.1 hi)).2.2.1 hp
    rw [a, b]; ring
  · intro hp; refine sum_eq_zero fun i hi => ?_
    obtain ⟨a, b⟩ := (h i (mem_range.1 hi)).2.1 hp
    rw [a, b]; ring
  · intro hp; refine sum_eq_zero fun i hi => ?_
    obtain ⟨a, b⟩ := (h i (mem_range.1 hi)).1 hp
    rw [a, b]; ring

/-! ### Rest -/

theorem cubic_still {x : State3 K} (h : x.v = 0 ∧ x.a = 0) (t : K) : Spec.cubic x 0 t = x := by
  obtain ⟨p, v, a⟩ := x
  obtain ⟨rfl, rfl⟩ : v = 0 ∧ a = 0 := h
  simp [Spec.cubic]

theorem jerkTrajectory_still {x : State3 K} (h : x.v = 0 ∧ x.a = 0) (S T : K) {J : ℕ → K} {i : ℕ}
    (hJ : ∀ j ≤ i, J j = 0) : Spec.jerkTrajectory S T x J i = x := by
  induction i with
  | zero => rw [Spec.jerkTrajectory, hJ 0 le_rfl]; exact cubic_still h S
  | succ i ih =>
    rw [Spec.jerkTrajectory, ih (fun j hj => hJ j (by omega)), hJ _ le_rfl]; exact cubic_still h T

/-- Rest is steady. -/
theorem Resting.steady {s : Spec.ZebSettings K} {L : K} {k : K × K} {z : Spec.ZebState K} (h : s.Resting L k z)
    (cs sn : K) (X0 : ℕ → K) (hl : 0 ≤ s.velLimit ∧ 0 ≤ s.accLimit ∧ 0 ≤ s.jerkLimit)
    (hX : ∀ i < 4 * s.nbSamples, X0 i = 0) :
    s.Meets k z (fun _ => 0) ∧ s.Allowed cs sn z X0 (fun _ => 0) ∧
      (0 < s.weighting.tiltMinimization ∨ 0 < s.weighting.tiltVelMinimization →
        s.period ^ 2 * EPS ≤ 2 ∧ s.Balanced L z fun _ => 0) := by
  obtain ⟨r1, r2, r3, r4⟩ := h.rest
  have hM : (0 : K) ≤ MAXBOUND := by unfold MAXBOUND; norm_num
  have f1 : ∀ {X : ℕ → K}, (∀ i < 4 * s.nbSamples, X i = 0) → ∀ {i}, i < s.nbSamples → s.comX z X i = z.cx :=
    fun hX _ hi => jerkTrajectory_still r1 _ _ fun j hj => hX _ (by omega)
  have f2 : ∀ {X : ℕ → K}, (∀ i < 4 * s.nbSamples, X i = 0) → ∀ {i}, i < s.nbSamples → s.comY z X i = z.cy :=
    fun hX _ hi => jerkTrajectory_still r2 _ _ fun j hj => hX _ (by omega)
  have f3 : ∀ {X : ℕ → K}, (∀ i < 4 * s.nbSamples, X i = 0) → ∀ {i}, i < s.nbSamples → s.baseX z X i = z.bx :=
    fun hX _ hi => jerkTrajectory_still r3 _ _ fun j hj => hX _ (by omega)
  have f4 : ∀ {X : ℕ → K}, (∀ i < 4 * s.nbSamples, X i = 0) → ∀ {i}, i < s.nbSamples → s.baseY z X i = z.by_ :=
    fun hX _ hi => jerkTrajectory_still r4 _ _ fun j hj => hX _ (by omega)
  have e1 : ∀ {i}, i < s.nbSamples → s.comX z (fun _ => 0) i = z.cx := f1 fun _ _ => rfl
  have e2 : ∀ {i}, i < s.nbSamples → s.comY z (fun _ => 0) i = z.cy := f2 fun _ _ => rfl
  have e3 : ∀ {i}, i < s.nbSamples → s.baseX z (fun _ => 0) i = z.bx := f3 fun _ _ => rfl
  have e4 : ∀ {i}, i < s.nbSamples → s.baseY z (fun _ => 0) i = z.by_ := f4 fun _ _ => rfl
  refine ⟨fun i hi => ⟨fun hp => ?_, fun hp => ?_, fun hp => ?_, fun hp => ?_⟩, ⟨fun hc => ?_, fun hc => ?_, fun hc => ?_,
    fun hc => ?_, fun i hi _ => ?_⟩, fun ht => ?_⟩
  · rw [e3 hi, e4 hi, r3.1, r4.1, h.vel hp i (by omega), h.vel hp _ (by omega)]; exact ⟨rfl, rfl⟩
  · rw [e3 hi, e4 hi]; exact ⟨(h.pos hp i hi).1.symm, (h.pos hp i hi).2.symm⟩
  · unfold Spec.ZebSettings.copRelX Spec.ZebSettings.copRelY
    rw [e1 hi, e2 hi, e3 hi, e4 hi]; exact ⟨(h.cop hp i hi).1.symm, (h.cop hp i hi).2.symm⟩
  · unfold Spec.ZebSettings.comRelX Spec.ZebSettings.comRelY
    rw [e1 hi, e2 hi, e3 hi, e4 hi]; exact ⟨(h.com hp i hi).1.symm, (h.com hp i hi).2.symm⟩
  · intro e he i hi
    have := h.copInside hc e he
    unfold Spec.ZebSettings.copRel Spec.ZebSettings.copRelX Spec.ZebSettings.copRelY
    rw [e1 hi, e2 hi, e3 hi, e4 hi, f1 hX hi, f2 hX hi, f3 hX hi, f4 hX hi, sub_self]
    exact ⟨this, hM⟩
  · intro i hi
    rw [e3 hi, e4 hi, r3.1, r3.2, r4.1, r4.2]
    simp only [Spec.jerkBX, Spec.jerkBY, abs_zero]
    exact ⟨hl.1, hl.1, hl.2.1, hl.2.1, hl.2.2, hl.2.2⟩
  · intro e he i hi
    have := h.comInside hc e he
    unfold Spec.ZebSettings.comRel Spec.ZebSettings.comRelX Spec.ZebSettings.comRelY
    rw [e1 hi, e2 hi, e3 hi, e4 hi, f1 hX hi, f2 hX hi, f3 hX hi, f4 hX hi, sub_self]
    exact ⟨this, hM⟩
  · intro i hi
    rw [e1 hi, e2 hi, e3 hi, e4 hi, r1.1, r2.1, r3.1, r4.1]
    simp
  · rw [hX i hi, sub_self, abs_zero]; exact hM
  · obtain ⟨a, b, c, d, e⟩ := h.balance ht
    refine ⟨a, b, c, fun i hi => ?_⟩
    rw [e1 hi, e2 hi, e3 hi, e4 hi]
    exact ⟨d, e⟩

end MPC
