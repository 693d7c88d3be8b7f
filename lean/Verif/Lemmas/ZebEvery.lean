import Verif.Spec.ZebEvery
import Verif.Props.Every
import Verif.Lemmas.ZebConverge

/-! # Lemmas for C95 -/

set_option linter.unusedSectionVars false

namespace MPC
open Finset Filter Topology

/-! ### Setters leave the planned jerks zero -/

section
variable {K : Type} [Field K] [LinearOrder K] [IsStrictOrderedRing K] [FloorRing K]

/-- The planned jerks are zero whenever the computation succeeds. -/
def NoJerks (m : Res (Zeb K)) : Prop := ∀ w, m = .ok w → ∀ i, w.X.get i = 0

theorem noJerks_pure {w : Zeb K} (h : ∀ i, w.X.get i = 0) : NoJerks (pure w) := by
  rintro w' e; cases e; exact h

theorem noJerks_any {α : Type} {m : Res α} {f : α → Res (Zeb K)} (h : ∀ a, NoJerks (f a)) : NoJerks (m >>= f) := by
  intro w e
  obtain ⟨a, -, e⟩ := bind_eq_ok.1 e
  exact h a w e

theorem noJerks_bind {m : Res (Zeb K)} {f : Zeb K → Res (Zeb K)} (hm : NoJerks m)
    (h : ∀ w, (∀ i, w.X.get i = 0) → NoJerks (f w)) : NoJerks (m >>= f) := by
  intro w e
  obtain ⟨a, e1, e⟩ := bind_eq_ok.1 e
  exact h a (hm a e1) w e

variable {w : Zeb K} (h : ∀ i, w.X.get i = 0)
include h

theorem noJerks_const : NoJerks w.computeConstantPart := fun w' e => by
  rw [zComputeConstantPart_X e]; exact h
theorem noJerks_vel : NoJerks w.refreshVel := noJerks_any fun _ => noJerks_pure h
theorem noJerks_pos : NoJerks w.refreshPos := noJerks_any fun _ => noJerks_pure h
theorem noJerks_jerk : NoJerks w.refreshJerk := noJerks_any fun _ => noJerks_pure h
theorem noJerks_tilt : NoJerks w.refreshTilt := noJerks_any fun _ => noJerks_pure h
theorem noJerks_tiltVel : NoJerks w.refreshTiltVel := noJerks_any fun _ => noJerks_pure h
theorem noJerks_cop : NoJerks w.refreshCop := noJerks_any fun _ => noJerks_pure h
theorem noJerks_com : NoJerks w.refreshCom := noJerks_any fun _ => noJerks_pure h
theorem noJerks_copCtr : NoJerks w.refreshCopCtr := noJerks_any fun _ => noJerks_pure h
theorem noJerks_comCtr : NoJerks w.refreshComCtr := noJerks_any fun _ => noJerks_pure h
theorem noJerks_baseCtr : NoJerks w.refreshBaseCtr := noJerks_any fun _ => noJerks_pure h
theorem noJerks_shift : NoJerks w.refreshShift := noJerks_any fun _ => noJerks_pure h
theorem noJerks_tiltCtr (tr : Trig K) : NoJerks (w.refreshTiltCtr tr) := noJerks_any fun _ => noJerks_pure h
theorem noJerks_contact : NoJerks w.updateContact := noJerks_any fun _ => noJerks_any fun _ => noJerks_pure h
end

/-- Follows the refreshes of a setter. -/
local macro "noJerks" : tactic => `(tactic|
  repeat with_reducible first
    | exact noJerks_pure (by assumption)
    | exact noJerks_const (by assumption)
    | exact noJerks_contact (by assumption)
    | refine noJerks_bind (noJerks_vel (by assumption)) fun _ _ => ?_
    | refine noJerks_bind (noJerks_pos (by assumption)) fun _ _ => ?_
    | refine noJerks_bind (noJerks_jerk (by assumption)) fun _ _ => ?_
    | refine noJerks_bind (noJerks_tilt (by assumption)) fun _ _ => ?_
    | refine noJerks_bind (noJerks_tiltVel (by assumption)) fun _ _ => ?_
    | refine noJerks_bind (noJerks_cop (by assumption)) fun _ _ => ?_
    | refine noJerks_bind (noJerks_com (by assumption)) fun _ _ => ?_
    | refine noJerks_bind (noJerks_copCtr (by assumption)) fun _ _ => ?_
    | refine noJerks_bind (noJerks_comCtr (by assumption)) fun _ _ => ?_
    | refine noJerks_bind (noJerks_baseCtr (by assumption)) fun _ _ => ?_
    | refine noJerks_bind (noJerks_shift (by assumption)) fun _ _ => ?_
    | refine noJerks_bind (noJerks_tiltCtr (by assumption) _) fun _ _ => ?_
    | refine noJerks_any fun _ => ?_)

section
variable {K : Type} [Field K] [LinearOrder K] [IsStrictOrderedRing K] [FloorRing K]

theorem noJerks_setNbSamples (w : Zeb K) (tr : Trig K) (n : ℕ) : NoJerks (w.setNbSamples tr n) := by
  unfold Zeb.setNbSamples
  refine noJerks_any fun _ => noJerks_any fun l => noJerks_any fun b => noJerks_any fun c => ?_
  have h : ∀ i, ({ w with lip := l, base := b, comObj := c, dX := Vec.const (4 * n) 0, X := Vec.const (4 * n) 0 } : Zeb K).X.get i = 0 :=
    fun _ => rfl
  noJerks

theorem noJerks_setSamplingPeriod {w : Zeb K} (h : ∀ i, w.X.get i = 0) (tr : Trig K) (T : K) : NoJerks (w.setSamplingPeriod tr T) := by
  unfold Zeb.setSamplingPeriod
  noJerks

theorem noJerks_setGravity {w : Zeb K} (h : ∀ i, w.X.get i = 0) (a b c : K) : NoJerks (w.setGravity a b c) := by
  unfold Zeb.setGravity
  noJerks

theorem noJerks_setCopPolygon {w : Zeb K} (h : ∀ i, w.X.get i = 0) (p : Vec (Pt K)) : NoJerks (w.setCopPolygon p) := by
  unfold Zeb.setCopPolygon
  noJerks

theorem noJerks_setComPolygon {w : Zeb K} (h : ∀ i, w.X.get i = 0) (p : Vec (Pt K)) : NoJerks (w.setComPolygon p) := by
  unfold Zeb.setComPolygon
  noJerks

theorem noJerks_setBodyHeight {w : Zeb K} (h : ∀ i, w.X.get i = 0) (a : K) : NoJerks (w.setBodyHeight a) := by
  unfold Zeb.setBodyHeight
  noJerks

theorem noJerks_setBaseHeight {w : Zeb K} (h : ∀ i, w.X.get i = 0) (a : K) : NoJerks (w.setBaseHeight a) := by
  unfold Zeb.setBaseHeight
  noJerks

theorem noJerks_setBodyMass {w : Zeb K} (h : ∀ i, w.X.get i = 0) (a : K) : NoJerks (w.setBodyMass a) := by
  unfold Zeb.setBodyMass
  noJerks

theorem noJerks_setBaseMass {w : Zeb K} (h : ∀ i, w.X.get i = 0) (a : K) : NoJerks (w.setBaseMass a) := by
  unfold Zeb.setBaseMass
  noJerks

theorem noJerks_setComAndCopRef {w : Zeb K} (h : ∀ i, w.X.get i = 0) (a b c d : Vec K) : NoJerks (w.setComAndCopRef a b c d) := by
  unfold Zeb.setComAndCopRef
  noJerks

theorem zStep_X {w w' : Zeb K} {o : Oracle K} {tr : Trig K} {c : ZebCall K} {b : Bool} (e : w.step o tr c = .ok (b, w'))
    (hc : ∀ fb, c ≠ .solve fb) (h : ∀ i, w.X.get i = 0) : ∀ i, w'.X.get i = 0 := by
  have pair : ∀ {m : Res (Zeb K)}, NoJerks m → (m >>= fun x => pure (true, x)) = .ok (b, w') → ∀ i, w'.X.get i = 0 := by
    intro m hm e
    obtain ⟨x, e1, e⟩ := bind_eq_ok.1 e
    cases e
    exact hm _ e1
  cases c with
  | setNbSamples n => exact pair (noJerks_setNbSamples w tr n) e
  | setSamplingPeriod T => exact pair (noJerks_setSamplingPeriod h tr T) e
  | setGravity a b c => exact pair (noJerks_setGravity h a b c) e
  | setCopPolygon p => exact pair (noJerks_setCopPolygon h p) e
  | setComPolygon p => exact pair (noJerks_setComPolygon h p) e
  | setBodyHeight a => exact pair (noJerks_setBodyHeight h a) e
  | setBaseHeight a => exact pair (noJerks_setBaseHeight h a) e
  | setBodyMass a => exact pair (noJerks_setBodyMass h a) e
  | setBaseMass a => exact pair (noJerks_setBaseMass h a) e
  | setVelRef v => obtain ⟨_, -, e⟩ := bind_eq_ok.1 e; cases e; exact h
  | setPosRef v => obtain ⟨_, -, e⟩ := bind_eq_ok.1 e; cases e; exact h
  | setCopRef v =>
    obtain ⟨_, -, e⟩ := bind_eq_ok.1 e
    obtain ⟨_, -, e⟩ := bind_eq_ok.1 e; cases e; exact h
  | setComRef v =>
    obtain ⟨_, -, e⟩ := bind_eq_ok.1 e
    obtain ⟨_, -, e⟩ := bind_eq_ok.1 e; cases e; exact h
  | setComAndCopRef a b c d => exact pair (noJerks_setComAndCopRef h a b c d) e
  | setVelLimit l => obtain ⟨_, -, e⟩ := bind_eq_ok.1 e; cases e; exact h
  | setAccLimit l => obtain ⟨_, -, e⟩ := bind_eq_ok.1 e; cases e; exact h
  | setJerkLimit l => obtain ⟨_, -, e⟩ := bind_eq_ok.1 e; cases e; exact h
  | setBaseX v => obtain ⟨_, -, e⟩ := bind_eq_ok.1 e; cases e; exact h
  | setBaseY v => obtain ⟨_, -, e⟩ := bind_eq_ok.1 e; cases e; exact h
  | setRoll v => obtain ⟨_, -, e⟩ := bind_eq_ok.1 e; cases e; exact h
  | setPitch v => obtain ⟨_, -, e⟩ := bind_eq_ok.1 e; cases e; exact h
  | setYaw v =>
    obtain ⟨y, -, e⟩ := bind_eq_ok.1 e
    obtain ⟨w1, e1, e⟩ := bind_eq_ok.1 e
    exact pair (noJerks_const (noJerks_tiltCtr (w := { w with base := { w.base with yaw := y } }) h tr w1 e1)) e
  | setComX v => obtain ⟨_, -, e⟩ := bind_eq_ok.1 e; cases e; exact h
  | setComY v => obtain ⟨_, -, e⟩ := bind_eq_ok.1 e; cases e; exact h
  | setContactX p => exact pair (noJerks_contact (w := { w with base := { w.base with dbx := some p } }) h) e
  | setContactY p => exact pair (noJerks_contact (w := { w with base := { w.base with dby := some p } }) h) e
  | setWeightings wt =>
    obtain ⟨_, -, e⟩ := bind_eq_ok.1 e
    obtain ⟨_, -, e⟩ := bind_eq_ok.1 e
    obtain ⟨_, -, e⟩ := bind_eq_ok.1 e
    obtain ⟨_, -, e⟩ := bind_eq_ok.1 e
    obtain ⟨_, -, e⟩ := bind_eq_ok.1 e
    obtain ⟨_, -, e⟩ := bind_eq_ok.1 e
    exact pair (noJerks_const (w := { w with weighting := wt }) h) e
  | setConfig c => exact pair (noJerks_const (w := { w with config := c }) h) e
  | solve fb => exact absurd rfl (hc fb)

theorem zReaches_X {o : Oracle K} {tr : Trig K} {cx cy : K} {cs : List (ZebCall K)} {w : Zeb K} (hw : ZebReaches o tr cx cy cs w)
    (hc : ∀ fb, ZebCall.solve fb ∉ cs) : ∀ i, w.X.get i = 0 := by
  obtain ⟨w0, e0, e⟩ := bind_eq_ok.1 hw
  have h0 := zMake_X e0
  clear hw e0
  induction cs generalizing w0 with
  | nil => cases e; exact h0
  | cons c cs ih =>
    unfold Zeb.run at e
    obtain ⟨⟨b, w1⟩, e1, e⟩ := bind_eq_ok.1 e
    exact ih (fun fb hm => hc fb (List.mem_cons_of_mem _ hm)) w1 e
      (zStep_X e1 (fun fb hf => hc fb (hf ▸ List.mem_cons_self)) h0)
end

/-! ### The feedback -/

/-- Cost of one coordinate with one sample. -/
noncomputable def oneCost (T pr : ℝ) (wt : TrajWeighting ℝ) (x : State3 ℝ) (j : ℝ) : ℝ :=
  wt.velocityTracking * (x.v + x.a * T + j * T ^ 2 / 2) ^ 2
    + wt.positionTracking * (x.p + x.v * T + x.a * T ^ 2 / 2 + j * T ^ 3 / 6 - pr) ^ 2 + wt.jerkMinimization * j ^ 2

/-- The jerk that minimises it. -/
noncomputable def oneJerk (T pr : ℝ) (wt : TrajWeighting ℝ) (x : State3 ℝ) : ℝ :=
  settleJerk (wt.positionTracking * T ^ 6 / 36 / gainSum T wt) (wt.velocityTracking * T ^ 4 / 4 / gainSum T wt) T pr x

variable {T fb pr : ℝ} {wt : TrajWeighting ℝ}

theorem oneCost_min (hT : 0 < T) (hv : 0 ≤ wt.velocityTracking) (hp : 0 ≤ wt.positionTracking) (hj : 0 < wt.jerkMinimization)
    (x : State3 ℝ) (j : ℝ) : oneCost T pr wt x (oneJerk T pr wt x) ≤ oneCost T pr wt x j := by
  have hS0 : 0 < gainSum T wt := by unfold gainSum; positivity
  set J := oneJerk T pr wt x with hJ
  set S := gainSum T wt with hS
  have hSJ : S * J + (wt.positionTracking * T ^ 3 / 6 * (x.p + T * x.v + T ^ 2 / 2 * x.a - pr)
      + wt.velocityTracking * T ^ 2 / 2 * (x.v + T * x.a)) = 0 := by
    rw [hJ]
    unfold oneJerk settleJerk
    rw [← hS]
    have hT' : T ≠ 0 := hT.ne'
    have hS' : S ≠ 0 := hS0.ne'
    clear_value S
    field_simp
    ring
  have e : oneCost T pr wt x j = oneCost T pr wt x J + S * (j - J) ^ 2 := by
    unfold oneCost
    unfold gainSum at hS
    linear_combination 2 * (j - J) * hSJ - (j ^ 2 - J ^ 2) * hS
  rw [e]
  nlinarith [mul_nonneg hS0.le (sq_nonneg (j - J))]

theorem oneJerk_bound (hT : 0 < T) (hv : 0 ≤ wt.velocityTracking) (hp : 0 ≤ wt.positionTracking) (hj : 0 < wt.jerkMinimization)
    {x : State3 ℝ} {e : ℝ} (hn : Spec.NearRest pr e x) : |oneJerk T pr wt x| ≤ (6 / T ^ 3 + 8 / T ^ 2 + 5 / T) * e := by
  have hS0 : 0 < gainSum T wt := by unfold gainSum; positivity
  unfold oneJerk
  set k := wt.positionTracking * T ^ 6 / 36 / gainSum T wt with hk
  set l := wt.velocityTracking * T ^ 4 / 4 / gainSum T wt with hl
  have k0 : 0 ≤ k := by positivity
  have l0 : 0 ≤ l := by positivity
  have k1 : k ≤ 1 := by rw [hk, div_le_one hS0]; unfold gainSum; linarith [show 0 ≤ wt.velocityTracking * T ^ 4 / 4 by positivity]
  have l1 : l ≤ 1 := by rw [hl, div_le_one hS0]; unfold gainSum; linarith [show 0 ≤ wt.positionTracking * T ^ 6 / 36 by positivity]
  obtain ⟨n1, n2, n3⟩ := hn
  unfold settleJerk
  rw [abs_neg]
  have e0 : 0 ≤ e := (abs_nonneg _).trans n1
  have a1 : |x.p + T * x.v + T ^ 2 / 2 * x.a - pr| ≤ e + T * e + T ^ 2 / 2 * e := by
    have : x.p + T * x.v + T ^ 2 / 2 * x.a - pr = (x.p - pr) + T * x.v + T ^ 2 / 2 * x.a := by ring
    rw [this]
    refine (abs_add_le _ _).trans (add_le_add ((abs_add_le _ _).trans (add_le_add n1 ?_)) ?_)
    · rw [abs_mul, abs_of_pos hT]; gcongr
    · rw [abs_mul, abs_of_pos (by positivity)]; gcongr
  have a2 : |x.v + T * x.a| ≤ e + T * e := by
    refine (abs_add_le _ _).trans (add_le_add n2 ?_)
    rw [abs_mul, abs_of_pos hT]; gcongr
  refine (abs_add_le _ _).trans ?_
  rw [abs_mul, abs_mul, abs_mul, abs_mul, abs_of_nonneg k0, abs_of_nonneg l0, abs_of_pos (by positivity : 0 < 6 / T ^ 3),
    abs_of_pos (by positivity : 0 < 2 / T ^ 2)]
  have b1 : 6 / T ^ 3 * k * |x.p + T * x.v + T ^ 2 / 2 * x.a - pr| ≤ 6 / T ^ 3 * 1 * (e + T * e + T ^ 2 / 2 * e) := by gcongr
  have b2 : 2 / T ^ 2 * l * |x.v + T * x.a| ≤ 2 / T ^ 2 * 1 * (e + T * e) := by gcongr
  have b3 : 6 / T ^ 3 * 1 * (e + T * e + T ^ 2 / 2 * e) + 2 / T ^ 2 * 1 * (e + T * e) = (6 / T ^ 3 + 8 / T ^ 2 + 5 / T) * e := by
    field_simp; ring
  linarith

/-- The state after the next call. -/
noncomputable def oneNext (T pr : ℝ) (wt : TrajWeighting ℝ) (fb : ℝ) (x : State3 ℝ) : State3 ℝ := Spec.cubic x (oneJerk T pr wt x) fb

/-- With balanced weights, every motion that starts near the reference stays near it and comes to rest there. -/
theorem one_returns (hT : 0 < T) (hfb : 0 < fb) (hv : 0 ≤ wt.velocityTracking) (hp : 0 < wt.positionTracking)
    (hj : 0 < wt.jerkMinimization) (hb : Spec.BalancedEvery fb T wt) {e : ℝ} (he : 0 < e) :
    ∃ d > 0, ∀ (pr : ℝ) (z : ℕ → State3 ℝ), (∀ n, z (n + 1) = oneNext T pr wt fb (z n)) → Spec.NearRest pr d (z 0) →
      (∀ n, Spec.NearRest pr e (z n)) ∧ Tendsto (fun n => (z n).p) atTop (𝓝 pr) ∧ Tendsto (fun n => (z n).v) atTop (𝓝 0) ∧
        Tendsto (fun n => (z n).a) atTop (𝓝 0) := by
  have hst := (every_shares hT hfb hv hp hj rfl rfl).2 hb
  unfold oneNext oneJerk
  generalize wt.positionTracking * T ^ 6 / 36 / gainSum T wt = k at *
  generalize wt.velocityTracking * T ^ 4 / 4 / gainSum T wt = l at *
  obtain ⟨B, hB0, hret⟩ := triple_returns hst
  set m := min 1 (min fb (fb ^ 2)) with hm
  have hm0 : 0 < m := by rw [hm]; positivity
  set q := e * m / B with hq
  have hq0 : 0 < q := by positivity
  have hBq : B * q = e * m := by rw [hq]; field_simp
  refine ⟨q / (1 + fb + fb ^ 2), by positivity, fun pr z hz hn => ?_⟩
  have hd : ∀ x, |x| ≤ q / (1 + fb + fb ^ 2) → |x| ≤ q ∧ |fb * x| ≤ q ∧ |fb ^ 2 * x| ≤ q := by
    intro x h1
    rw [le_div_iff₀ (by positivity)] at h1
    have h2 : 0 ≤ |x| := abs_nonneg x
    have h3 := mul_nonneg hfb.le h2
    have h4 := mul_nonneg (sq_nonneg fb) h2
    rw [abs_mul, abs_mul, abs_of_pos hfb, abs_of_pos (show 0 < fb ^ 2 by positivity)]
    have h5 : |x| + fb * |x| + fb ^ 2 * |x| ≤ q := by linarith
    refine ⟨?_, ?_, ?_⟩ <;> linarith
  obtain ⟨⟨mp, lp⟩, ⟨mv, lv⟩, ma, la⟩ := hret q _ _ _ (settleEvery_loop hT hz) (hd _ hn.1).1 (hd _ hn.2.1).2.1 (hd _ hn.2.2).2.2
  rw [hBq] at mp mv ma
  refine ⟨fun n => ?_, ?_, ?_, ?_⟩
  · have u1 : e * m ≤ e * 1 := by gcongr; exact min_le_left _ _
    have u2 : e * m ≤ e * fb := by gcongr; exact (min_le_right _ _).trans (min_le_left _ _)
    have u3 : e * m ≤ e * fb ^ 2 := by gcongr; exact (min_le_right _ _).trans (min_le_right _ _)
    refine ⟨by linarith [mp n], ?_, ?_⟩
    · have := (mv n).trans u2
      rw [abs_mul, abs_of_pos hfb, mul_comm e] at this
      exact le_of_mul_le_mul_left this hfb
    · have := (ma n).trans u3
      rw [abs_mul, abs_of_pos (show 0 < fb ^ 2 by positivity), mul_comm e] at this
      exact le_of_mul_le_mul_left this (by positivity)
  · have := lp.add_const pr
    rw [zero_add] at this
    exact this.congr fun n => by ring
  · have := lv.const_mul (1 / fb)
    rw [mul_zero] at this
    exact this.congr fun n => by field_simp
  · have := la.const_mul (1 / fb ^ 2)
    rw [mul_zero] at this
    exact this.congr fun n => by field_simp

/-- With other weights, some motion that starts as near the reference as one likes does not come to rest there. -/
theorem one_leaves (hT : 0 < T) (hfb : 0 < fb) (hv : 0 ≤ wt.velocityTracking) (hp : 0 < wt.positionTracking)
    (hj : 0 < wt.jerkMinimization) (hb : ¬ Spec.BalancedEvery fb T wt) {d : ℝ} (hd : 0 < d) (pr : ℝ) :
    ∃ x, Spec.NearRest pr d x ∧ ∀ z : ℕ → State3 ℝ, z 0 = x → (∀ n, z (n + 1) = oneNext T pr wt fb (z n)) →
      Tendsto (fun n => (z n).p) atTop (𝓝 pr) → Tendsto (fun n => (z n).a) atTop (𝓝 0) → False := by
  rw [← every_shares hT hfb hv hp hj rfl rfl] at hb
  unfold oneNext oneJerk
  generalize wt.positionTracking * T ^ 6 / 36 / gainSum T wt = k at *
  generalize wt.velocityTracking * T ^ 4 / 4 / gainSum T wt = l at *
  obtain ⟨P, V, A, hun⟩ := triple_leaves hb
  set M := 1 + |P| + |V / fb| + |A / fb ^ 2| with hM'
  have hM0 : 0 < M := by positivity
  set s := d / M with hs
  have hs0 : 0 < s := by positivity
  have hsM : s * M = d := by rw [hs]; field_simp
  have small : ∀ a, |a| ≤ M → |s * a| ≤ d := by
    intro a ha
    rw [abs_mul, abs_of_pos hs0, ← hsM]; gcongr
  refine ⟨⟨pr + s * P, s * V / fb, s * A / fb ^ 2⟩, ⟨?_, ?_, ?_⟩, fun z z0 hz lp la => ?_⟩
  · rw [show pr + s * P - pr = s * P by ring]
    exact small _ (by rw [hM']; linarith [abs_nonneg (V / fb), abs_nonneg (A / fb ^ 2)])
  · change |s * V / fb| ≤ d
    rw [mul_div_assoc]
    exact small _ (by rw [hM']; linarith [abs_nonneg P, abs_nonneg (A / fb ^ 2)])
  · change |s * A / fb ^ 2| ≤ d
    rw [mul_div_assoc]
    exact small _ (by rw [hM']; linarith [abs_nonneg P, abs_nonneg (V / fb)])
  refine hun s hs0.ne' _ _ _ (settleEvery_loop (pr := pr) (z := z) hT hz) ?_ ?_ ?_ ?_ ?_
  · rw [z0]; ring
  · rw [z0]; field_simp
  · rw [z0]; field_simp
  · have := lp.sub_const pr
    rwa [sub_self] at this
  · simpa using la.const_mul (fb ^ 2)

/-! ### From the feedback to the calls -/

/-- A positive number small enough for a bound. -/
theorem small_radius {c l : ℝ} (hc : 0 ≤ c) (hl : 0 < l) : ∃ r > 0, ∀ e ≤ r, c * e ≤ l := by
  refine ⟨l / (c + 1), by positivity, fun e he => ?_⟩
  rw [le_div_iff₀ (by positivity)] at he
  by_cases h : 0 ≤ e
  · linarith
  · have := mul_nonneg hc (not_le.1 h |>.le |> neg_nonneg.2)
    linarith

/-- Each call of `solve(fb)` within `R` of the reference, the planned jerks being at most `B`, applies the feedback to the part `q` of
the state. -/
def Feeds (fb : ℝ) (s : Spec.ZebSettings ℝ) (shifts : Set (ℝ × ℝ)) (q : Spec.ZebState ℝ → State3 ℝ × State3 ℝ) (px py T : ℝ)
    (wt : TrajWeighting ℝ) (R B : ℝ) : Prop :=
  ∀ (o : Oracle ℝ) (tr : Trig ℝ) (cx cy : ℝ) (cs : List (ZebCall ℝ)) (w : Zeb ℝ) (e : ℝ), Spec.FindsSolution o →
    ZebReaches o tr cx cy cs w → zebSettingsOf cx cy cs = s → (Spec.ZebSettings.init cx cy).usedShift (0, 0) cs ∈ shifts →
    (∀ i < 4 * s.nbSamples, |w.X.get i| ≤ B) → e ≤ R →
    Spec.NearRest px e (q w.state).1 → Spec.NearRest py e (q w.state).2 →
    ∃ w', ZebReaches o tr cx cy (cs ++ [.solve fb]) w' ∧ (∀ i < 4 * s.nbSamples, |w'.X.get i| ≤ B) ∧
      (q w'.state).1 = oneNext T px wt fb (q w.state).1 ∧ (q w'.state).2 = oneNext T py wt fb (q w.state).2

theorem usedShift_solve (cx cy : ℝ) (cs : List (ZebCall ℝ)) (fb : ℝ) :
    (Spec.ZebSettings.init cx cy).usedShift (0, 0) (cs ++ [.solve fb]) = (Spec.ZebSettings.init cx cy).usedShift (0, 0) cs := by
  rw [usedShift_append]; rfl

theorem replicate_snoc (cs : List (ZebCall ℝ)) (n : ℕ) :
    cs ++ List.replicate n (ZebCall.solve fb) ++ [.solve fb] = cs ++ List.replicate (n + 1) (.solve fb) := by
  rw [List.replicate_succ', List.append_assoc]

variable {R B : ℝ} {s : Spec.ZebSettings ℝ} {shifts : Set (ℝ × ℝ)} {q : Spec.ZebState ℝ → State3 ℝ × State3 ℝ} {px py : ℝ}

theorem feeds_settles (hT : 0 < T) (hfb : 0 < fb) (hv : 0 ≤ wt.velocityTracking) (hp : 0 < wt.positionTracking)
    (hj : 0 < wt.jerkMinimization) (hR : 0 < R) (hB : 0 < B) (hf : Feeds fb s shifts q px py T wt R B) (hb : Spec.BalancedEvery fb T wt) :
    Spec.ZebSettlesEvery fb s shifts q px py := by
  intro e he
  set e' := min e R with he'
  have he0 : 0 < e' := lt_min he hR
  have hG' : e' ≤ R := min_le_right _ _
  obtain ⟨d, hd, hret⟩ := one_returns hT hfb hv hp hj hb he0
  refine ⟨min d B, lt_min hd hB, ?_⟩
  intro o tr cx cy cs w ho hw hs hk hX hnx hny
  have weaken : ∀ {pr a b : ℝ} {x : State3 ℝ}, a ≤ b → Spec.NearRest pr a x → Spec.NearRest pr b x :=
    fun u h => ⟨h.1.trans u, h.2.1.trans u, h.2.2.trans u⟩
  obtain ⟨ax, bx, cx', dx⟩ := hret px (fun n => (oneNext T px wt fb)^[n] (q w.state).1) (fun n => Function.iterate_succ_apply' _ _ _)
    (weaken (min_le_left _ _) hnx)
  obtain ⟨ay, by', cy', dy⟩ := hret py (fun n => (oneNext T py wt fb)^[n] (q w.state).2) (fun n => Function.iterate_succ_apply' _ _ _)
    (weaken (min_le_left _ _) hny)
  have hex : ∀ n, ∃ w', ZebReaches o tr cx cy (cs ++ List.replicate n (.solve fb)) w' ∧
      (q w'.state).1 = (oneNext T px wt fb)^[n] (q w.state).1 ∧ (q w'.state).2 = (oneNext T py wt fb)^[n] (q w.state).2 ∧
      (∀ i < 4 * s.nbSamples, |w'.X.get i| ≤ B) ∧ zebSettingsOf cx cy (cs ++ List.replicate n (.solve fb)) = s ∧
      (Spec.ZebSettings.init cx cy).usedShift (0, 0) (cs ++ List.replicate n (.solve fb)) ∈ shifts := by
    intro n
    induction n with
    | zero => exact ⟨w, by simpa using hw, rfl, rfl, fun i hi => (hX i hi).trans (min_le_right _ _), by simpa using hs, by simpa using hk⟩
    | succ n ih =>
      obtain ⟨w1, q1, q2, q3, q4, q5, q6⟩ := ih
      obtain ⟨w2, p1, p2, p3, p4⟩ := hf o tr cx cy _ w1 e' ho q1 q5 q6 q4 hG' (by rw [q2]; exact ax n) (by rw [q3]; exact ay n)
      rw [replicate_snoc] at p1
      refine ⟨w2, p1, ?_, ?_, p2, ?_, ?_⟩
      · rw [p3, q2, Function.iterate_succ_apply']
      · rw [p4, q3, Function.iterate_succ_apply']
      · rw [← replicate_snoc, zebSettingsOf_solve, q5]
      · rw [← replicate_snoc, usedShift_solve]; exact q6
  choose W hW using hex
  refine ⟨W, fun n => (hW n).1, fun n => ⟨?_, ?_⟩, ⟨?_, ?_, ?_⟩, ?_, ?_, ?_⟩
  · rw [(hW n).2.1]; exact weaken (min_le_left _ _) (ax n)
  · rw [(hW n).2.2.1]; exact weaken (min_le_left _ _) (ay n)
  · exact bx.congr fun n => by rw [(hW n).2.1]
  · exact cx'.congr fun n => by rw [(hW n).2.1]
  · exact dx.congr fun n => by rw [(hW n).2.1]
  · exact by'.congr fun n => by rw [(hW n).2.2.1]
  · exact cy'.congr fun n => by rw [(hW n).2.2.1]
  · exact dy.congr fun n => by rw [(hW n).2.2.1]

/-- The state set by the four setters. -/
def zPlaceCalls (bx by_ cx cy : State3 ℝ) : List (ZebCall ℝ) :=
  [.setBaseX ⟨3, fun i => if i = 0 then bx.p else if i = 1 then bx.v else bx.a⟩,
    .setBaseY ⟨3, fun i => if i = 0 then by_.p else if i = 1 then by_.v else by_.a⟩,
    .setComX ⟨3, fun i => if i = 0 then cx.p else if i = 1 then cx.v else cx.a⟩,
    .setComY ⟨3, fun i => if i = 0 then cy.p else if i = 1 then cy.v else cy.a⟩]

theorem zPlace_run (o : Oracle ℝ) (tr : Trig ℝ) (w : Zeb ℝ) (bx by_ cx cy : State3 ℝ) :
    ∃ w', w.run o tr (zPlaceCalls bx by_ cx cy) = .ok w' ∧ w'.state = ⟨cx, cy, bx, by_⟩ := by
  refine ⟨_, rfl, ?_⟩
  simp [Zeb.state]

theorem feeds_unsettled (hT : 0 < T) (hfb : 0 < fb) (hv : 0 ≤ wt.velocityTracking) (hp : 0 < wt.positionTracking)
    (hj : 0 < wt.jerkMinimization) (hR : 0 < R) (hB : 0 < B) (hf : Feeds fb s shifts q px py T wt R B) {k : ℝ × ℝ} (hk : k ∈ shifts) (hc : Spec.Configured s k)
    (hq : ∀ x y, ∃ z, q z = (x, y)) (hb : ¬ Spec.BalancedEvery fb T wt) : ¬ Spec.ZebSettlesEvery fb s shifts q px py := by
  intro hset
  obtain ⟨d, hd, h⟩ := hset R hR
  obtain ⟨o, ho⟩ := finding_oracle
  obtain ⟨x, nx, hx⟩ := one_leaves hT hfb hv hp hj hb hd px
  obtain ⟨z, hz⟩ := hq x ⟨py, 0, 0⟩
  obtain ⟨cx, cy, cs0, hl, hns, hs0, hk0⟩ := hc
  set tr : Trig ℝ := ⟨fun _ => 0, fun _ => 0⟩
  obtain ⟨w0, hw0⟩ := C54_no_fault_partial o tr cx cy cs0 hl (by
    clear hl hs0 hk0
    generalize Spec.ZebSettings.init cx cy = s0
    induction cs0 generalizing s0 with
    | nil => trivial
    | cons c cs ih =>
      exact ⟨fun fb e => absurd (e ▸ List.mem_cons_self) (hns fb), ih (fun fb hm => hns fb (List.mem_cons_of_mem _ hm)) _⟩)
  obtain ⟨w, hr, hst⟩ := zPlace_run o tr w0 z.bx z.by_ z.cx z.cy
  set cs := cs0 ++ zPlaceCalls z.bx z.by_ z.cx z.cy with hcs
  have hw : ZebReaches o tr cx cy cs w := (zReaches_append hw0).2 hr
  have hs : zebSettingsOf cx cy cs = s := by rw [← hs0, hcs]; unfold zebSettingsOf; rw [after_append]; rfl
  have hk1 : (Spec.ZebSettings.init cx cy).usedShift (0, 0) cs ∈ shifts := by
    rw [hcs, usedShift_append, hk0]; exact hk
  have hX : ∀ i, w.X.get i = 0 := zReaches_X hw (by
    intro fb hm
    rcases List.mem_append.1 hm with hm | hm
    · exact hns fb hm
    · simp [zPlaceCalls] at hm)
  have hqw : q w.state = (x, ⟨py, 0, 0⟩) := by rw [hst]; exact hz
  obtain ⟨W, hW, hn, ⟨lp, -, la⟩, -⟩ := h o tr cx cy cs w ho hw hs hk1 (fun i _ => by rw [hX, abs_zero]; exact hd.le)
    (by rw [hqw]; exact nx) (by rw [hqw]; simp [Spec.NearRest, hd.le])
  have unique : ∀ {cs' : List (ZebCall ℝ)} {w1 w2 : Zeb ℝ}, ZebReaches o tr cx cy cs' w1 → ZebReaches o tr cx cy cs' w2 → w1 = w2 := by
    intro cs' w1 w2 h1 h2
    unfold ZebReaches at h1 h2
    rw [h1] at h2
    exact Except.ok.inj h2
  have e0 : W 0 = w := unique (hW 0) (by simpa using hw)
  have set : ∀ n, zebSettingsOf cx cy (cs ++ List.replicate n (.solve fb)) = s ∧
      (Spec.ZebSettings.init cx cy).usedShift (0, 0) (cs ++ List.replicate n (.solve fb)) ∈ shifts := by
    intro n
    induction n with
    | zero => exact ⟨by simpa using hs, by simpa using hk1⟩
    | succ n ih => rw [← replicate_snoc, zebSettingsOf_solve, usedShift_solve]; exact ih
  have one : ∀ n, (∀ i < 4 * s.nbSamples, |(W n).X.get i| ≤ B) →
      (q (W (n + 1)).state).1 = oneNext T px wt fb (q (W n).state).1 ∧ (∀ i < 4 * s.nbSamples, |(W (n + 1)).X.get i| ≤ B) := by
    intro n h1
    obtain ⟨w2, p1, p2, p3, -⟩ := hf o tr cx cy _ (W n) _ ho (hW n) (set n).1 (set n).2 h1 le_rfl (hn n).1 (hn n).2
    rw [replicate_snoc] at p1
    rw [unique (hW (n + 1)) p1]
    exact ⟨p3, p2⟩
  have follow : ∀ n, ∀ i < 4 * s.nbSamples, |(W n).X.get i| ≤ B := by
    intro n
    induction n with
    | zero => intro i _; rw [e0, hX, abs_zero]; exact hB.le
    | succ n ih => exact (one n ih).2
  exact hx (fun n => (q (W n).state).1) (by rw [e0, hqw]) (fun n => (one n (follow n)).1) lp la

end MPC
