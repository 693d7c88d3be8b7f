import Verif.Lemmas.Recede
import Mathlib.Topology.Algebra.Order.LiminfLimsup
import Mathlib.Topology.Order.MonotoneConvergence
import Mathlib.Topology.Instances.Real.Lemmas
import Mathlib.Analysis.Real.Sqrt
/-! The optimal first jerk of velocity tracking, for every horizon (C80). -/
set_option linter.unusedSectionVars false
namespace MPC
open Finset

variable {K : Type} [Field K] [LinearOrder K] [IsStrictOrderedRing K]

/-- A quadratic form `a e² + 2 b e f + c f²`. -/
structure Quad (K : Type) where
  a : K
  b : K
  c : K

namespace Quad

def eval (q : Quad K) (e f : K) : K := q.a * e ^ 2 + 2 * q.b * e * f + q.c * f ^ 2

/-- `r` plus the form at `(T²/2, T)`. -/
def den (T r : K) (q : Quad K) : K := r + q.a * T ^ 4 / 4 + q.b * T ^ 3 + q.c * T ^ 2
def b1 (T : K) (q : Quad K) : K := q.a * T ^ 2 / 2 + q.b * T
def b2 (T : K) (q : Quad K) : K := q.a * T ^ 3 / 2 + 3 / 2 * q.b * T ^ 2 + q.c * T

/-- One step of the Riccati recursion. -/
def back (T r : K) (q : Quad K) : Quad K where
  a := q.a - q.b1 T ^ 2 / q.den T r
  b := q.a * T + q.b - q.b1 T * q.b2 T / q.den T r
  c := q.a * T ^ 2 + 2 * q.b * T + q.c - q.b2 T ^ 2 / q.den T r

/-- Positive semidefinite with a cross term that is not negative. -/
structure Good (q : Quad K) : Prop where
  a : 0 ≤ q.a
  b : 0 ≤ q.b
  c : 0 ≤ q.c
  det : 0 ≤ q.a * q.c - q.b ^ 2

def addV (q : Quad K) (w : K) : Quad K := ⟨q.a + w, q.b, q.c⟩

theorem Good.addV {q : Quad K} (h : q.Good) {w : K} (hw : 0 ≤ w) : (q.addV w).Good where
  a := add_nonneg h.a hw
  b := h.b
  c := h.c
  det := by
    have := h.det
    have := mul_nonneg hw h.c
    simp only [Quad.addV]; nlinarith

theorem Good.den_pos {q : Quad K} (h : q.Good) {T r : K} (hT : 0 < T) (hr : 0 < r) : 0 < q.den T r := by
  have := h.a; have := h.b; have := h.c
  unfold den; positivity

theorem Good.back {q : Quad K} (h : q.Good) {T r : K} (hT : 0 < T) (hr : 0 < r) : (q.back T r).Good := by
  have hD := h.den_pos hT hr
  have h0 := h.det
  have ha := h.a; have hb := h.b; have hc := h.c
  refine ⟨?_, ?_, ?_, ?_⟩
  · have e : (q.back T r).a = (q.a * r + T ^ 2 * (q.a * q.c - q.b ^ 2)) / q.den T r := by
      simp only [Quad.back]; field_simp; unfold den b1; ring
    rw [e]; positivity
  · have e : (q.back T r).b = (r * (q.a * T + q.b) + T ^ 3 / 2 * (q.a * q.c - q.b ^ 2)) / q.den T r := by
      simp only [Quad.back]; field_simp; unfold den b1 b2; ring
    rw [e]; positivity
  · have e : (q.back T r).c = (r * (q.a * T ^ 2 + 2 * q.b * T + q.c) + T ^ 4 / 4 * (q.a * q.c - q.b ^ 2)) / q.den T r := by
      simp only [Quad.back]; field_simp; unfold den b2; ring
    rw [e]; positivity
  · have e : (q.back T r).a * (q.back T r).c - (q.back T r).b ^ 2 = r * (q.a * q.c - q.b ^ 2) / q.den T r := by
      simp only [Quad.back]; field_simp; unfold den b1 b2; ring
    rw [e]; positivity

/-- Completing the square. -/
theorem back_eval {q : Quad K} {T r : K} (hD : q.den T r ≠ 0) (e f j : K) :
    r * j ^ 2 + q.eval (e + f * T + j * T ^ 2 / 2) (f + j * T)
      = (q.back T r).eval e f + q.den T r * (j + (q.b1 T / q.den T r * e + q.b2 T / q.den T r * f)) ^ 2 := by
  simp only [Quad.back, eval]
  field_simp
  unfold den b1 b2
  ring

end Quad

/-- Cost to go of velocity tracking with weights `w`, `r` after `n` samples. -/
def cGo (T w r : K) : ℕ → Quad K
  | 0 => ⟨0, 0, 0⟩
  | n + 1 => ((cGo T w r n).addV w).back T r

theorem cGo_good {T w r : K} (hT : 0 < T) (hw : 0 < w) (hr : 0 < r) (n : ℕ) : (cGo T w r n).Good := by
  induction n with
  | zero => exact ⟨le_rfl, le_rfl, le_rfl, by simp [cGo]⟩
  | succ n ih => exact (ih.addV hw.le).back hT hr

/-- Gains of the first jerk for a horizon of `n + 1` samples. -/
def gain1 (T w r : K) (n : ℕ) : K := ((cGo T w r n).addV w).b1 T / ((cGo T w r n).addV w).den T r
def gain2 (T w r : K) (n : ℕ) : K := ((cGo T w r n).addV w).b2 T / ((cGo T w r n).addV w).den T r

theorem gains {T w r : K} (hT : 0 < T) (hw : 0 < w) (hr : 0 < r) (n : ℕ) :
    0 < gain1 T w r n ∧ gain1 T w r n * T / 2 < gain2 T w r n ∧ gain2 T w r n * T < 2 := by
  have g := (cGo_good hT hw hr n).addV hw.le
  have hD := g.den_pos hT hr
  have ha : 0 < ((cGo T w r n).addV w).a := add_pos_of_nonneg_of_pos (cGo_good hT hw hr n).a hw
  have hb := g.b; have hc := g.c
  unfold gain1 gain2
  refine ⟨?_, ?_, ?_⟩
  · unfold Quad.b1; positivity
  · rw [div_mul_eq_mul_div, div_div, mul_comm (Quad.den _ _ _) (2 : K), ← div_div, div_lt_div_iff_of_pos_right hD]
    unfold Quad.b1 Quad.b2
    have : 0 < ((cGo T w r n).addV w).a * T ^ 3 / 4 := by positivity
    have : 0 ≤ ((cGo T w r n).addV w).b * T ^ 2 := by positivity
    have : 0 ≤ ((cGo T w r n).addV w).c * T := by positivity
    nlinarith
  · rw [div_mul_eq_mul_div, div_lt_iff₀ hD]
    unfold Quad.b2 Quad.den
    have : 0 ≤ ((cGo T w r n).addV w).b * T ^ 3 := by positivity
    have : 0 ≤ ((cGo T w r n).addV w).c * T ^ 2 := by positivity
    nlinarith

/-- The cost of velocity tracking over `n` samples. -/
def velCost (T w r vr : K) (n : ℕ) (x : State3 K) (J : ℕ → K) : K :=
  ∑ i ∈ range n, (w * ((Spec.jerkTrajectory T T x J i).v - vr) ^ 2 + r * J i ^ 2)

theorem velCost_succ (T w r vr : K) (n : ℕ) (x : State3 K) (J : ℕ → K) :
    velCost T w r vr (n + 1) x J = w * ((Spec.cubic x (J 0) T).v - vr) ^ 2 + r * J 0 ^ 2
      + velCost T w r vr n (Spec.cubic x (J 0) T) (fun k => J (k + 1)) := by
  unfold velCost
  rw [sum_range_succ', add_comm]
  congr 1
  refine sum_congr rfl fun i _ => ?_
  rw [jerkTrajectory_tail]

theorem velCost_ge {T w r : K} (hT : 0 < T) (hw : 0 < w) (hr : 0 < r) (vr : K) (n : ℕ) (x : State3 K) (J : ℕ → K) :
    (cGo T w r n).eval (x.v - vr) x.a ≤ velCost T w r vr n x J := by
  induction n generalizing x J with
  | zero => simp [cGo, Quad.eval, velCost]
  | succ n ih =>
    have g := (cGo_good hT hw hr n).addV hw.le
    have hD := g.den_pos hT hr
    rw [velCost_succ]
    have h1 := ih (Spec.cubic x (J 0) T) (fun k => J (k + 1))
    have h2 := Quad.back_eval hD.ne' (x.v - vr) x.a (J 0)
    have h3 : ((cGo T w r n).addV w).eval (x.v - vr + x.a * T + J 0 * T ^ 2 / 2) (x.a + J 0 * T)
        = w * ((Spec.cubic x (J 0) T).v - vr) ^ 2
          + (cGo T w r n).eval ((Spec.cubic x (J 0) T).v - vr) (Spec.cubic x (J 0) T).a := by
      simp only [Quad.eval, Quad.addV, Spec.cubic]; ring
    have h4 := mul_nonneg hD.le (sq_nonneg (J 0 + (((cGo T w r n).addV w).b1 T / ((cGo T w r n).addV w).den T r * (x.v - vr)
      + ((cGo T w r n).addV w).b2 T / ((cGo T w r n).addV w).den T r * x.a)))
    rw [h3] at h2
    show (((cGo T w r n).addV w).back T r).eval _ _ ≤ _
    linarith

/-- The optimal jerks, with their size. -/
theorem velCost_attained {T w r : K} (hT : 0 < T) (hw : 0 < w) (hr : 0 < r) (vr : K) (n : ℕ) :
    ∃ L : K, 0 ≤ L ∧ ∀ x : State3 K, ∃ J : ℕ → K,
      velCost T w r vr n x J = (cGo T w r n).eval (x.v - vr) x.a ∧
      (∀ m, n = m + 1 → J 0 = -(gain1 T w r m * (x.v - vr) + gain2 T w r m * x.a)) ∧
      ∀ i < n, |J i| ≤ L * (|x.v - vr| + |x.a|) := by
  induction n with
  | zero => exact ⟨0, le_rfl, fun x => ⟨fun _ => 0, by simp [cGo, Quad.eval, velCost], by simp, by simp⟩⟩
  | succ n ih =>
    obtain ⟨L, hL, h⟩ := ih
    have g := (cGo_good hT hw hr n).addV hw.le
    have hD := g.den_pos hT hr
    set G : K := |gain1 T w r n| + |gain2 T w r n| with hG
    have hG0 : 0 ≤ G := by positivity
    refine ⟨G + L * (1 + T + G * (T ^ 2 / 2 + T)), by positivity, fun x => ?_⟩
    set j : K := -(gain1 T w r n * (x.v - vr) + gain2 T w r n * x.a) with hj
    obtain ⟨J, e, -, hJ⟩ := h (Spec.cubic x j T)
    have hjb : |j| ≤ G * (|x.v - vr| + |x.a|) := by
      rw [hj, abs_neg]
      refine (abs_add_le _ _).trans ?_
      rw [abs_mul, abs_mul, hG]
      nlinarith [abs_nonneg (gain1 T w r n), abs_nonneg (gain2 T w r n), abs_nonneg (x.v - vr), abs_nonneg x.a,
        mul_nonneg (abs_nonneg (gain1 T w r n)) (abs_nonneg x.a), mul_nonneg (abs_nonneg (gain2 T w r n)) (abs_nonneg (x.v - vr))]
    set S : K := |x.v - vr| + |x.a| with hS
    have hS0 : 0 ≤ S := by positivity
    refine ⟨fun i => if i = 0 then j else J (i - 1), ?_, ?_, ?_⟩
    · rw [velCost_succ]
      have e1 : (fun k => (fun i => if i = 0 then j else J (i - 1)) (k + 1)) = J := by funext k; simp
      rw [e1]
      simp only [if_true]
      rw [e]
      have h2 := Quad.back_eval hD.ne' (x.v - vr) x.a j
      have h3 : ((cGo T w r n).addV w).eval (x.v - vr + x.a * T + j * T ^ 2 / 2) (x.a + j * T)
          = w * ((Spec.cubic x j T).v - vr) ^ 2
            + (cGo T w r n).eval ((Spec.cubic x j T).v - vr) (Spec.cubic x j T).a := by
        simp only [Quad.eval, Quad.addV, Spec.cubic]; ring
      have h4 : j + (((cGo T w r n).addV w).b1 T / ((cGo T w r n).addV w).den T r * (x.v - vr)
          + ((cGo T w r n).addV w).b2 T / ((cGo T w r n).addV w).den T r * x.a) = 0 := by
        rw [hj]; unfold gain1 gain2; ring
      rw [h3, h4] at h2
      show _ = (((cGo T w r n).addV w).back T r).eval _ _
      linarith
    · intro m hm
      obtain rfl : n = m := by omega
      simp [hj]
    · intro i hi
      rcases Nat.eq_zero_or_pos i with rfl | hi0
      · simp only [if_true]
        refine hjb.trans ?_
        have : 0 ≤ L * (1 + T + G * (T ^ 2 / 2 + T)) * S := by positivity
        nlinarith
      · simp only [Nat.pos_iff_ne_zero.1 hi0, if_false]
        have h1 := hJ (i - 1) (by omega)
        have h2 : |(Spec.cubic x j T).v - vr| ≤ |x.v - vr| + |x.a| * T + |j| * (T ^ 2 / 2) := by
          have : (Spec.cubic x j T).v - vr = (x.v - vr) + x.a * T + j * (T ^ 2 / 2) := by simp only [Spec.cubic]; ring
          rw [this]
          refine (abs_add_le _ _).trans ?_
          rw [abs_mul j, abs_of_nonneg (show (0 : K) ≤ T ^ 2 / 2 by positivity)]
          gcongr
          refine (abs_add_le _ _).trans ?_
          rw [abs_mul, abs_of_pos hT]
        have h3 : |(Spec.cubic x j T).a| ≤ |x.a| + |j| * T := by
          simp only [Spec.cubic]
          refine (abs_add_le _ _).trans ?_
          rw [abs_mul, abs_of_pos hT]
        have h4 : |(Spec.cubic x j T).v - vr| + |(Spec.cubic x j T).a| ≤ (1 + T + G * (T ^ 2 / 2 + T)) * S := by
          have h5 : |j| * (T ^ 2 / 2 + T) ≤ G * S * (T ^ 2 / 2 + T) := by gcongr
          have h6 : |x.a| * T ≤ S * T := by
            have : |x.a| ≤ S := by rw [hS]; linarith [abs_nonneg (x.v - vr)]
            gcongr
          nlinarith
        refine h1.trans ?_
        have h7 := mul_le_mul_of_nonneg_left h4 hL
        have : 0 ≤ G * S := by positivity
        nlinarith

/-! ### A second order recurrence -/

section
variable {y : ℕ → K} {t d : K}

/-- The Lyapunov function of `y (n+2) = t y (n+1) - d y n`. -/
def lyap (t d : K) (y : ℕ → K) (n : ℕ) : K :=
  y (n + 1) ^ 2 + y n ^ 2 - 2 * (t / (1 + d)) * y (n + 1) * y n

theorem lyap_succ (hd : 1 + d ≠ 0) (hy : ∀ n, y (n + 2) = t * y (n + 1) - d * y n) (n : ℕ) :
    lyap t d y (n + 1) = lyap t d y n - (1 - d ^ 2) * (y n - t / (1 + d) * y (n + 1)) ^ 2 := by
  unfold lyap
  rw [hy n]
  field_simp
  ring

theorem lyap_eq (n : ℕ) :
    lyap t d y n = (y n - t / (1 + d) * y (n + 1)) ^ 2 + (1 - (t / (1 + d)) ^ 2) * y (n + 1) ^ 2 := by
  unfold lyap; ring

theorem lyap_eq' (n : ℕ) :
    lyap t d y n = (y (n + 1) - t / (1 + d) * y n) ^ 2 + (1 - (t / (1 + d)) ^ 2) * y n ^ 2 := by
  unfold lyap; ring

theorem ratio_lt (h : |t| < 1 + d) : |t / (1 + d)| < 1 := by
  have hd : 0 < 1 + d := lt_of_le_of_lt (abs_nonneg t) h
  rw [abs_div, abs_of_pos hd, div_lt_one hd]; exact h

theorem ratio_sq (h : |t| < 1 + d) : 0 < 1 - (t / (1 + d)) ^ 2 := by
  have := (sq_lt_one_iff_abs_lt_one _).2 (ratio_lt h)
  linarith

theorem lyap_anti (h : |t| < 1 + d) (hd : d < 1) (hy : ∀ n, y (n + 2) = t * y (n + 1) - d * y n) :
    Antitone (lyap t d y) := by
  have hd' : 0 < 1 + d := lt_of_le_of_lt (abs_nonneg t) h
  refine antitone_nat_of_succ_le fun n => ?_
  rw [lyap_succ hd'.ne' hy]
  have : 0 ≤ (1 - d ^ 2) * (y n - t / (1 + d) * y (n + 1)) ^ 2 :=
    mul_nonneg (by nlinarith) (sq_nonneg _)
  linarith

theorem recurrence_bounded (h : |t| < 1 + d) (hd : d < 1) (hy : ∀ n, y (n + 2) = t * y (n + 1) - d * y n) (n : ℕ) :
    |y n| ≤ (|y 0| + |y 1|) / (1 - (t / (1 + d)) ^ 2) := by
  set c := 1 - (t / (1 + d)) ^ 2 with hc
  have hc0 : 0 < c := ratio_sq h
  have hc1 : c ≤ 1 := by rw [hc]; linarith [sq_nonneg (t / (1 + d))]
  have h1 : c * y n ^ 2 ≤ lyap t d y 0 := by
    refine le_trans ?_ (lyap_anti h hd hy (Nat.zero_le n))
    rw [lyap_eq']; linarith [sq_nonneg (y (n + 1) - t / (1 + d) * y n)]
  have h2 : lyap t d y 0 ≤ (|y 0| + |y 1|) ^ 2 := by
    unfold lyap
    have h3 : |t / (1 + d) * (y 1 * y 0)| ≤ |y 1| * |y 0| := by
      rw [abs_mul, abs_mul]
      have := (ratio_lt h).le
      have h4 : 0 ≤ |y 1| * |y 0| := by positivity
      nlinarith
    have h5 := neg_le_of_abs_le h3
    have := sq_abs (y 0); have := sq_abs (y 1)
    simp only [zero_add]
    nlinarith
  rw [le_div_iff₀ hc0]
  have hs : 0 ≤ |y 0| + |y 1| := by positivity
  refine abs_le_of_sq_le_sq' ?_ hs |>.2
  rw [mul_pow, sq_abs]
  have : c * (c * y n ^ 2) ≤ 1 * (|y 0| + |y 1|) ^ 2 := by
    have h6 := h1.trans h2
    have : 0 ≤ c * y n ^ 2 := by positivity
    nlinarith
  linarith

end

open Filter Topology in
theorem recurrence_tendsto {y : ℕ → ℝ} {t d : ℝ} (h : |t| < 1 + d) (hd : d < 1)
    (hy : ∀ n, y (n + 2) = t * y (n + 1) - d * y n) : Tendsto y atTop (𝓝 0) := by
  have hd' : 0 < 1 + d := lt_of_le_of_lt (abs_nonneg t) h
  have hc := ratio_sq h
  have hα := ratio_lt h
  have ha := lyap_anti h hd hy
  have hb : BddBelow (Set.range (lyap t d y)) := by
    refine ⟨0, ?_⟩
    rintro _ ⟨n, rfl⟩
    rw [lyap_eq']
    have := mul_nonneg hc.le (sq_nonneg (y n))
    have := sq_nonneg (y (n + 1) - t / (1 + d) * y n)
    linarith
  have hV := tendsto_atTop_ciInf ha hb
  set V := ⨅ i, lyap t d y i
  have hd2 : 0 < 1 - d ^ 2 := by nlinarith
  -- the dissipated part vanishes
  have hδ : Tendsto (fun n => (y n - t / (1 + d) * y (n + 1)) ^ 2) atTop (𝓝 0) := by
    have h1 : Tendsto (fun n => (lyap t d y n - lyap t d y (n + 1)) / (1 - d ^ 2)) atTop (𝓝 ((V - V) / (1 - d ^ 2))) :=
      (hV.sub (hV.comp (tendsto_add_atTop_nat 1))).div_const _
    rw [sub_self, zero_div] at h1
    refine h1.congr fun n => ?_
    rw [lyap_succ hd'.ne' hy]
    field_simp
    ring
  -- so the squares converge
  have hsq : Tendsto (fun n => y (n + 1) ^ 2) atTop (𝓝 (V / (1 - (t / (1 + d)) ^ 2))) := by
    have h1 := (hV.sub hδ).div_const (1 - (t / (1 + d)) ^ 2)
    rw [sub_zero] at h1
    refine h1.congr fun n => ?_
    rw [lyap_eq]
    rw [add_sub_cancel_left, mul_div_assoc, mul_comm, div_mul_cancel₀ _ hc.ne']
  have habs : Tendsto (fun n => |y (n + 1)|) atTop (𝓝 (√(V / (1 - (t / (1 + d)) ^ 2)))) := by
    have := hsq.sqrt
    simpa only [Real.sqrt_sq_eq_abs] using this
  set m := √(V / (1 - (t / (1 + d)) ^ 2))
  have hm0 : 0 ≤ m := Real.sqrt_nonneg _
  have habs0 : Tendsto (fun n => |y n|) atTop (𝓝 m) := (tendsto_add_atTop_iff_nat 1).1 habs
  have hδ' : Tendsto (fun n => |y n - t / (1 + d) * y (n + 1)|) atTop (𝓝 0) := by
    have := hδ.sqrt
    simpa only [Real.sqrt_sq_eq_abs, Real.sqrt_zero] using this
  have hle : m - |t / (1 + d)| * m ≤ 0 := by
    refine le_of_tendsto_of_tendsto' (habs0.sub (habs.const_mul _)) hδ' fun n => ?_
    have := abs_sub_abs_le_abs_sub (y n) (t / (1 + d) * y (n + 1))
    rwa [abs_mul] at this
  have hm : m = 0 := by nlinarith
  rw [hm] at habs0
  exact (tendsto_zero_iff_abs_tendsto_zero _).2 habs0

end MPC
