import Verif.Spec.Rounded
import Verif.Lemmas.HumShiftSup
import Verif.Lemmas.SupGrid
import Verif.Lemmas.SupFeet
/-! # Rounded clocks lead to the same walk (C83): the supervisor -/
set_option linter.unusedSectionVars false
namespace MPC
open Spec
variable {K : Type} [Field K] [LinearOrder K]

/-- Supervisor with rounded clocks: error `δ` on stored times, `e` on the remaining time. -/
structure Near (δ e : K) (s s' : Sup K) : Prop where
  N : s'.N = s.N
  M : s'.M = s.M
  move : s'.move = s.move
  T : |s'.T - s.T| ≤ δ
  step : |s'.stepPeriod - s.stepPeriod| ≤ δ
  ds : |s'.dsPeriod - s.dsPeriod| ≤ δ
  ttnp : |s'.ttnp - s.ttnp| ≤ e
  len : s'.timeline.length = s.timeline.length
  tl : ∀ (k : ℕ) (p p' : Phase K), s.timeline[k]? = some p → s'.timeline[k]? = some p' →
    p'.type = p.type ∧ |p'.duration - p.duration| ≤ δ
  kinL : s'.left.kin = s.left.kin
  kinR : s'.right.kin = s.right.kin
  facL : s'.left.HasFactors
  facR : s'.right.HasFactors

section
variable [IsStrictOrderedRing K] {δ e : K} {s s' : Sup K}

theorem Near.get (h : Near δ e s s') {k : ℕ} {p : Phase K} (hp : s.timeline[k]? = some p) :
    ∃ p', s'.timeline[k]? = some p' ∧ p'.type = p.type ∧ |p'.duration - p.duration| ≤ δ := by
  have hk : k < s.timeline.length := by
    by_contra hc
    rw [List.getElem?_eq_none (by omega)] at hp
    cases hp
  have hk' : k < s'.timeline.length := by rw [h.len]; exact hk
  exact ⟨_, List.getElem?_eq_getElem hk', h.tl k p _ hp (List.getElem?_eq_getElem hk')⟩

theorem Near.listAt (h : Near δ e s s') {k : ℕ} {p : Phase K} (hp : listAt s.timeline k = .ok p) :
    ∃ p', MPC.listAt s'.timeline k = .ok p' ∧ p'.type = p.type ∧ |p'.duration - p.duration| ≤ δ := by
  obtain ⟨p', h1, h2⟩ := h.get (listAt_eq_ok.1 hp)
  exact ⟨p', listAt_of_get? h1, h2⟩

theorem listAt_cases (l : List (Phase K)) (k : ℕ) : (∃ p, listAt l k = .ok p) ∨ listAt l k = .error .outOfRange := by
  unfold listAt
  cases l[k]? with
  | none => exact .inr rfl
  | some p => exact .inl ⟨p, rfl⟩

theorem Near.isInDS (h : Near δ e s s') : s'.isInDS = s.isInDS := by
  unfold Sup.isInDS
  rcases listAt_cases s.timeline 0 with ⟨p, hp⟩ | hn
  · obtain ⟨p', h1, h2, -⟩ := h.listAt hp
    rw [hp, h1, ok_bind, ok_bind, h2]
  · rcases listAt_cases s'.timeline 0 with ⟨p', hp'⟩ | hn'
    · have h1 := listAt_eq_ok.1 hp'
      have h2 : 0 < s'.timeline.length := by
        by_contra hc
        rw [List.getElem?_eq_none (by omega)] at h1
        cases h1
      rw [h.len] at h2
      rw [listAt_ok h2] at hn
      cases hn
    · rw [hn, hn']

theorem Near.kinPolygon (h : Near δ e s s') {i : ℕ} {cp : Polygon K} (hc : s.kinPolygon i = .ok cp) :
    s'.kinPolygon i = .ok cp := by
  unfold Sup.kinPolygon at hc ⊢
  rw [h.M, h.isInDS, h.move]
  obtain ⟨u, h1, hc⟩ := bind_eq_ok.1 hc
  obtain ⟨ds, h2, hc⟩ := bind_eq_ok.1 hc
  obtain ⟨p, h3, hc⟩ := bind_eq_ok.1 hc
  obtain ⟨p', h4, h5, -⟩ := h.listAt h3
  rw [h1, ok_bind, h2, ok_bind]
  dsimp only
  rw [h4, ok_bind, h5, h.kinL, h.kinR]
  exact hc

theorem Near.enlarge (h : Near δ e s s') (hN : 0 < s.N) {v v' w : Vec K} (hv : v'.size = v.size)
    (hw : s.enlarge v = .ok w) : ∃ w', s'.enlarge v' = .ok w' ∧ w'.size = w.size := by
  have hsz := Sup.enlarge_size hw
  unfold Sup.enlarge at hw
  obtain ⟨_, h1, hw⟩ := bind_eq_ok.1 hw
  obtain ⟨_, h2, hw⟩ := bind_eq_ok.1 hw
  obtain ⟨_, -, hw⟩ := bind_eq_ok.1 hw
  obtain ⟨_, -, hw⟩ := bind_eq_ok.1 hw
  obtain ⟨cp, h3, hw⟩ := bind_eq_ok.1 hw
  obtain ⟨_, h4, hw⟩ := bind_eq_ok.1 hw
  obtain ⟨_, -, hw⟩ := bind_eq_ok.1 hw
  obtain ⟨ds, h5, hw⟩ := bind_eq_ok.1 hw
  have h1 := require_eq_ok.1 h1
  have h2 := requireIndex_eq_ok.1 h2
  obtain ⟨w', c, e1, -, z, -⟩ := Sup.enlarge_ok (s := s') (var := v') (m := v.size / 2 - s.N) (by rw [h.N]; exact hN)
    (by rw [hv, h.N]; omega) (h.kinPolygon h3) (require_eq_ok.1 h4) (h.isInDS.trans h5)
  exact ⟨w', e1, by rw [z, hsz, h.N]; omega⟩

theorem Near.enlargeLoop (h : Near δ e s s') (hN : 0 < s.N) {v v' w : Vec K} (hv : v'.size = v.size)
    (hw : s.enlargeLoop v = .ok w) : ∃ w', s'.enlargeLoop v' = .ok w' ∧ w'.size = w.size := by
  unfold Sup.enlargeLoop at hw ⊢
  exact whileLoop_rel (cond' := fun v : Vec K => v.size < 2 * s'.N + 2 * s'.M) (body' := s'.enlarge)
    (fun u u' => u'.size = u.size) (fun u u' hu => by rw [hu, h.N, h.M])
    (fun u u' hu _ t ht => h.enlarge hN hu ht) hv hw

theorem Near.trim (h : Near δ e s s') {v v' w : Vec K} (hv : v'.size = v.size)
    (hw : s.trim v = .ok w) : ∃ w', s'.trim v' = .ok w' ∧ w'.size = w.size := by
  unfold Sup.trim at hw ⊢
  rw [h.move, h.N, hv]
  split at hw
  · rename_i hc
    obtain ⟨x, h1, hw⟩ := bind_eq_ok.1 hw
    obtain ⟨y, h2, hw⟩ := bind_eq_ok.1 hw
    cases hw
    have h1 : v.size / 2 + s.N < v.size := (Vec.at?_eq_ok.1 h1).1
    rw [if_pos hc, Vec.at?_ok (by omega), ok_bind, Vec.set?_ok (by omega), ok_bind]
    exact ⟨_, rfl, rfl⟩
  · rename_i hc
    cases hw
    rw [if_neg hc]
    exact ⟨_, rfl, hv⟩

theorem Near.shorten (h : Near δ e s s') {v v' w : Vec K} (hv : v'.size = v.size)
    (hw : s.shorten v = .ok w) : ∃ w', s'.shorten v' = .ok w' ∧ w'.size = w.size := by
  have hw0 := hw
  unfold Sup.shorten at hw
  obtain ⟨_, h1, hw⟩ := bind_eq_ok.1 hw
  obtain ⟨_, h2, hw⟩ := bind_eq_ok.1 hw
  have h1 := require_eq_ok.1 h1
  have h2 := requireIndex_eq_ok.1 h2
  obtain ⟨w', e1, z, -⟩ := Sup.shorten_ok (s := s') (var := v') (m := v.size / 2 - s.N - 1) (by rw [hv, h.N]; omega)
  obtain ⟨w2, e2, z2, -⟩ := Sup.shorten_ok (s := s) (var := v) (m := v.size / 2 - s.N - 1) (by omega)
  rw [hw0] at e2
  cases e2
  exact ⟨w', e1, by rw [z, z2, h.N]⟩

theorem Near.period (h : Near δ e s s') (t : PhaseType) : |s'.period t - s.period t| ≤ δ := by
  cases t
  · exact h.ds
  · exact h.step
  · exact h.step

theorem Near.nextType (h : Near δ e s s') (t : PhaseType) : s'.nextType t = s.nextType t := by
  unfold Sup.nextType; rw [h.move]

theorem Near.nextPhase (h : Near δ e s s') {p p' : Phase K} (hp : p'.type = p.type) :
    (s'.nextPhase p').type = (s.nextPhase p).type ∧ |(s'.nextPhase p').duration - (s.nextPhase p).duration| ≤ δ := by
  unfold Sup.nextPhase
  dsimp only
  rw [hp, h.nextType]
  exact ⟨rfl, h.period _⟩

/-- Timelines that get the same new phase. -/
theorem tl_put {tl tl' : List (Phase K)} {p p' : Phase K} {i : ℕ} (hl : tl'.length = tl.length)
    (h : ∀ (k : ℕ) (p p' : Phase K), tl[k]? = some p → tl'[k]? = some p' → p'.type = p.type ∧ |p'.duration - p.duration| ≤ δ)
    (ht : p'.type = p.type) (hd : |p'.duration - p.duration| ≤ δ) :
    let u := if i = tl.length then tl ++ [p] else tl.set i p
    let u' := if i = tl'.length then tl' ++ [p'] else tl'.set i p'
    u'.length = u.length ∧ ∀ (k : ℕ) (q q' : Phase K), u[k]? = some q → u'[k]? = some q' →
      q'.type = q.type ∧ |q'.duration - q.duration| ≤ δ := by
  intro u u'
  by_cases hi : i = tl.length
  · have e1 : u = tl ++ [p] := if_pos hi
    have e2 : u' = tl' ++ [p'] := if_pos (by omega)
    rw [e1, e2]
    refine ⟨by simp [hl], fun k q q' h1 h2 => ?_⟩
    by_cases hk : k < tl.length
    · rw [List.getElem?_append_left hk] at h1
      rw [List.getElem?_append_left (by omega)] at h2
      exact h k q q' h1 h2
    · rw [List.getElem?_append_right (by omega)] at h1
      rw [List.getElem?_append_right (by omega), hl] at h2
      obtain hz | hz : k - tl.length = 0 ∨ 0 < k - tl.length := by omega
      · rw [hz] at h1 h2
        cases h1; cases h2
        exact ⟨ht, hd⟩
      · rw [List.getElem?_eq_none (by simp; omega)] at h1
        cases h1
  · have e1 : u = tl.set i p := if_neg hi
    have e2 : u' = tl'.set i p' := if_neg (by omega)
    rw [e1, e2]
    refine ⟨by simp [hl], fun k q q' h1 h2 => ?_⟩
    rw [List.getElem?_set] at h1 h2
    split at h1
    · rename_i hik
      rw [if_pos hik] at h2
      split at h1 <;> split at h2 <;> cases h1 <;> cases h2
      exact ⟨ht, hd⟩
    · rename_i hik
      rw [if_neg hik] at h2
      exact h k q q' h1 h2

end

/-! ### Comparisons -/
section
variable [IsStrictOrderedRing K]

/-- Bounds derived from `FineClock`: the sampling period lasts `n` control periods. -/
structure Fine (c : Clock K) (fb δ : K) (Q N n : ℕ) : Prop where
  N0 : 1 ≤ N
  n0 : 1 ≤ n
  fb2 : 2 * EPS ≤ fb
  δ0 : 0 ≤ δ
  eps : |c.eps - EPS| ≤ δ
  rnd : ∀ x, |x| ≤ 1 + 2 * N * (n * fb) + Q * fb → |c.rnd x - x| ≤ δ
  small : (3 * Q + 3 * N + 12) * δ < EPS

theorem cmp_above {x θ fb E D : K} {z m : ℤ} (hx : |x - z * fb| ≤ E) (hθ : |θ - (m * fb + EPS)| ≤ D)
    (hE : E + D < EPS) (hfb : 2 * EPS ≤ fb) : (x < θ ↔ z ≤ m) ∧ (θ < x ↔ m + 1 ≤ z) := by
  have hE0 : (0 : K) < EPS := EPS_pos
  rw [abs_le] at hx hθ
  by_cases h : z ≤ m
  · have h1 : (z : K) ≤ m := by exact_mod_cast h
    have h2 : (z : K) * fb ≤ m * fb := mul_le_mul_of_nonneg_right h1 (by linarith)
    exact ⟨⟨fun _ => h, fun _ => by linarith⟩, ⟨fun h3 => by linarith, fun h3 => by omega⟩⟩
  · have h1 : (m : K) + 1 ≤ z := by exact_mod_cast (by omega : m + 1 ≤ z)
    have h2 : ((m : K) + 1) * fb ≤ z * fb := mul_le_mul_of_nonneg_right h1 (by linarith)
    exact ⟨⟨fun h3 => by linarith, fun h3 => absurd h3 h⟩, ⟨fun _ => by omega, fun _ => by linarith⟩⟩

theorem cmp_below {x θ fb E D : K} {z : ℤ} (hx : |x - z * fb| ≤ E) (hθ : |θ - (-EPS)| ≤ D)
    (hE : E + D < EPS) (hfb : 2 * EPS ≤ fb) : θ < x ↔ 0 ≤ z := by
  have hE0 : (0 : K) < EPS := EPS_pos
  rw [abs_le] at hx hθ
  by_cases h : 0 ≤ z
  · have h1 : (0 : K) ≤ z := by exact_mod_cast h
    have h2 : 0 ≤ (z : K) * fb := mul_nonneg h1 (by linarith)
    exact ⟨fun _ => h, fun _ => by linarith⟩
  · have h1 : (z : K) ≤ -1 := by exact_mod_cast (by omega : z ≤ -1)
    have h2 : (z : K) * fb ≤ -1 * fb := mul_le_mul_of_nonneg_right h1 (by linarith)
    exact ⟨fun h3 => by linarith, fun h3 => absurd h3 h⟩

variable {c : Clock K} {fb δ : K} {Q N n : ℕ}

theorem Fine.fb0 (h : Fine c fb δ Q N n) : 0 < fb := by
  have := h.fb2; have : (0 : K) < EPS := EPS_pos; linarith

/-- A sum of at most `3 Q + 3 N + 12` errors is below `EPS`. -/
theorem Fine.sum (h : Fine c fb δ Q N n) {j : ℕ} (hj : j ≤ 3 * Q + 3 * N + 12) : (j : K) * δ < EPS := by
  have h1 : (j : K) ≤ 3 * Q + 3 * N + 12 := by exact_mod_cast hj
  exact lt_of_le_of_lt (mul_le_mul_of_nonneg_right h1 h.δ0) h.small

/-- Rounding of a time `y` that is close to a multiple of the control period. -/
theorem Fine.round (h : Fine c fb δ Q N n) {y E : K} {w : ℤ} (hy : |y - w * fb| ≤ E) (hE : E < EPS)
    (hw : |w| ≤ 2 * N * n + Q) : |c.rnd y - w * fb| ≤ E + δ := by
  have h0 := h.fb0
  have h1 : |y| ≤ 1 + 2 * N * (n * fb) + Q * fb := by
    have h2 : |(w : K)| ≤ 2 * N * n + Q := by
      rw [← Int.cast_abs]; exact_mod_cast hw
    have h3 : |(w : K) * fb| ≤ (2 * N * n + Q) * fb := by
      rw [abs_mul, abs_of_pos h0]; exact mul_le_mul_of_nonneg_right h2 h0.le
    have h4 : |y| ≤ |y - w * fb| + |(w : K) * fb| := by
      have := abs_add_le (y - w * fb) (w * fb); rwa [sub_add_cancel] at this
    have h5 : (EPS : K) < 1 := EPS_lt_one
    calc |y| ≤ E + (2 * N * n + Q) * fb := by linarith
      _ ≤ _ := by nlinarith
  have h2 := h.rnd y h1
  have h3 : |c.rnd y - w * fb| ≤ |c.rnd y - y| + |y - w * fb| := by
    have := abs_add_le (c.rnd y - y) (y - w * fb); rwa [sub_add_sub_cancel] at this
  linarith

/-- One decrement of a timer. -/
theorem Fine.tick (h : Fine c fb δ Q N n) {x T E : K} {z m w : ℤ} (hx : |x - z * fb| ≤ E) (hT : |T - m * fb| ≤ δ)
    (hE : E + δ < EPS) (e : w = z - m) (hw : |w| ≤ 2 * N * n + Q) : |c.rnd (x - T) - w * fb| ≤ E + 2 * δ := by
  have h1 : |x - T - w * fb| ≤ E + δ := by
    rw [e]
    push_cast
    rw [show x - T - ((z : K) - m) * fb = (x - z * fb) - (T - m * fb) by ring]
    exact (abs_sub _ _).trans (by linarith)
  have := h.round h1 hE hw
  linarith

end

end MPC
