import Verif.Lemmas.RoundedCycle
/-! # Rounded clocks lead to the same walk (C83): feet, histories -/
set_option linter.unusedSectionVars false
namespace MPC
open Spec
variable {K : Type} [Field K] [LinearOrder K] [IsStrictOrderedRing K]
variable {c : Clock K} {fb δ : K} {Q N n : ℕ}

/-- `updateFeetStates` changes the feet, the remaining time and the footsteps. -/
theorem Sup.updateFeet_eq {s s' : Sup K} {sv : Vec K} {p : K} (h : s.updateFeetStates sv p = .ok s') :
    ∃ L R, s' = { s with stepVec := sv, left := L, right := R, ttnp := s.ttnp - p } := by
  unfold Sup.updateFeetStates at h
  obtain ⟨f, -, h⟩ := bind_eq_ok.1 h
  obtain ⟨ds, -, h⟩ := bind_eq_ok.1 h
  dsimp only at h
  split at h
  · cases hty : f.type with
    | DS => rw [hty] at h; simp at h
    | leftSS =>
      rw [hty] at h
      obtain ⟨_, -, h⟩ := bind_eq_ok.1 h
      obtain ⟨_, -, h⟩ := bind_eq_ok.1 h
      obtain ⟨g, -, h⟩ := bind_eq_ok.1 h
      cases h
      exact ⟨_, _, rfl⟩
    | rightSS =>
      rw [hty] at h
      obtain ⟨_, -, h⟩ := bind_eq_ok.1 h
      obtain ⟨_, -, h⟩ := bind_eq_ok.1 h
      obtain ⟨g, -, h⟩ := bind_eq_ok.1 h
      cases h
      exact ⟨_, _, rfl⟩
  · cases h
    exact ⟨_, _, rfl⟩

theorem Foot.flyR_ok {f : Foot K} (hf : f.HasFactors) (tx ty F : K) {R : K} (hR : R ≠ 0) (p : K)
    (hz : ¬ R < c.rnd (c.rnd (F / 2) + c.eps) → c.rnd (R - c.rnd (F / 2)) ≠ 0) :
    ∃ g, f.flyR c tx ty F R p = .ok g ∧ g.HasFactors ∧ g.kin = f.kin := by
  obtain ⟨x, hx, sx, -⟩ := interpolateTrajectory_ok f.x hf.1 ⟨tx, 0, 0⟩ R hR p
  obtain ⟨y, hy, sy, -⟩ := interpolateTrajectory_ok f.y hf.2.1 ⟨ty, 0, 0⟩ R hR p
  unfold Foot.flyR
  rw [hx, ok_bind, hy, ok_bind]
  by_cases hc : R < c.rnd (c.rnd (F / 2) + c.eps)
  · obtain ⟨z, hz, sz, -⟩ := interpolateTrajectory_ok f.z hf.2.2 ⟨0, 0, 0⟩ R hR p
    rw [if_pos hc, hz, ok_bind]
    exact ⟨_, rfl, ⟨sx, sy, sz⟩, rfl⟩
  · obtain ⟨z, hz, sz, -⟩ := interpolateTrajectory_ok f.z hf.2.2 ⟨f.maxHeight, 0, 0⟩ (c.rnd (R - c.rnd (F / 2)))
      (hz hc) p
    rw [if_neg hc, hz, ok_bind]
    exact ⟨_, rfl, ⟨sx, sy, sz⟩, rfl⟩

theorem Sup.updateFeetR_ok {s : Sup K} {f : Phase K} {sv : Vec K} {p : K} (hf : s.timeline[0]? = some f) (hR : s.ttnp ≠ 0)
    (hz : ¬ s.ttnp < c.rnd (c.rnd (c.rnd (f.duration - s.T) / 2) + c.eps) →
      c.rnd (s.ttnp - c.rnd (c.rnd (f.duration - s.T) / 2)) ≠ 0)
    (hl : s.left.HasFactors) (hr : s.right.HasFactors) (hsv : sv.size = 2 * s.M) (hM : f.type ≠ .DS → 1 ≤ s.M) :
    ∃ L R, s.updateFeetStatesR c sv p = .ok { s with stepVec := sv, left := L, right := R, ttnp := c.rnd (s.ttnp - p) } ∧
      L.HasFactors ∧ R.HasFactors ∧ L.kin = s.left.kin ∧ R.kin = s.right.kin := by
  unfold Sup.updateFeetStatesR
  simp only
  rw [listAt_of_get? hf, ok_bind, Sup.isInDS_ok (s := { s with stepVec := sv }) (f := f) hf, ok_bind]
  split
  · rename_i hc
    cases ht : f.type with
    | DS => rw [ht] at hc; simp at hc
    | leftSS =>
      have h1 := hM (by rw [ht]; simp)
      obtain ⟨g, hg, hgf, hgk⟩ := Foot.flyR_ok hr (sv.get 0) (sv.get s.M) (c.rnd (f.duration - s.T)) hR p hz
      simp only
      rw [Vec.at?_ok (by omega), ok_bind, Vec.at?_ok (by omega), ok_bind, hg, ok_bind]
      exact ⟨_, _, rfl, hl, hgf, rfl, hgk⟩
    | rightSS =>
      have h1 := hM (by rw [ht]; simp)
      obtain ⟨g, hg, hgf, hgk⟩ := Foot.flyR_ok hl (sv.get 0) (sv.get s.M) (c.rnd (f.duration - s.T)) hR p hz
      simp only
      rw [Vec.at?_ok (by omega), ok_bind, Vec.at?_ok (by omega), ok_bind, hg, ok_bind]
      exact ⟨_, _, rfl, hgf, hr, hgk, rfl⟩
  · exact ⟨_, _, rfl, hl, hr, rfl, rfl⟩

/-- Rounding of a time near `u`. -/
theorem Fine.rnd_near (hf : Fine c fb δ Q N n) {y u E : K} (hy : |y - u| ≤ E) (hE : E ≤ 1)
    (hu : |u| ≤ 2 * N * (n * fb) + Q * fb) : |c.rnd y - u| ≤ E + δ := by
  have h1 : |y| ≤ 1 + 2 * N * (n * fb) + Q * fb := by
    have h4 : |y| ≤ |y - u| + |u| := by
      have := abs_add_le (y - u) u; rwa [sub_add_cancel] at this
    linarith
  have h2 := hf.rnd y h1
  have h3 : |c.rnd y - u| ≤ |c.rnd y - y| + |y - u| := by
    have := abs_add_le (c.rnd y - y) (y - u); rwa [sub_add_sub_cancel] at this
  linarith

/-- The flight time of a phase of `d` control periods. -/
theorem Fine.flight (hf : Fine c fb δ Q N n) {D T : K} {d : ℕ} (hd1 : 1 ≤ d) (hd : d ≤ Q)
    (hD : |D - ((d : ℤ) : K) * fb| ≤ δ) (hT : |T - ((n : ℤ) : K) * fb| ≤ δ) :
    |c.rnd (D - T) - ((d - n : ℤ) : K) * fb| ≤ 3 * δ ∧
    |c.rnd (c.rnd (D - T) + c.eps) - (((d - n : ℤ) : K) * fb + EPS)| ≤ 5 * δ ∧
    |c.rnd (c.rnd (D - T) / 2) - ((d - n : ℤ) : K) * (fb / 2)| ≤ 3 * δ ∧
    |c.rnd (c.rnd (c.rnd (D - T) / 2) + c.eps) - (((d - n : ℤ) : K) * (fb / 2) + EPS)| ≤ 5 * δ := by
  have h0 := hf.fb0
  have hδ := hf.δ0
  have hE : (EPS : K) < 1 / 10 := by unfold EPS; norm_num
  have hE0 : (0 : K) < EPS := EPS_pos
  have s1 := hf.sum (j := 5) (by omega)
  push_cast at s1
  have hN : (1 : K) ≤ N := by exact_mod_cast hf.N0
  have hn : (1 : K) ≤ n := by exact_mod_cast hf.n0
  have hdQ : (d : K) ≤ Q := by exact_mod_cast hd
  have hd0 : (1 : K) ≤ d := by exact_mod_cast hd1
  have heps := hf.eps
  have hdn : (d : K) * fb ≤ Q * fb := mul_le_mul_of_nonneg_right hdQ h0.le
  have hnn : (n : K) * fb ≤ N * (n * fb) := le_mul_of_one_le_left (by positivity) hN
  have hp1 : fb ≤ (d : K) * fb := le_mul_of_one_le_left h0.le hd0
  have hp2 : fb ≤ (n : K) * fb := le_mul_of_one_le_left h0.le hn
  have hfb := hf.fb2
  have hu : |((d - n : ℤ) : K) * fb| ≤ N * (n * fb) + Q * fb := by
    push_cast; rw [abs_le]; constructor <;> nlinarith
  have hu2 : |((d - n : ℤ) : K) * (fb / 2)| ≤ N * (n * fb) + Q * fb := by
    push_cast; rw [abs_le]; constructor <;> nlinarith
  have hb : (N : K) * (n * fb) + Q * fb + EPS ≤ 2 * N * (n * fb) + Q * fb := by nlinarith
  have a1 : |D - T - ((d - n : ℤ) : K) * fb| ≤ 2 * δ := by
    rw [show D - T - ((d - n : ℤ) : K) * fb = (D - ((d : ℤ) : K) * fb) - (T - ((n : ℤ) : K) * fb) by push_cast; ring]
    exact (abs_sub _ _).trans (by linarith)
  have a2 := hf.rnd_near a1 (by linarith) (by linarith)
  have a2' : |c.rnd (D - T) - ((d - n : ℤ) : K) * fb| ≤ 3 * δ := by linarith
  have a3 : |c.rnd (D - T) + c.eps - (((d - n : ℤ) : K) * fb + EPS)| ≤ 4 * δ := by
    rw [show c.rnd (D - T) + c.eps - (((d - n : ℤ) : K) * fb + EPS)
      = (c.rnd (D - T) - ((d - n : ℤ) : K) * fb) + (c.eps - EPS) by ring]
    exact (abs_add_le _ _).trans (by linarith)
  have a4 := hf.rnd_near a3 (by linarith) (by
    have := abs_add_le (((d - n : ℤ) : K) * fb) EPS; rw [abs_of_pos hE0] at this; linarith)
  have b1 : |c.rnd (D - T) / 2 - ((d - n : ℤ) : K) * (fb / 2)| ≤ 2 * δ := by
    rw [show c.rnd (D - T) / 2 - ((d - n : ℤ) : K) * (fb / 2) = (c.rnd (D - T) - ((d - n : ℤ) : K) * fb) / 2 by ring,
      abs_div, abs_of_pos (by norm_num : (0 : K) < 2)]
    linarith
  have b2 := hf.rnd_near b1 (by linarith) (by linarith)
  have b3 : |c.rnd (c.rnd (D - T) / 2) + c.eps - (((d - n : ℤ) : K) * (fb / 2) + EPS)| ≤ 4 * δ := by
    rw [show c.rnd (c.rnd (D - T) / 2) + c.eps - (((d - n : ℤ) : K) * (fb / 2) + EPS)
      = (c.rnd (c.rnd (D - T) / 2) - ((d - n : ℤ) : K) * (fb / 2)) + (c.eps - EPS) by ring]
    exact (abs_add_le _ _).trans (by linarith)
  have b4 := hf.rnd_near b3 (by linarith) (by
    have := abs_add_le (((d - n : ℤ) : K) * (fb / 2)) EPS; rw [abs_of_pos hE0] at this; linarith)
  exact ⟨a2', by linarith, by linarith, by linarith⟩

/-- The feet are updated at the same times. -/
theorem flight_near (hf : Fine c fb δ Q N n) {j k : ℕ} {s s' : Sup K} (h : Pair fb δ Q N n j k s s') {f f' : Phase K}
    (h1 : s.timeline[0]? = some f) (h1' : s'.timeline[0]? = some f') :
    (s'.ttnp < c.rnd (c.rnd (f'.duration - s'.T) + c.eps) ↔ s.ttnp < f.duration - s.T + EPS) ∧
    (4 * EPS ≤ fb → (s'.ttnp < c.rnd (c.rnd (c.rnd (f'.duration - s'.T) / 2) + c.eps) ↔
      s.ttnp < (f.duration - s.T) / 2 + EPS)) := by
  obtain ⟨d, d1, d2, d3⟩ := h.on.tl _ _ h1
  have hD := ticks_abs (h.near.tl _ _ _ h1 h1').2 d3
  obtain ⟨-, e2, -, e4⟩ := hf.flight d1 d2 hD (h.near.T' h.on)
  have hsum := h.sum
  have s1 := hf.sum (j := 2 * k + 1 + 5) (by omega)
  rw [Nat.cast_add] at s1
  push_cast at s1
  have hE := EPS_pos (K := K)
  constructor
  · rw [(cmp_above h.ttnp' e2 (by push_cast; linarith) hf.fb2).1,
      (cmp_above (x := s.ttnp) (E := 0) (D := 0) (z := (j : ℤ)) (m := (d - n : ℤ)) (fb := fb)
        (by rw [h.tick]; simp) (by rw [d3, h.on.T]; push_cast; rw [sub_mul]; simp) (by linarith) hf.fb2).1]
  · intro h4
    have ht : |s'.ttnp - ((2 * j : ℤ) : K) * (fb / 2)| ≤ ((2 * k + 1 : ℕ) : K) * δ := by
      have := h.ttnp'
      rwa [show ((2 * j : ℤ) : K) * (fb / 2) = ((j : ℤ) : K) * fb by push_cast; ring]
    rw [(cmp_above ht e4 (by push_cast; linarith) (by linarith)).1,
      (cmp_above (x := s.ttnp) (E := 0) (D := 0) (z := (2 * j : ℤ)) (m := (d - n : ℤ)) (fb := fb / 2)
        (by rw [h.tick]; push_cast; ring_nf; simp) (by rw [d3, h.on.T]; push_cast; ring_nf; simp) (by linarith)
        (by linarith)).1]

/-- `updateFeetStates` succeeds. -/
theorem updateFeet_near (hf : Fine c fb δ Q N n) {j k : ℕ} {s s' : Sup K} (h : Pair fb δ Q N n j k s s') (hj : 1 ≤ j)
    {f : Phase K} (h1 : s.timeline[0]? = some f) (hM : f.type ≠ .DS → 1 ≤ s.M) {sv sv' : Vec K} (hsv : sv'.size = 2 * s'.M)
    {p' : K} (hp : |p' - fb| ≤ δ) {t : Sup K} (ht : s.updateFeetStates sv fb = .ok t) :
    ∃ t', s'.updateFeetStatesR c sv' p' = .ok t' ∧ Pair fb δ Q N n (j - 1) (k + 1) t t' ∧ t'.fb = s'.fb ∧
      t'.V = s'.V ∧ t'.VT = s'.VT ∧ t'.V0 = s'.V0 ∧ t'.phaseIdx = s'.phaseIdx := by
  obtain ⟨f', h1', hty, hd⟩ := h.near.get h1
  obtain ⟨d, d1, d2, d3⟩ := h.on.tl _ _ h1
  have hD := ticks_abs hd d3
  have hsum := h.sum
  have hδ := hf.δ0
  have h0 := hf.fb0
  have hfb2 := hf.fb2
  have heps := hf.eps
  have hE := EPS_pos (K := K)
  have s1 := hf.sum (j := 2 * k + 1 + 2) (by omega)
  rw [Nat.cast_add] at s1
  push_cast at s1
  have s5 := hf.sum (j := 5) (by omega)
  push_cast at s5
  have hE1 : (EPS : K) < 1 / 10 := by unfold EPS; norm_num
  have hjf : fb ≤ ((j : ℤ) : K) * fb := le_mul_of_one_le_left h0.le (by exact_mod_cast hj)
  have htt := h.ttnp'
  have hpos : 0 < s'.ttnp := by
    rw [abs_le] at htt; push_cast at htt; push_cast at hjf; linarith [htt.1]
  obtain ⟨e1, e2, e3, e4⟩ := hf.flight d1 d2 hD (h.near.T' h.on)
  set H := c.rnd (c.rnd (f'.duration - s'.T) / 2) with hH
  have hN : (1 : K) ≤ N := by exact_mod_cast hf.N0
  have hn : (1 : K) ≤ n := by exact_mod_cast hf.n0
  have hdQ : (d : K) * fb ≤ Q * fb := mul_le_mul_of_nonneg_right (by exact_mod_cast d2) h0.le
  have hjQ : (j : K) * fb ≤ Q * fb := mul_le_mul_of_nonneg_right (by exact_mod_cast (by omega : j ≤ Q)) h0.le
  have hnn : (n : K) * fb ≤ N * (n * fb) := le_mul_of_one_le_left (by positivity) hN
  have hz : ¬ s'.ttnp < c.rnd (H + c.eps) → c.rnd (s'.ttnp - H) ≠ 0 := by
    intro hc
    have hc := not_lt.1 hc
    have hd0 : (0 : K) ≤ d * fb := by positivity
    have hn0 : (0 : K) ≤ n * fb := by positivity
    have hlin : ((d - n : ℤ) : K) * (fb / 2) = (d * fb - n * fb) / 2 := by push_cast; ring
    rw [hlin] at e3
    rw [Int.cast_natCast] at htt hjf
    have hrnd := hf.rnd
    rw [mul_assoc 2 (N : K)] at hrnd
    clear e1 e2 e4 hD h1' hd d3 hp
    generalize (N : K) * (n * fb) = B at *
    generalize (n : K) * fb = A at *
    generalize (d : K) * fb = D at *
    generalize (Q : K) * fb = P at *
    generalize (j : K) * fb = J at *
    have hHr : |H + c.eps| ≤ 1 + 2 * B + P := by
      rw [abs_le] at e3 heps ⊢
      constructor <;> linarith [e3.1, e3.2]
    have a1 := hrnd _ hHr
    have a2 : |s'.ttnp - H| ≤ 1 + 2 * B + P := by
      rw [abs_le] at e3 heps htt ⊢
      push_cast at htt
      constructor <;> linarith [e3.1, e3.2, htt.1, htt.2]
    have a3 := hrnd _ a2
    rw [abs_le] at a1 a3 heps
    have : 0 < c.rnd (s'.ttnp - H) := by linarith [a1.1, a3.1, heps.1]
    exact this.ne'
  obtain ⟨L, R, g1, gL, gR, kL, kR⟩ := Sup.updateFeetR_ok (c := c) (sv := sv') (p := p') h1' hpos.ne' hz h.near.facL
    h.near.facR hsv (by rw [hty, h.near.M]; exact hM)
  obtain ⟨-, -, -, -, -, -, -, -, -, fL, fR, -⟩ := Sup.updateFeet_frame ht
  obtain ⟨L₀, R₀, et⟩ := Sup.updateFeet_eq ht
  have htick : |c.rnd (s'.ttnp - p') - ((j - 1 : ℕ) : ℤ) * fb| ≤ ((2 * (k + 1) + 1 : ℕ) : K) * δ := by
    have := hf.tick htt (m := 1) (T := p') (by simpa using hp) (by push_cast; linarith) (w := ((j - 1 : ℕ) : ℤ)) (by omega)
      (by
        rw [abs_of_nonneg (by omega)]
        have h6 : (0 : ℤ) ≤ 2 * N * n := by positivity
        omega)
    refine this.trans (le_of_eq ?_)
    push_cast; ring
  subst et
  have hn := h.near
  refine ⟨_, g1, ⟨⟨hn.N, hn.M, hn.move, hn.T, hn.step, hn.ds, ?_, hn.len, hn.tl, ?_, ?_, gL, gR⟩,
    ⟨h.on.N, h.on.T, h.on.per, h.on.tl⟩, ?_, by omega⟩, rfl, rfl, rfl, rfl, rfl⟩
  · dsimp only
    rw [h.tick, show (j : K) * fb - fb = (((j - 1 : ℕ) : ℤ) : K) * fb by
      rw [Int.cast_natCast, Nat.cast_sub hj]; push_cast; ring]
    exact htick
  · dsimp only at fL ⊢; rw [kL, fL, hn.kinL]
  · dsimp only at fR ⊢; rw [kR, fR, hn.kinR]
  · dsimp only; rw [h.tick, Nat.cast_sub hj]; push_cast; ring

end MPC
