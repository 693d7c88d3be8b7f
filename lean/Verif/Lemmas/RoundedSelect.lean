import Verif.Lemmas.RoundedLoop
/-! # Rounded clocks lead to the same walk (C83): selection matrices and whole cycles -/
set_option linter.unusedSectionVars false
namespace MPC
open Spec
variable {K : Type} [Field K] [LinearOrder K] [IsStrictOrderedRing K]
variable {c : Clock K} {fb δ : K} {Q N n : ℕ}

/-- The discrete part of the variables of `computeSelectionMatrix`. -/
structure SelSame (N : ℕ) (l l' : SelState K) : Prop where
  V0 : l'.V0 = l.V0
  V : l'.V = l.V
  phaseIdx : l'.phaseIdx = l.phaseIdx
  row : l'.row = l.row
  col : l'.col = l.col
  phase : l'.phase = l.phase
  le : l.row ≤ N

/-- The phase timers. -/
def SelTimer (fb δ : K) (Q n : ℕ) (l l' : SelState K) : Prop :=
  ∃ z : ℤ, 1 - n ≤ z ∧ z ≤ Q ∧ l.phaseTimer = z * fb ∧
    |l'.phaseTimer - z * fb| ≤ ((2 * Q + 1 + 2 * l.row : ℕ) : K) * δ

/-- The horizon timers. -/
def SelHorizon (fb δ : K) (Q N n : ℕ) (l l' : SelState K) : Prop :=
  ∃ w : ℤ, -Q - l.row * n ≤ w ∧ w ≤ N * n ∧ l.horizon = w * fb ∧
    |l'.horizon - w * fb| ≤ ((N + 2 * Q + 3 + 2 * l.row : ℕ) : K) * δ

theorem SelTimer.tick (hf : Fine c fb δ Q N n) {l l' : SelState K} (h : SelTimer fb δ Q n l l') {T : K}
    (hT : |T - ((n : ℤ) : K) * fb| ≤ δ) (hr : l.row < N) (hp : 0 < l.phaseTimer) :
    ∃ z : ℤ, 1 - n ≤ z ∧ z ≤ Q ∧ l.phaseTimer - n * fb = z * fb ∧
      |c.rnd (l'.phaseTimer - T) - z * fb| ≤ ((2 * Q + 1 + 2 * (l.row + 1) : ℕ) : K) * δ := by
  obtain ⟨z, h1, h2, h3, h4⟩ := h
  have h0 := hf.fb0
  have hz : 1 ≤ z := by
    by_contra hc
    have h5 : (z : K) ≤ 0 := by exact_mod_cast (by omega : z ≤ 0)
    rw [h3] at hp
    nlinarith
  have hn := hf.n0
  have hN := hf.N0
  have hnN : (n : ℤ) ≤ N * n := by nlinarith
  have s1 := hf.sum (j := 2 * Q + 1 + 2 * l.row + 1) (by omega)
  rw [Nat.cast_add, Nat.cast_one] at s1
  refine ⟨z - n, by omega, by omega, by rw [h3]; push_cast; ring, ?_⟩
  have := hf.tick h4 hT (by linarith) (w := z - n) rfl (by rw [abs_le]; constructor <;> nlinarith)
  refine this.trans (le_of_eq ?_)
  push_cast; ring

theorem SelTimer.exact (hf : Fine c fb δ Q N n) {l l' : SelState K} (h : SelTimer fb δ Q n l l') {T : K}
    (hr : l.row ≤ N) (hT : |T - ((n : ℤ) : K) * fb| ≤ δ) :
    ((n * fb + EPS < l.phaseTimer ↔ c.rnd (T + c.eps) < l'.phaseTimer)) ∧
    (EPS < l.phaseTimer ↔ c.eps < l'.phaseTimer) := by
  obtain ⟨z, h1, h2, h3, h4⟩ := h
  have s1 := hf.sum (j := 2 * Q + 1 + 2 * l.row + 3) (by omega)
  rw [Nat.cast_add] at s1
  push_cast at s1
  have hE := EPS_pos (K := K)
  have hδ := hf.δ0
  constructor
  · rw [(cmp_above h4 (hf.limit hT) (by push_cast; linarith) hf.fb2).2,
      (cmp_above (x := l.phaseTimer) (E := 0) (D := 0) (z := z) (m := (n : ℤ)) (by rw [h3]; simp) (by simp) (by linarith)
        hf.fb2).2]
  · rw [(cmp_above (θ := c.eps) (m := 0) (D := δ) h4 (by simpa using hf.eps) (by push_cast; linarith) hf.fb2).2,
      (cmp_above (x := l.phaseTimer) (θ := EPS) (E := 0) (D := 0) (z := z) (m := 0) (by rw [h3]; simp) (by simp)
        (by linarith) hf.fb2).2]

/-- First loop. -/
theorem selFirst_near (hf : Fine c fb δ Q N n) {e : K} {s s' : Sup K} (h : Near δ e s s') (ho : OnTicks fb Q N n s)
    {l l' m : SelState K} (hl : SelSame N l l') (ht : SelTimer fb δ Q n l l')
    (hm : whileLoop (fun l => s.T + EPS < l.phaseTimer ∧ l.row < s.N) s.selFirst l = .ok m) :
    ∃ m', whileLoop (fun l => c.rnd (s'.T + c.eps) < l.phaseTimer ∧ l.row < s'.N) (s'.selFirstR c) l' = .ok m' ∧
      SelSame N m m' := by
  have hT := h.T' ho
  obtain ⟨m', h1, h2, -⟩ := whileLoop_rel (cond' := fun l => c.rnd (s'.T + c.eps) < l.phaseTimer ∧ l.row < s'.N)
    (body' := s'.selFirstR c) (fun l l' => SelSame N l l' ∧ SelTimer fb δ Q n l l')
    (by
      rintro u u' ⟨hu, hv⟩
      rw [ho.T, (hv.exact hf hu.le hT).1, hu.row, h.N])
    (by
      rintro u u' ⟨hu, hv⟩ hc x hx
      unfold Sup.selFirst at hx
      obtain ⟨V0, g1, hx⟩ := bind_eq_ok.1 hx
      cases hx
      have hr : u.row < N := by rw [← ho.N]; exact hc.2
      obtain ⟨z, k1, k2, k3, k4⟩ := hv.tick hf hT hr (by
        have h1 := hc.1
        have h2 : (0 : K) ≤ s.T := by rw [ho.T]; have := hf.fb0; positivity
        linarith [EPS_pos (K := K)])
      unfold Sup.selFirstR
      rw [hu.V0, hu.row, g1, ok_bind]
      exact ⟨_, rfl, ⟨rfl, hu.V, hu.phaseIdx, rfl, hu.col, hu.phase, hr⟩, z, k1, k2, by rw [ho.T]; exact k3, k4⟩)
    (s := l) (t := l') ⟨hl, ht⟩ hm
  exact ⟨m', h1, h2⟩

/-- Inner loop. -/
theorem selInner_near (hf : Fine c fb δ Q N n) {e : K} {s s' : Sup K} (h : Near δ e s s') (ho : OnTicks fb Q N n s)
    {l l' m : SelState K} (hl : SelSame N l l') (ht : SelTimer fb δ Q n l l') (hh : SelHorizon fb δ Q N n l l')
    (hm : whileLoop (fun l => EPS < l.phaseTimer ∧ l.row < s.N) s.selInner l = .ok m) :
    ∃ m', whileLoop (fun l => c.eps < l.phaseTimer ∧ l.row < s'.N) (s'.selInnerR c) l' = .ok m' ∧
      SelSame N m m' ∧ SelHorizon fb δ Q N n m m' := by
  have hT := h.T' ho
  obtain ⟨m', h1, h2, -, h3⟩ := whileLoop_rel (cond' := fun l => c.eps < l.phaseTimer ∧ l.row < s'.N)
    (body' := s'.selInnerR c) (fun l l' => SelSame N l l' ∧ SelTimer fb δ Q n l l' ∧ SelHorizon fb δ Q N n l l')
    (by
      rintro u u' ⟨hu, hv, -⟩
      rw [(hv.exact hf hu.le hT).2, hu.row, h.N])
    (by
      rintro u u' ⟨hu, hv, hw⟩ hc x hx
      have hr : u.row < N := by rw [← ho.N]; exact hc.2
      obtain ⟨z, k1, k2, k3, k4⟩ := hv.tick hf hT hr ((EPS_pos (K := K)).trans hc.1)
      obtain ⟨w, w1, w2, w3, w4⟩ := hw
      have hhor : ∃ w : ℤ, -Q - ((u.row + 1 : ℕ) : ℤ) * n ≤ w ∧ w ≤ N * n ∧ u.horizon - s.T = w * fb ∧
          |c.rnd (u'.horizon - s'.T) - w * fb| ≤ ((N + 2 * Q + 3 + 2 * (u.row + 1) : ℕ) : K) * δ := by
        have s1 := hf.sum (j := N + 2 * Q + 3 + 2 * u.row + 1) (by omega)
        rw [Nat.cast_add, Nat.cast_one] at s1
        have hn : (0 : ℤ) ≤ n := by omega
        have hrn : ((u.row : ℤ) + 1) * n ≤ N * n := by
          have : (u.row : ℤ) + 1 ≤ N := by exact_mod_cast hr
          nlinarith
        have hnN : (n : ℤ) ≤ N * n := by have : (1 : ℤ) ≤ N := by exact_mod_cast hf.N0
                                         nlinarith
        refine ⟨w - n, by push_cast; linarith, by linarith, by rw [w3, ho.T]; push_cast; ring, ?_⟩
        have := hf.tick w4 hT (by linarith) (w := w - n) rfl (by rw [abs_le]; constructor <;> nlinarith)
        refine this.trans (le_of_eq ?_)
        push_cast; ring
      obtain ⟨w', x1, x2, x3, x4⟩ := hhor
      unfold Sup.selInner at hx
      unfold Sup.selInnerR
      rw [h.isInDS, h.move, hu.phase, hu.V0, hu.V, hu.row, hu.col, hu.phaseIdx]
      obtain ⟨ds, g1, hx⟩ := bind_eq_ok.1 hx
      rw [g1, ok_bind]
      dsimp only at hx ⊢
      by_cases hd : ds = true ∧ (u.phase = 1 ∨ s.move = false)
      · rw [if_pos hd] at hx
        rw [if_pos hd]
        obtain ⟨A, g3, hx⟩ := bind_eq_ok.1 hx
        rw [res_pure, ok_bind] at hx
        dsimp only at hx
        obtain ⟨I, g4, hx⟩ := bind_eq_ok.1 hx
        cases hx
        rw [g3, ok_bind, res_pure, ok_bind]
        dsimp only
        rw [g4, ok_bind]
        exact ⟨_, rfl, ⟨rfl, rfl, rfl, rfl, rfl, rfl, hr⟩, ⟨z, k1, k2, by rw [ho.T]; exact k3, k4⟩, w', x1, x2, x3, x4⟩
      · rw [if_neg hd] at hx
        rw [if_neg hd]
        obtain ⟨A, g3, hx⟩ := bind_eq_ok.1 hx
        rw [res_pure, ok_bind] at hx
        dsimp only at hx
        obtain ⟨I, g4, hx⟩ := bind_eq_ok.1 hx
        cases hx
        rw [g3, ok_bind, res_pure, ok_bind]
        dsimp only
        rw [g4, ok_bind]
        exact ⟨_, rfl, ⟨rfl, rfl, rfl, rfl, rfl, rfl, hr⟩, ⟨z, k1, k2, by rw [ho.T]; exact k3, k4⟩, w', x1, x2, x3, x4⟩)
    (s := l) (t := l') ⟨hl, ht, hh⟩ hm
  exact ⟨m', h1, h2, h3⟩

theorem selOuter_near (hf : Fine c fb δ Q N n) {e : K} {s s' : Sup K} (h : Near δ e s s') (ho : OnTicks fb Q N n s)
    {l l' m : SelState K} (hl : SelSame N l l') (hh : SelHorizon fb δ Q N n l l') (hm : s.selOuter l = .ok m) :
    ∃ m', s'.selOuterR c l' = .ok m' ∧ SelSame N m m' ∧ SelHorizon fb δ Q N n m m' := by
  unfold Sup.selOuter at hm
  obtain ⟨p, g1, hm⟩ := bind_eq_ok.1 hm
  obtain ⟨u, g2, hm⟩ := bind_eq_ok.1 hm
  obtain ⟨ds, g3, hm⟩ := bind_eq_ok.1 hm
  cases hm
  obtain ⟨p', g1', ht, hd⟩ := h.listAt g1
  obtain ⟨d, d1, d2, d3⟩ := ho.tl _ _ (listAt_eq_ok.1 g1)
  obtain ⟨u', g2', hu, hv⟩ := selInner_near hf h ho (l := { l with phaseTimer := p.duration })
    (l' := { l' with phaseTimer := p'.duration })
    ⟨hl.V0, hl.V, hl.phaseIdx, hl.row, hl.col, hl.phase, hl.le⟩
    ⟨d, by omega, by exact_mod_cast d2, by rw [d3]; simp, by
      refine (ticks_abs hd d3).trans ?_
      have h5 : (1 : K) ≤ ((2 * Q + 1 + 2 * l.row : ℕ) : K) := by exact_mod_cast (by omega : 1 ≤ 2 * Q + 1 + 2 * l.row)
      exact le_mul_of_one_le_left hf.δ0 h5⟩ hh g2
  unfold Sup.selOuterR
  rw [hl.phase, g1', ok_bind]
  rw [hl.phase] at g2'
  rw [g2', ok_bind, h.isInDS, g3, ok_bind, h.move]
  refine ⟨_, rfl, ⟨hu.V0, hu.V, hu.phaseIdx, hu.row, ?_, ?_, hu.le⟩, hv⟩
  · dsimp only; rw [hu.phase, hu.col]
  · dsimp only; rw [hu.phase]

/-- The selection matrices. -/
theorem selection_near (hf : Fine c fb δ Q N n) {e : K} {s s' : Sup K} (h : Near δ e s s') (ho : OnTicks fb Q N n s)
    {j k : ℕ} (ht : s.ttnp = j * fb) (he : e ≤ ((2 * k + 1 : ℕ) : K) * δ) (hj : k + j ≤ Q) (hj1 : 1 ≤ j) {u : Sup K}
    (hu : s.selection = .ok u) : ∃ u', s'.selectionR c = .ok u' ∧ ∃ (V0 V : Mat K) (I : Vec ℕ), u = { s with V0 := V0, V := V, VT := V.transpose, phaseIdx := I } ∧ u' = { s' with V0 := V0, V := V, VT := V.transpose, phaseIdx := I } := by
  have hT := h.T' ho
  have hδ := hf.δ0
  have h0 := hf.fb0
  have htt : |s'.ttnp - ((j : ℤ) : K) * fb| ≤ ((2 * k + 1 : ℕ) : K) * δ := by
    have := h.ttnp; rw [ht] at this; rw [Int.cast_natCast]; exact this.trans he
  have hk : ((2 * k + 1 : ℕ) : K) * δ ≤ ((2 * Q + 1 : ℕ) : K) * δ :=
    mul_le_mul_of_nonneg_right (by exact_mod_cast (by omega : 2 * k + 1 ≤ 2 * Q + 1)) hδ
  unfold Sup.selection at hu
  obtain ⟨_, -, hu⟩ := bind_eq_ok.1 hu
  obtain ⟨m, g1, hu⟩ := bind_eq_ok.1 hu
  obtain ⟨r, g2, hu⟩ := bind_eq_ok.1 hu
  cases hu
  have hN : 0 < s'.N := by rw [h.N, ho.N]; exact hf.N0
  obtain ⟨m', g1', hm⟩ := selFirst_near hf h ho
    (l := ⟨Mat.zero s.N 1, Mat.zero s.N s.M, Vec.const s.N 0, 0, 0, 1, s.ttnp, 0⟩)
    (l' := ⟨Mat.zero s.N 1, Mat.zero s.N s.M, Vec.const s.N 0, 0, 0, 1, s'.ttnp, 0⟩)
    ⟨rfl, rfl, rfl, rfl, rfl, rfl, Nat.zero_le _⟩ ⟨j, by omega, by omega, by rw [ht]; simp, by
      simpa using htt.trans hk⟩ g1
  have hhor : SelHorizon fb δ Q N n { m with horizon := s.N * s.T - s.ttnp }
      { m' with horizon := c.rnd (c.rnd (s'.N * s'.T) - s'.ttnp) } := by
    have hN1 : (1 : ℤ) ≤ N := by exact_mod_cast hf.N0
    have hn1 : (1 : ℤ) ≤ n := by exact_mod_cast hf.n0
    have h1 : |(s'.N : K) * s'.T - ((N * n : ℤ) : K) * fb| ≤ (N : K) * δ := by
      rw [h.N, ho.N]
      have : (N : K) * s'.T - ((N * n : ℤ) : K) * fb = N * (s'.T - ((n : ℤ) : K) * fb) := by push_cast; ring
      rw [this, abs_mul, Nat.abs_cast]
      exact mul_le_mul_of_nonneg_left hT (by positivity)
    have s1 := hf.sum (j := N) (by omega)
    have h2 := hf.round h1 s1 (by rw [abs_of_nonneg (by positivity)]; nlinarith)
    have h3 : |c.rnd (s'.N * s'.T) - s'.ttnp - ((N * n - j : ℤ) : K) * fb| ≤ ((N + 2 * Q + 2 : ℕ) : K) * δ := by
      have : c.rnd (s'.N * s'.T) - s'.ttnp - ((N * n - j : ℤ) : K) * fb
          = (c.rnd (s'.N * s'.T) - ((N * n : ℤ) : K) * fb) - (s'.ttnp - ((j : ℤ) : K) * fb) := by push_cast; ring
      rw [this]
      refine (abs_sub _ _).trans ?_
      refine (add_le_add h2 (htt.trans hk)).trans (le_of_eq ?_)
      push_cast; ring
    have s2 := hf.sum (j := N + 2 * Q + 2) (by omega)
    have hNn : (0 : ℤ) ≤ N * n := by positivity
    have hrn : (0 : ℤ) ≤ m.row * n := by positivity
    have h4 := hf.round h3 s2 (by rw [abs_le]; constructor <;> push_cast <;> nlinarith)
    refine ⟨N * n - j, by dsimp only; omega, by omega, by dsimp only; rw [ho.N, ho.T, ht]; push_cast; ring, ?_⟩
    refine h4.trans ?_
    have : ((N + 2 * Q + 2 : ℕ) : K) * δ + δ = ((N + 2 * Q + 3 : ℕ) : K) * δ := by push_cast; ring
    rw [this]
    exact mul_le_mul_of_nonneg_right (by exact_mod_cast (by omega : N + 2 * Q + 3 ≤ N + 2 * Q + 3 + 2 * m.row)) hδ
  obtain ⟨r', g2', hr, -⟩ := whileLoop_rel (cond := fun l : SelState K => -EPS < l.horizon) (body := s.selOuter)
    (s := { m with horizon := s.N * s.T - s.ttnp }) (cond' := fun l => -c.eps < l.horizon) (body' := s'.selOuterR c)
    (fun l l' => SelSame N l l' ∧ SelHorizon fb δ Q N n l l')
    (by
      rintro x x' ⟨hx, w, -, -, w3, w4⟩
      have s1 := hf.sum (j := N + 2 * Q + 3 + 2 * x.row + 1) (by have := hx.le; omega)
      rw [Nat.cast_add, Nat.cast_one] at s1
      have e2 : |(-c.eps : K) - (-EPS)| ≤ δ := by
        rw [show -c.eps - -EPS = -(c.eps - EPS) by ring, abs_neg]; exact hf.eps
      rw [cmp_below (x := x.horizon) (E := 0) (D := 0) (z := w) (by rw [w3]; simp) (by simp)
        (by linarith [EPS_pos (K := K)]) hf.fb2, cmp_below w4 e2 (by linarith) hf.fb2])
    (by
      rintro x x' ⟨hx, hy⟩ _ y hy'
      exact selOuter_near hf h ho hx hy hy')
    (t := { m' with horizon := c.rnd (c.rnd (s'.N * s'.T) - s'.ttnp) })
    ⟨⟨hm.V0, hm.V, hm.phaseIdx, hm.row, hm.col, hm.phase, hm.le⟩, hhor⟩ g2
  unfold Sup.selectionR
  rw [require_pos hN, ok_bind]
  dsimp only
  rw [h.N, h.M]
  rw [h.N] at g1' g2'
  rw [g1', ok_bind, g2', ok_bind]
  exact ⟨_, rfl, r.V0, r.V, r.phaseIdx, rfl, by rw [hr.V0, hr.V, hr.phaseIdx]⟩

end MPC
