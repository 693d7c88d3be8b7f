import Verif.Lemmas.Rounded
/-! # Rounded clocks lead to the same walk (C83): the loops -/
set_option linter.unusedSectionVars false
namespace MPC
open Spec
variable {K : Type} [Field K] [LinearOrder K] [IsStrictOrderedRing K]
variable {c : Clock K} {fb δ : K} {Q N n : ℕ}

/-- A duration of at least one and at most `Q` control periods. -/
def Ticks (fb : K) (Q : ℕ) (d : K) : Prop := ∃ m : ℕ, 1 ≤ m ∧ m ≤ Q ∧ d = m * fb

/-- The times of an exact supervisor. -/
structure OnTicks (fb : K) (Q N n : ℕ) (s : Sup K) : Prop where
  N : s.N = N
  T : s.T = n * fb
  per : ∀ t, Ticks fb Q (s.period t)
  tl : ∀ (k : ℕ) (p : Phase K), s.timeline[k]? = some p → Ticks fb Q p.duration

/-- The stored sampling period. -/
theorem Near.T' {e : K} {s s' : Sup K} (h : Near δ e s s') (ho : OnTicks fb Q N n s) :
    |s'.T - ((n : ℤ) : K) * fb| ≤ δ := by
  have := h.T; rw [ho.T] at this; exact_mod_cast this

theorem ticks_abs {d x : K} (h : |x - d| ≤ δ) {m : ℕ} (hm : d = m * fb) : |x - ((m : ℤ) : K) * fb| ≤ δ := by
  rw [hm] at h; exact_mod_cast h

/-! ### The main loop -/

/-- The two main loops. -/
structure LNear (fb δ e : K) (Q N n : ℕ) (l l' : TLState K) : Prop where
  sup : Near δ e l.sup l'.sup
  on : OnTicks fb Q N n l.sup
  idx : l'.idx = l.idx
  var : l'.var.size = l.var.size
  time : ∃ i : ℕ, i ≤ N + 1 ∧ l.horizon = (((N : ℤ) - i) * n : ℤ) * fb ∧
    |l'.horizon - (((N : ℤ) - i) * n : ℤ) * fb| ≤ ((N + 1 + 2 * i : ℕ) : K) * δ ∧
    ∃ z : ℤ, -n ≤ z ∧ z ≤ Q ∧ l.phaseTimer = z * fb ∧ |l'.phaseTimer - z * fb| ≤ ((2 * Q + 1 + 2 * i : ℕ) : K) * δ

theorem OnTicks.nextPhase {s : Sup K} (h : OnTicks fb Q N n s) (p : Phase K) : Ticks fb Q (s.nextPhase p).duration :=
  h.per _

theorem ticks_put {tl : List (Phase K)} {p : Phase K} {i : ℕ}
    (h : ∀ (k : ℕ) (q : Phase K), tl[k]? = some q → Ticks fb Q q.duration) (hp : Ticks fb Q p.duration) :
    ∀ (k : ℕ) (q : Phase K), (if i = tl.length then tl ++ [p] else tl.set i p)[k]? = some q → Ticks fb Q q.duration := by
  intro k q hq
  split at hq
  · rcases Nat.lt_or_ge k tl.length with hk | hk
    · rw [List.getElem?_append_left hk] at hq; exact h k q hq
    · rw [List.getElem?_append_right hk] at hq
      obtain hz | hz : k - tl.length = 0 ∨ 0 < k - tl.length := by omega
      · rw [hz] at hq; cases hq; exact hp
      · rw [List.getElem?_eq_none (by simp; omega)] at hq; cases hq
  · rw [List.getElem?_set] at hq
    split at hq
    · split at hq <;> cases hq
      exact hp
    · exact h k q hq

theorem LNear.cond (hf : Fine c fb δ Q N n) {e : K} {l l' : TLState K} (h : LNear fb δ e Q N n l l') :
    -EPS < l.horizon ↔ -c.eps < l'.horizon := by
  obtain ⟨i, hi, h1, h2, -⟩ := h.time
  have he := hf.eps
  have e1 : |(-EPS : K) - (-EPS)| ≤ 0 := by simp
  have e2 : |(-c.eps : K) - (-EPS)| ≤ δ := by rw [show -c.eps - -EPS = -(c.eps - EPS) by ring, abs_neg]; exact he
  rw [cmp_below (x := l.horizon) (E := 0) (z := ((N : ℤ) - i) * n) (by rw [h1]; simp) e1 (by linarith [EPS_pos (K := K)]) hf.fb2,
    cmp_below h2 e2 (by
      have := hf.sum (j := N + 1 + 2 * i + 1) (by omega)
      rw [Nat.cast_add, Nat.cast_one] at this
      linarith) hf.fb2]

theorem LNear.next (hf : Fine c fb δ Q N n) {e : K} {l l' m : TLState K} (h : LNear fb δ e Q N n l l')
    (hm : l.nextPhase = .ok m) : ∃ m', l'.nextPhaseR c = .ok m' ∧ LNear fb δ e Q N n m m' ∧
      m.horizon = l.horizon ∧ ∃ z : ℤ, 1 ≤ z ∧ m.phaseTimer = z * fb := by
  obtain ⟨i, hi, h1, h2, z, hz1, hz2, h3, h4⟩ := h.time
  have hs := hf.sum (j := 2 * Q + 1 + 2 * i + 1) (by have := hf.N0; omega)
  rw [Nat.cast_add, Nat.cast_one] at hs
  have c1 : l.phaseTimer < EPS ↔ z ≤ 0 := by
    have := (cmp_above (x := l.phaseTimer) (θ := EPS) (E := 0) (D := 0) (z := z) (m := 0) (fb := fb)
      (by rw [h3]; simp) (by simp) (by linarith [EPS_pos (K := K)]) hf.fb2).1
    exact this
  have c2 : l'.phaseTimer < c.eps ↔ z ≤ 0 := by
    have := (cmp_above (x := l'.phaseTimer) (θ := c.eps) (D := δ) (z := z) (m := 0) (fb := fb)
      h4 (by simpa using hf.eps) (by linarith) hf.fb2).1
    exact this
  unfold TLState.nextPhase at hm
  unfold TLState.nextPhaseR
  by_cases hz : z ≤ 0
  · rw [if_pos (c1.2 hz)] at hm
    rw [if_pos (c2.2 hz)]
    obtain ⟨p, hp, hm⟩ := bind_eq_ok.1 hm
    cases hm
    obtain ⟨p', hp', ht, -⟩ := h.sup.listAt hp
    rw [h.idx, hp', ok_bind]
    have hn := h.sup.nextPhase ht
    obtain ⟨k1, k2⟩ := tl_put (i := l.idx + 1) h.sup.len h.sup.tl hn.1 hn.2
    have ho := h.on.nextPhase p
    obtain ⟨d, hd1, hd2, hd3⟩ := ho
    have hδ := hf.δ0
    refine ⟨_, rfl, ⟨⟨h.sup.N, ?_, h.sup.move, h.sup.T, h.sup.step, h.sup.ds, h.sup.ttnp, k1, k2, h.sup.kinL, h.sup.kinR,
      h.sup.facL, h.sup.facR⟩, ⟨h.on.N, h.on.T, h.on.per, ticks_put h.on.tl (h.on.nextPhase p)⟩, rfl, h.var,
      ⟨i, hi, h1, h2, d, by omega, by exact_mod_cast hd2, by rw [hd3]; simp, ?_⟩⟩, rfl, d, by omega, by rw [hd3]; simp⟩
    · dsimp only
      rw [ht, h.sup.M]
    · have := ticks_abs hn.2 hd3
      refine this.trans ?_
      have h5 : (1 : K) ≤ ((2 * Q + 1 + 2 * i : ℕ) : K) := by exact_mod_cast (by omega : 1 ≤ 2 * Q + 1 + 2 * i)
      nlinarith
  · rw [if_neg (fun hc => hz (c1.1 hc))] at hm
    rw [if_neg (fun hc => hz (c2.1 hc))]
    cases hm
    exact ⟨l', rfl, h, rfl, z, by omega, h3⟩

theorem LNear.body (hf : Fine c fb δ Q N n) {e : K} {l l' m : TLState K} (h : LNear fb δ e Q N n l l')
    (hc : -EPS < l.horizon) (hm : l.body = .ok m) : ∃ m', l'.bodyR c = .ok m' ∧ LNear fb δ e Q N n m m' := by
  unfold TLState.body at hm
  obtain ⟨u, h1, hm⟩ := bind_eq_ok.1 hm
  obtain ⟨v, h2, hm⟩ := bind_eq_ok.1 hm
  obtain ⟨w, h3, hm⟩ := bind_eq_ok.1 hm
  cases hm
  obtain ⟨u', g1, hu, hh, z, hz, hp⟩ := h.next hf h1
  obtain ⟨v', g2, hv⟩ := hu.sup.enlargeLoop (by rw [hu.on.N]; exact hf.N0) hu.var h2
  obtain ⟨w', g3, hw⟩ := hu.sup.trim hv h3
  unfold TLState.bodyR
  rw [g1, ok_bind, g2, ok_bind, g3, ok_bind]
  refine ⟨_, rfl, hu.sup, hu.on, hu.idx, hw, ?_⟩
  obtain ⟨i, hi, k1, k2, z', hz1, hz2, k3, k4⟩ := hu.time
  have hfb := hf.fb0
  have hzz : z' = z := by
    rw [hp] at k3
    have := mul_right_cancel₀ hfb.ne' k3
    exact_mod_cast this.symm
  subst hzz
  have hN0 := hf.N0
  have hn0 := hf.n0
  have hi' : i ≤ N := by
    by_contra hcn
    have : i = N + 1 := by omega
    subst this
    rw [← hh, k1] at hc
    have h5 : (((N : ℤ) - (N + 1 : ℕ)) * n : ℤ) ≤ -1 := by push_cast; nlinarith
    have h6 : ((((N : ℤ) - (N + 1 : ℕ)) * n : ℤ) : K) ≤ -1 := by exact_mod_cast h5
    have h7 := mul_le_mul_of_nonneg_right h6 hfb.le
    linarith [hf.fb2, EPS_pos (K := K)]
  have hNn : (N : ℤ) ≤ N * n := by nlinarith
  have hnN : (n : ℤ) ≤ N * n := by nlinarith
  have hT := hu.sup.T' hu.on
  have s1 := hf.sum (j := N + 1 + 2 * i + 1) (by omega)
  have s2 := hf.sum (j := 2 * Q + 1 + 2 * i + 1) (by omega)
  rw [Nat.cast_add, Nat.cast_one] at s1 s2
  have hin : (i : ℤ) * n ≤ N * n := by
    have : (i : ℤ) ≤ N := by exact_mod_cast hi'
    nlinarith
  have hin0 : 0 ≤ (i : ℤ) * n := by positivity
  refine ⟨i + 1, by omega, ?_, ?_, z' - n, by omega, by omega, ?_, ?_⟩
  · dsimp only
    rw [k1, hu.on.T]; push_cast; ring
  · have := hf.tick k2 hT (by linarith) (w := ((N : ℤ) - (i + 1 : ℕ)) * n) (by push_cast; ring) (by
      rw [abs_le]; push_cast; constructor <;> nlinarith)
    refine this.trans (le_of_eq ?_)
    push_cast; ring
  · dsimp only
    rw [k3, hu.on.T]; push_cast; ring
  · have := hf.tick k4 hT (by linarith) (w := z' - n) rfl (by rw [abs_le]; constructor <;> nlinarith)
    refine this.trans (le_of_eq ?_)
    push_cast; ring

theorem mainLoop_near (hf : Fine c fb δ Q N n) {e : K} {l l' m : TLState K} (h : LNear fb δ e Q N n l l')
    (hm : whileLoop (fun l : TLState K => -EPS < l.horizon) TLState.body l = .ok m) :
    ∃ m', whileLoop (fun l : TLState K => -c.eps < l.horizon) (TLState.bodyR c) l' = .ok m' ∧
      LNear fb δ e Q N n m m' :=
  whileLoop_rel (LNear fb δ e Q N n) (fun _ _ hr => hr.cond hf) (fun _ _ hr hc _ hb => hr.body hf hc hb) h hm

/-! ### The first sample -/

/-- The threshold `T + EPSILON`. -/
theorem Fine.limit (hf : Fine c fb δ Q N n) {T : K} (hT : |T - ((n : ℤ) : K) * fb| ≤ δ) :
    |c.rnd (T + c.eps) - (((n : ℤ) : K) * fb + EPS)| ≤ 3 * δ := by
  have h0 := hf.fb0
  have h1 : |T + c.eps - (((n : ℤ) : K) * fb + EPS)| ≤ 2 * δ := by
    rw [show T + c.eps - (((n : ℤ) : K) * fb + EPS) = (T - ((n : ℤ) : K) * fb) + (c.eps - EPS) by ring]
    exact (abs_add_le _ _).trans (by linarith [hf.eps])
  have hE : (EPS : K) < 1 / 10 := by unfold EPS; norm_num
  have h2 : 2 * δ < EPS := by
    have := hf.sum (j := 2) (by omega); exact_mod_cast this
  have h3 : |T + c.eps| ≤ 1 + 2 * N * (n * fb) + Q * fb := by
    have hN : (1 : K) ≤ N := by exact_mod_cast hf.N0
    have hQ : (0 : K) ≤ Q := by positivity
    have hn : (0 : K) ≤ n := by positivity
    have h4 : (n : K) * fb ≤ N * (n * fb) := by nlinarith [mul_nonneg hn h0.le]
    have h5 : 0 ≤ (Q : K) * fb := by positivity
    have h6 : 0 ≤ (n : K) * fb := by positivity
    rw [abs_le] at h1 ⊢
    rw [Int.cast_natCast] at h1
    constructor <;> linarith [EPS_pos (K := K)]
  have h4 := hf.rnd _ h3
  have h5 := abs_add_le (c.rnd (T + c.eps) - (T + c.eps)) (T + c.eps - (((n : ℤ) : K) * fb + EPS))
  rw [sub_add_sub_cancel] at h5
  linarith

/-- The time up to the next sample. -/
theorem timeToSample_near (hf : Fine c fb δ Q N n) {T T' t t' r : K} {j k : ℕ} (hT : T = n * fb)
    (hT' : |T' - ((n : ℤ) : K) * fb| ≤ δ) (ht : t = j * fb) (ht' : |t' - ((j : ℤ) : K) * fb| ≤ ((2 * k + 1 : ℕ) : K) * δ)
    (hj : k + j ≤ Q) (hr : timeToSample T t = .ok r) :
    ∃ r', timeToSampleR c T' t' = .ok r' ∧ ∃ z : ℕ, z ≤ j ∧ z ≤ n ∧ (1 ≤ j → 1 ≤ z) ∧ r = z * fb ∧
      |r' - ((z : ℤ) : K) * fb| ≤ ((2 * Q + 1 : ℕ) : K) * δ := by
  have h0 := hf.fb0
  have hn := hf.n0
  have hδ := hf.δ0
  have hlim := hf.limit hT'
  have hlim0 : |T + EPS - (((n : ℤ) : K) * fb + EPS)| ≤ 0 := by rw [hT]; simp
  have hE := EPS_pos (K := K)
  let R : K → K → Prop := fun x x' => ∃ z i : ℕ, z + i ≤ j ∧ (1 ≤ j → 1 ≤ z) ∧ x = z * fb ∧
    |x' - ((z : ℤ) : K) * fb| ≤ ((2 * k + 1 + 2 * i : ℕ) : K) * δ
  have hcond : ∀ x x', R x x' → ∀ z i : ℕ, z + i ≤ j → x = z * fb →
      |x' - ((z : ℤ) : K) * fb| ≤ ((2 * k + 1 + 2 * i : ℕ) : K) * δ →
      ((T + EPS < x ↔ n + 1 ≤ z) ∧ (c.rnd (T' + c.eps) < x' ↔ n + 1 ≤ z)) := by
    intro x x' _ z i hz hx hx'
    have s1 := hf.sum (j := 2 * k + 1 + 2 * i + 3) (by omega)
    rw [Nat.cast_add] at s1
    push_cast at s1
    have a1 := (cmp_above (x := x) (E := 0) (z := (z : ℤ)) (by rw [hx]; simp) hlim0 (by linarith) hf.fb2).2
    have a2 := (cmp_above hx' hlim (by push_cast; linarith) hf.fb2).2
    refine ⟨a1.trans ?_, a2.trans ?_⟩ <;> exact_mod_cast Iff.rfl
  obtain ⟨r', hr', z, i, hz, hz1, hx, hx'⟩ := whileLoop_rel (cond' := fun t => c.rnd (T' + c.eps) < t)
    (body' := fun t => .ok (c.rnd (t - T'))) R
    (by
      rintro x x' ⟨z, i, hz, hz1, hx, hx'⟩
      obtain ⟨a1, a2⟩ := hcond x x' ⟨z, i, hz, hz1, hx, hx'⟩ z i hz hx hx'
      rw [a1, a2])
    (by
      rintro x x' ⟨z, i, hz, hz1, hx, hx'⟩ hc y hy
      cases hy
      obtain ⟨a1, -⟩ := hcond x x' ⟨z, i, hz, hz1, hx, hx'⟩ z i hz hx hx'
      have hzn := a1.1 hc
      have s1 := hf.sum (j := 2 * k + 1 + 2 * i + 1) (by omega)
      rw [Nat.cast_add, Nat.cast_one] at s1
      refine ⟨_, rfl, z - n, i + 1, by omega, fun _ => by omega, ?_, ?_⟩
      · rw [hx, hT, Nat.cast_sub (by omega)]; ring
      · have := hf.tick hx' hT' (by linarith) (w := ((z - n : ℕ) : ℤ)) (by omega) (by
          rw [abs_of_nonneg (by omega)]
          have h5 : ((z - n : ℕ) : ℤ) ≤ Q := by omega
          have h6 : (0 : ℤ) ≤ 2 * N * n := by positivity
          omega)
        refine this.trans (le_of_eq ?_)
        push_cast; ring)
    (s := t) (t := t') ⟨j, 0, by omega, fun h => h, ht, by simpa using ht'⟩ hr
  have hdone := (whileLoop_ok (fun _ => True) hr trivial fun _ _ _ _ _ => trivial).2
  obtain ⟨a1, -⟩ := hcond r r' ⟨z, i, hz, hz1, hx, hx'⟩ z i hz hx hx'
  have hzn : z ≤ n := by
    by_contra hc
    exact hdone (a1.2 (by omega))
  refine ⟨r', hr', z, by omega, hzn, hz1, hx, hx'.trans ?_⟩
  have h5 : ((2 * k + 1 + 2 * i : ℕ) : K) ≤ ((2 * Q + 1 : ℕ) : K) := by exact_mod_cast (by omega : 2 * k + 1 + 2 * i ≤ 2 * Q + 1)
  exact mul_le_mul_of_nonneg_right h5 hδ

/-- The weights of the samples are computed. -/
theorem sampleWeight_near (hf : Fine c fb δ Q N n) {e : K} {s s' : Sup K} (h : Near δ e s s') (ho : OnTicks fb Q N n s)
    {j k : ℕ} (ht : s.ttnp = j * fb) (he : e ≤ ((2 * k + 1 : ℕ) : K) * δ) (hj : k + j ≤ Q) {w : Mat K}
    (hw : s.sampleWeight = .ok w) : ∃ w', s'.sampleWeightR c = .ok w' := by
  unfold Sup.sampleWeight at hw
  obtain ⟨t, h1, hw⟩ := bind_eq_ok.1 hw
  have h2 : |s'.ttnp - ((j : ℤ) : K) * fb| ≤ ((2 * k + 1 : ℕ) : K) * δ := by
    have := h.ttnp; rw [ht] at this; rw [Int.cast_natCast]; exact this.trans he
  obtain ⟨t', g1, -⟩ := timeToSample_near hf ho.T (h.T' ho) ht h2 hj h1
  have hN : 0 < s'.N := by rw [h.N, ho.N]; exact hf.N0
  have hT0 : s'.T ≠ 0 := by
    have h3 := h.T' ho
    have h4 : δ < EPS := by have := hf.sum (j := 1) (by omega); simpa using this
    have h5 : (1 : K) ≤ n := by exact_mod_cast hf.n0
    have h6 := hf.fb2
    have h7 := EPS_pos (K := K)
    rw [abs_le, Int.cast_natCast] at h3
    have : 0 < s'.T := by nlinarith [h3.1]
    exact this.ne'
  unfold Sup.sampleWeightR
  rw [g1, ok_bind, if_neg hT0, Mat.set?_ok ⟨hN, hN⟩, ok_bind, requireIndex_pos hN, ok_bind]
  unfold Mat.at?
  rw [requireIndex_pos ⟨hN, hN⟩]
  simp only [ok_bind, res_pure]
  rw [Mat.set?_ok ⟨by simp [Mat.one]; omega, by simp [Mat.one]; omega⟩]
  exact ⟨_, rfl⟩

end MPC
