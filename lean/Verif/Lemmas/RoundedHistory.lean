import Verif.Lemmas.RoundedFeet
/-! # Rounded clocks lead to the same walk (C83): histories -/
set_option linter.unusedSectionVars false
namespace MPC
open Spec
variable {K : Type} [Field K] [LinearOrder K] [IsStrictOrderedRing K]
variable {c : Clock K} {fb fb' δ : K} {Q N n : ℕ}

theorem Both.reach {a a' : Sup K × Vec K} (h : Both c fb fb' δ a a') : Reach (· = fb) CanStop a := by
  induction h with
  | start h => exact .start h
  | cycle _ hc _ ih => exact .cycle ih rfl hc
  | setMove _ hm ih => exact .setMove ih hm

theorem FineClock.fine {s : Sup K} (h : FineClock c fb δ Q s) (hN : 0 < s.N) (hn : 0 < n) (hT : s.T = n * fb) :
    Fine c fb δ Q s.N n :=
  ⟨hN, hn, h.period, (abs_nonneg _).trans h.eps, h.eps, fun x hx => h.rnd x (by rw [hT]; exact hx), h.small⟩

theorem FineClock.congr {s t : Sup K} (h : FineClock c fb δ Q s) (hN : t.N = s.N) (hT : t.T = s.T)
    (hs : t.stepPeriod = s.stepPeriod) (hd : t.dsPeriod = s.dsPeriod) : FineClock c fb δ Q t :=
  ⟨h.grid.congr hN hT hs hd, h.period, by rw [hs]; exact h.step, by rw [hd]; exact h.ds, h.eps,
    by rw [hN, hT]; exact h.rnd, by rw [hN]; exact h.small⟩

theorem FineClock.ticks {s : Sup K} (h : FineClock c fb δ Q s) (t : PhaseType) : Ticks fb Q (s.period t) := by
  have h0 : 0 < fb := EPS_pos.trans h.grid.pos
  have key : ∀ {d : ℕ} {x : K}, 0 < d → x = d * fb → x ≤ Q * fb → Ticks fb Q x := by
    intro d x hd hx hq
    refine ⟨d, hd, ?_, hx⟩
    rw [hx] at hq
    exact_mod_cast le_of_mul_le_mul_right hq h0
  obtain ⟨p, hp, e1⟩ := h.grid.step
  obtain ⟨d, hd, e2⟩ := h.grid.ds
  cases t
  · exact key hd e2 h.ds
  · exact key hp e1 h.step
  · exact key hp e1 h.step

/-- The matrices of the two supervisors are the same. -/
def SameMats (s s' : Sup K) : Prop := s'.V = s.V ∧ s'.VT = s.VT ∧ s'.V0 = s.V0 ∧ s'.phaseIdx = s.phaseIdx

theorem Ready.pair {a a' : Sup K × Vec K} (hr : Ready a) (hw : SameWalk a.1 a'.1) (ht : StoredTimes δ a.1 a'.1)
    (hL : a'.1.left = a.1.left) (hR : a'.1.right = a.1.right) (hf : FineClock c fb δ Q a.1) (hT : a.1.T = n * fb) :
    ∃ j k, Pair fb δ Q a.1.N n j k a.1 a'.1 := by
  obtain ⟨d, d1, d2, d3⟩ := FineClock.ticks hf .DS
  have d3 : a.1.dsPeriod = d * fb := d3
  refine ⟨d, 0, ⟨hw.N, hw.M, hw.move, ht.T, ht.step, ht.ds, by simpa using ht.ttnp, ?_, ?_, by rw [hL], by rw [hR],
    by rw [hL]; exact hr.left, by rw [hR]; exact hr.right⟩, ⟨rfl, hT, FineClock.ticks hf, ?_⟩, by rw [hr.ttnp, d3], by omega⟩
  · have := congrArg List.length hw.types
    simpa using this
  · intro k p p' hp hp'
    refine ⟨?_, ht.durations k p p' hp hp'⟩
    have := congrArg (fun l => l[k]?) hw.types
    simp only [List.getElem?_map, hp, hp'] at this
    simpa using this
  · intro k p hp
    rw [hr.timeline] at hp
    cases k with
    | zero => cases hp; exact ⟨d, d1, d2, d3⟩
    | succ k => simp at hp

/-- The first footstep exists during a single support. -/
theorem GInv.steps {a : Sup K × Vec K} {f : Phase K} {mv : Bool} {R : K} (h : GInv fb a f mv R) (hg : Grid fb a.1)
    {s : Sup K} {v : Vec K} (hu : a.1.updateTimeline a.2 fb = .ok (s, v)) :
    ∃ f₁, s.timeline[0]? = some f₁ ∧ (f₁.type ≠ .DS → 1 ≤ s.M) := by
  obtain ⟨s₁, v₁, f₁, m, hU⟩ := h.hist.update hu
  exact ⟨f₁, hU.front', fun hd => (hU.one_le h.hist.T (((h.running hg hU.running).2 hd).trans hg.horizon)).2 hd⟩

/-- The two histories stay together. -/
theorem Both.pair {a a' : Sup K × Vec K} (h : Both c fb fb' δ a a') (hfb : |fb' - fb| ≤ δ) (hf : FineClock c fb δ Q a.1)
    (hn : 0 < n) (hT : a.1.T = n * fb) :
    (∃ j k, Pair fb δ Q a.1.N n j k a.1 a'.1) ∧ a'.2.size = a.2.size ∧ SameMats a.1 a'.1 := by
  have h0 : 0 < fb := EPS_pos.trans hf.grid.pos
  induction h with
  | start hr hw ht hL hR hv => exact ⟨Ready.pair hr hw ht hL hR hf hT, hv, hw.V, hw.VT, hw.V0, hw.phaseIdx⟩
  | @cycle a a' b b' h hc hc' ih =>
    obtain ⟨g, mv, R, hI⟩ := (Both.reach h).hinv (by rintro x rfl; exact h0.le) (fun _ _ h => h)
    obtain ⟨e1, e2, e3, e4, -⟩ := hc.params hI
    have hf' : FineClock c fb δ Q a.1 := FineClock.congr hf e1.symm e2.symm e3.symm e4.symm
    obtain ⟨⟨j, k, hP⟩, hv, -⟩ := ih hf' (by rw [← e2]; exact hT)
    obtain ⟨g, mv, R, hG⟩ := (Both.reach h).ginv h0.le hf'.grid
    have hF := FineClock.fine hf' hI.N hn (by rw [← e2]; exact hT)
    obtain ⟨s₁, v₁, h1, h2, h3⟩ := hc
    obtain ⟨s₁', v₁', h1', h2', h3'⟩ := hc'
    obtain ⟨t', w', j₁, k₁, g1, gv, gj, gP, -, gV⟩ := updateTimeline_near hF hP hv (p' := fb') h1
    rw [h1'] at g1
    cases g1
    obtain ⟨f₁, hf₁, hM⟩ := hG.steps hf'.grid h1
    obtain ⟨t', k1, k2, -, k3⟩ := updateFeet_near hF gP gj hf₁ hM
      (sv' := ⟨2 * s₁'.M, fun i => b'.2.get (2 * s₁'.N + i)⟩) rfl hfb h3
    rw [h3'] at k1
    cases k1
    obtain ⟨L, R, eb⟩ := Sup.updateFeet_eq h3
    refine ⟨⟨j₁ - 1, k₁ + 1, by rw [e1]; exact k2⟩, by rw [h2', h2, gv], ?_⟩
    rw [eb]
    exact ⟨k3.1.trans gV.1, k3.2.1.trans gV.2.1, k3.2.2.1.trans gV.2.2.1, k3.2.2.2.trans gV.2.2.2⟩
  | @setMove a a' m h hm ih =>
    obtain ⟨⟨j, k, hP⟩, hv, hS⟩ := ih (FineClock.congr hf rfl rfl rfl rfl) hT
    exact ⟨⟨j, k, ⟨hP.near.N, hP.near.M, rfl, hP.near.T, hP.near.step, hP.near.ds, hP.near.ttnp, hP.near.len, hP.near.tl,
      hP.near.kinL, hP.near.kinR, hP.near.facL, hP.near.facR⟩, ⟨hP.on.N, hP.on.T, hP.on.per, hP.on.tl⟩, hP.tick, hP.sum⟩,
      hv, hS⟩

theorem Near.types {e : K} {s s' : Sup K} (h : Near δ e s s') :
    s'.timeline.map (fun p => p.type) = s.timeline.map (fun p => p.type) := by
  apply List.ext_getElem?
  intro k
  rw [List.getElem?_map, List.getElem?_map]
  by_cases hk : k < s.timeline.length
  · obtain ⟨p', h1, h2, -⟩ := h.get (List.getElem?_eq_getElem hk)
    rw [h1, List.getElem?_eq_getElem hk]
    simp [h2]
  · rw [List.getElem?_eq_none (by rw [h.len]; omega), List.getElem?_eq_none (by omega)]

theorem Pair.walk {j k : ℕ} {s s' : Sup K} (h : Pair fb δ Q N n j k s s') (hm : SameMats s s') : SameWalk s s' :=
  ⟨h.near.N, h.near.M, h.near.move, h.near.types, hm.1, hm.2.1, hm.2.2.1, hm.2.2.2⟩

theorem Pair.remaining {j k : ℕ} {s s' : Sup K} (h : Pair fb δ Q N n j k s s') (hδ : 0 ≤ δ) :
    |s'.ttnp - s.ttnp| ≤ (2 * Q + 1) * δ := by
  refine h.near.ttnp.trans (mul_le_mul_of_nonneg_right ?_ hδ)
  have := h.sum
  exact_mod_cast (by omega : 2 * k + 1 ≤ 2 * Q + 1)

theorem truncInt_near [FloorRing K] {x : K} {z : ℕ} (h1 : (z : K) ≤ x) (h2 : x < z + 1) : truncInt x = z := by
  have h0 : (0 : K) ≤ x := le_trans (by positivity) h1
  unfold truncInt
  rw [if_pos h0, Int.floor_eq_iff]
  exact ⟨by exact_mod_cast h1, by exact_mod_cast h2⟩

/-- The number of calls before the next sample. -/
theorem Pair.calls [FloorRing K] (hf : Fine c fb δ Q N n) {j k : ℕ} {s s' : Sup K} (h : Pair fb δ Q N n j k s s')
    (hs : s.fb = fb) (hs' : s'.fb = fb') (hfb : |fb' - fb| ≤ δ) (h4 : 4 * EPS ≤ fb)
    (hq : ∀ z : ℕ, z ≤ Q → ∀ x : K, z ≤ x → x ≤ z + 3 / 4 → (z : K) ≤ c.rnd x ∧ c.rnd x < z + 1) {i : ℤ}
    (hi : s.nbCalls = .ok i) : s'.nbCallsR c = .ok i := by
  have h0 := hf.fb0
  have hδ := hf.δ0
  have hE := EPS_pos (K := K)
  unfold Sup.nbCalls at hi
  obtain ⟨t, ht, hi⟩ := bind_eq_ok.1 hi
  obtain ⟨t', ht', z, z1, z2, -, z4, z5⟩ := timeToSample_near hf h.on.T (h.near.T' h.on) h.tick h.ttnp' h.sum ht
  have hzQ : z ≤ Q := by have := h.sum; omega
  rw [if_neg (by rw [hs]; exact h0.ne')] at hi
  have ei : i = z := by
    have := (Except.ok.inj hi).symm
    rw [this, hs, z4]
    have e : ((z : K) * fb + EPS) / fb = z + EPS / fb := by field_simp
    rw [e]
    have h1 : EPS / fb < 1 := by rw [div_lt_one h0]; linarith
    have h2 : (0 : K) < EPS / fb := by positivity
    exact truncInt_near (by linarith) (by linarith)
  have s3 := hf.sum (j := 3 * Q + 5) (by have := hf.N0; omega)
  push_cast at s3
  have hE1 : (EPS : K) < 1 / 10 := by unfold EPS; norm_num
  have hzq : (z : K) ≤ Q := by exact_mod_cast hzQ
  have hzfb : (z : K) * fb ≤ Q * fb := mul_le_mul_of_nonneg_right hzq h0.le
  have hz0 : (0 : K) ≤ z := by positivity
  have hQ0 : (0 : K) ≤ Q := by positivity
  have hQδ : (0 : K) ≤ Q * δ := by positivity
  have hN : (1 : K) ≤ N := by exact_mod_cast hf.N0
  have hn1 : (1 : K) ≤ n := by exact_mod_cast hf.n0
  have hnfb : fb ≤ N * (n * fb) := by
    have : fb ≤ n * fb := le_mul_of_one_le_left h0.le hn1
    exact this.trans (le_mul_of_one_le_left (by positivity) hN)
  have a1 : |t' + c.eps - (z * fb + EPS)| ≤ (2 * Q + 2) * δ := by
    rw [show t' + c.eps - (z * fb + EPS) = (t' - ((z : ℤ) : K) * fb) + (c.eps - EPS) by push_cast; ring]
    refine (abs_add_le _ _).trans ((add_le_add z5 hf.eps).trans (le_of_eq ?_))
    push_cast; ring
  have a2 := hf.rnd_near a1 (by linarith) (by
    rw [abs_of_nonneg (by positivity)]
    have : 0 ≤ (N : K) * (n * fb) := by positivity
    linarith)
  set x := c.rnd (t' + c.eps) with hx
  rw [abs_le] at a2 hfb
  have hzδ : (z : K) * δ ≤ Q * δ := mul_le_mul_of_nonneg_right hzq hδ
  have hfb'0 : 0 < fb' := by linarith [hfb.1]
  have b1 : (z : K) * fb' ≤ x := by
    have : (z : K) * fb' ≤ z * (fb + δ) := mul_le_mul_of_nonneg_left (by linarith [hfb.2]) hz0
    rw [mul_add] at this
    linarith [a2.1]
  have b2 : x ≤ (z + 3 / 4) * fb' := by
    have : (z + 3 / 4 : K) * (fb - δ) ≤ (z + 3 / 4) * fb' := mul_le_mul_of_nonneg_left (by linarith [hfb.1]) (by linarith)
    have e : (z + 3 / 4 : K) * (fb - δ) = z * fb + 3 / 4 * fb - z * δ - 3 / 4 * δ := by ring
    rw [e] at this
    linarith [a2.2]
  obtain ⟨q1, q2⟩ := hq z hzQ (x / fb') (by rw [le_div_iff₀ hfb'0]; exact b1) (by rw [div_le_iff₀ hfb'0]; exact b2)
  unfold Sup.nbCallsR
  rw [ht', ok_bind, if_neg (by rw [hs']; exact hfb'0.ne'), hs', ei, truncInt_near q1 q2]
  rfl

theorem TLState.bodyR_ttnp {l l' : TLState K} (h : l.bodyR c = .ok l') : l'.sup.ttnp = l.sup.ttnp := by
  obtain ⟨a, ha, h⟩ := bind_eq_ok.1 h
  obtain ⟨v, -, h⟩ := bind_eq_ok.1 h
  obtain ⟨w, -, h⟩ := bind_eq_ok.1 h
  cases h
  unfold TLState.nextPhaseR at ha
  split at ha
  · obtain ⟨last, -, ha⟩ := bind_eq_ok.1 ha
    cases ha
    rfl
  · cases ha; rfl

theorem Sup.updateTimelineR_ttnp {s t : Sup K} {v w : Vec K} {p : K} (h : s.updateTimelineR c v p = .ok (t, w))
    (hc : c.eps ≤ s.ttnp) : t.ttnp = s.ttnp := by
  unfold Sup.updateTimelineR at h
  obtain ⟨_, -, h⟩ := bind_eq_ok.1 h
  obtain ⟨_, -, h⟩ := bind_eq_ok.1 h
  dsimp only at h
  obtain ⟨⟨s₁, v₁⟩, h3, h⟩ := bind_eq_ok.1 h
  dsimp only at h
  obtain ⟨l, h4, h⟩ := bind_eq_ok.1 h
  obtain ⟨sv, -, h⟩ := bind_eq_ok.1 h
  obtain ⟨wt, -, h⟩ := bind_eq_ok.1 h
  obtain ⟨u, h7, h⟩ := bind_eq_ok.1 h
  cases h
  have e1 : s₁.ttnp = s.ttnp := by
    unfold Sup.popPhaseR at h3
    rw [if_neg (not_lt.2 hc)] at h3
    cases h3; rfl
  have e2 : l.sup.ttnp = s₁.ttnp := (whileLoop_ok (fun x : TLState K => x.sup.ttnp = s₁.ttnp) h4 rfl
    fun _ _ _ hx hb => (TLState.bodyR_ttnp hb).trans hx).1
  unfold Sup.selectionR at h7
  obtain ⟨_, -, h7⟩ := bind_eq_ok.1 h7
  obtain ⟨_, -, h7⟩ := bind_eq_ok.1 h7
  obtain ⟨_, -, h7⟩ := bind_eq_ok.1 h7
  cases h7
  exact e2.trans e1

theorem Sup.updateFeetR_ttnp {s t : Sup K} {sv : Vec K} {p : K} (h : s.updateFeetStatesR c sv p = .ok t) :
    t.ttnp = c.rnd (s.ttnp - p) := by
  unfold Sup.updateFeetStatesR at h
  obtain ⟨f, -, h⟩ := bind_eq_ok.1 h
  obtain ⟨ds, -, h⟩ := bind_eq_ok.1 h
  dsimp only at h
  split at h
  · cases hty : f.type with
    | DS => rw [hty] at h; simp at h
    | leftSS =>
      rw [hty] at h
      obtain ⟨_, -, h⟩ := bind_eq_ok.1 h
      obtain ⟨_, -, h⟩ := bind_eq_ok.1 h
      obtain ⟨g, -, h⟩ := bind_eq_ok.1 h
      cases h
      rfl
    | rightSS =>
      rw [hty] at h
      obtain ⟨_, -, h⟩ := bind_eq_ok.1 h
      obtain ⟨_, -, h⟩ := bind_eq_ok.1 h
      obtain ⟨g, -, h⟩ := bind_eq_ok.1 h
      cases h
      rfl
  · cases h
    rfl

end MPC
