import Verif.Lemmas.RoundedSelect
/-! # Rounded clocks lead to the same walk (C83): control cycles -/
set_option linter.unusedSectionVars false
namespace MPC
open Spec
variable {K : Type} [Field K] [LinearOrder K] [IsStrictOrderedRing K]
variable {c : Clock K} {fb δ : K} {Q N n : ℕ}

/-- The two supervisors after `k` control periods of the current phase, which lasts `j` more. -/
structure Pair (fb δ : K) (Q N n j k : ℕ) (s s' : Sup K) : Prop where
  near : Near δ (((2 * k + 1 : ℕ) : K) * δ) s s'
  on : OnTicks fb Q N n s
  tick : s.ttnp = j * fb
  sum : k + j ≤ Q

theorem Pair.ttnp' {j k : ℕ} {s s' : Sup K} (h : Pair fb δ Q N n j k s s') :
    |s'.ttnp - ((j : ℤ) : K) * fb| ≤ ((2 * k + 1 : ℕ) : K) * δ := by
  have := h.near.ttnp; rw [h.tick] at this; rw [Int.cast_natCast]; exact this

/-- The phase change. -/
theorem popPhase_near (hf : Fine c fb δ Q N n) {j k : ℕ} {s s' : Sup K} (h : Pair fb δ Q N n j k s s') {v v' : Vec K}
    (hv : v'.size = v.size) {s₁ : Sup K} {v₁ : Vec K} (hp : s.popPhase v = .ok (s₁, v₁)) :
    ∃ s₁' v₁' j₁ k₁, s'.popPhaseR c v' = .ok (s₁', v₁') ∧ v₁'.size = v₁.size ∧ 1 ≤ j₁ ∧ Pair fb δ Q N n j₁ k₁ s₁ s₁' := by
  have hδ := hf.δ0
  have hE := EPS_pos (K := K)
  have hk := h.sum
  have s1 := hf.sum (j := 2 * k + 1 + 1) (by omega)
  rw [Nat.cast_add, Nat.cast_one] at s1
  have c1 : s.ttnp < EPS ↔ ((j : ℕ) : ℤ) ≤ 0 :=
    (cmp_above (x := s.ttnp) (θ := EPS) (E := 0) (D := 0) (z := (j : ℤ)) (m := 0) (fb := fb)
      (by rw [h.tick]; simp) (by simp) (by linarith) hf.fb2).1
  have c2 : s'.ttnp < c.eps ↔ ((j : ℕ) : ℤ) ≤ 0 :=
    (cmp_above (θ := c.eps) (D := δ) (m := 0) h.ttnp' (by simpa using hf.eps) (by linarith) hf.fb2).1
  unfold Sup.popPhase at hp
  unfold Sup.popPhaseR
  by_cases hj : (j : ℤ) ≤ 0
  · rw [if_pos (c1.2 hj)] at hp
    rw [if_pos (c2.2 hj)]
    obtain ⟨ds, h1, hp⟩ := bind_eq_ok.1 hp
    have hp' : ∃ w, (if ds = true then pure v else s.shorten v) = Except.ok w ∧ ∃ f, listAt s.timeline.tail 0 = .ok f ∧
        ({ s with timeline := s.timeline.tail, ttnp := f.duration }, w) = (s₁, v₁) := by
      cases ds
      · obtain ⟨w, h2, hp⟩ := bind_eq_ok.1 hp
        obtain ⟨f, h3, hp⟩ := bind_eq_ok.1 hp
        cases hp
        exact ⟨_, h2, f, h3, rfl⟩
      · obtain ⟨w, h2, hp⟩ := bind_eq_ok.1 hp
        obtain ⟨f, h3, hp⟩ := bind_eq_ok.1 hp
        cases hp
        exact ⟨_, h2, f, h3, rfl⟩
    obtain ⟨w, h2, f, h3, hp⟩ := hp'
    cases hp
    have h3' := listAt_eq_ok.1 h3
    rw [List.getElem?_tail] at h3'
    obtain ⟨f', g3, ht, hd⟩ := h.near.get h3'
    obtain ⟨d, d1, d2, d3⟩ := h.on.tl _ _ h3'
    have hw : ∃ w', (if ds = true then pure v' else s'.shorten v') = .ok w' ∧ w'.size = v₁.size := by
      cases ds
      · exact h.near.shorten hv h2
      · cases h2; exact ⟨v', rfl, hv⟩
    obtain ⟨w', g2, hw'⟩ := hw
    have g3' := listAt_of_get? (l := s'.timeline.tail) (by rw [List.getElem?_tail]; exact g3)
    rw [h.near.isInDS, h1, ok_bind]
    refine ⟨{ s' with timeline := s'.timeline.tail, ttnp := f'.duration }, w', d, 0, by
      cases ds
      · have g2 : s'.shorten v' = .ok w' := g2
        dsimp only
        rw [if_neg (by simp), g2, ok_bind, g3', ok_bind]; rfl
      · cases g2
        dsimp only
        rw [if_pos rfl, res_pure, ok_bind, g3', ok_bind]; rfl, hw', d1, ⟨h.near.N, h.near.M, h.near.move, h.near.T, h.near.step, h.near.ds, ?_, ?_, ?_,
      h.near.kinL, h.near.kinR, h.near.facL, h.near.facR⟩, ⟨h.on.N, h.on.T, h.on.per, ?_⟩, d3, by omega⟩
    · simpa using hd
    · simp [h.near.len]
    · intro i p p' hi hi'
      rw [List.getElem?_tail] at hi hi'
      exact h.near.tl _ p p' hi hi'
    · intro i p hi
      rw [List.getElem?_tail] at hi
      exact h.on.tl _ p hi
  · rw [if_neg (fun hc => hj (c1.1 hc))] at hp
    rw [if_neg (fun hc => hj (c2.1 hc))]
    cases hp
    exact ⟨s', v', j, k, rfl, hv, by omega, h⟩

theorem TLState.body_ttnp {l l' : TLState K} (h : l.body = .ok l') : l'.sup.ttnp = l.sup.ttnp := by
  obtain ⟨a, ha, h⟩ := bind_eq_ok.1 h
  obtain ⟨v, -, h⟩ := bind_eq_ok.1 h
  obtain ⟨w, -, h⟩ := bind_eq_ok.1 h
  cases h
  unfold TLState.nextPhase at ha
  split at ha
  · obtain ⟨last, -, ha⟩ := bind_eq_ok.1 ha
    cases ha
    rfl
  · cases ha; rfl

theorem TLState.bodyR_fb {l l' : TLState K} (h : l.bodyR c = .ok l') : l'.sup.fb = l.sup.fb := by
  obtain ⟨a, ha, h⟩ := bind_eq_ok.1 h
  obtain ⟨v, -, h⟩ := bind_eq_ok.1 h
  obtain ⟨w, -, h⟩ := bind_eq_ok.1 h
  cases h
  unfold TLState.nextPhaseR at ha
  split at ha
  · obtain ⟨last, -, ha⟩ := bind_eq_ok.1 ha
    cases ha
    rfl
  · cases ha; rfl

theorem Sup.popPhaseR_fb {s t : Sup K} {v w : Vec K} (h : s.popPhaseR c v = .ok (t, w)) : t.fb = s.fb := by
  unfold Sup.popPhaseR at h
  split at h
  · obtain ⟨ds, -, h⟩ := bind_eq_ok.1 h
    cases ds
    · obtain ⟨_, -, h⟩ := bind_eq_ok.1 h
      obtain ⟨_, -, h⟩ := bind_eq_ok.1 h
      cases h
      rfl
    · obtain ⟨_, -, h⟩ := bind_eq_ok.1 h
      obtain ⟨_, -, h⟩ := bind_eq_ok.1 h
      cases h
      rfl
  · cases h; rfl

/-- `updateTimeline` succeeds with the same matrices. -/
theorem updateTimeline_near (hf : Fine c fb δ Q N n) {j k : ℕ} {s s' : Sup K} (h : Pair fb δ Q N n j k s s') {v v' : Vec K}
    (hv : v'.size = v.size) {p p' : K} {t : Sup K} {w : Vec K} (hu : s.updateTimeline v p = .ok (t, w)) :
    ∃ t' w' j₁ k₁, s'.updateTimelineR c v' p' = .ok (t', w') ∧ w'.size = w.size ∧ 1 ≤ j₁ ∧ Pair fb δ Q N n j₁ k₁ t t' ∧
      t'.fb = p' ∧ t'.V = t.V ∧ t'.VT = t.VT ∧ t'.V0 = t.V0 ∧ t'.phaseIdx = t.phaseIdx := by
  unfold Sup.updateTimeline at hu
  obtain ⟨_, h1, hu⟩ := bind_eq_ok.1 hu
  obtain ⟨_, h2, hu⟩ := bind_eq_ok.1 hu
  dsimp only at hu
  obtain ⟨⟨s₁, v₁⟩, h3, hu⟩ := bind_eq_ok.1 hu
  dsimp only at hu
  obtain ⟨l, h4, hu⟩ := bind_eq_ok.1 hu
  obtain ⟨sv, h5, hu⟩ := bind_eq_ok.1 hu
  obtain ⟨wt, h6, hu⟩ := bind_eq_ok.1 hu
  obtain ⟨u, h7, hu⟩ := bind_eq_ok.1 hu
  cases hu
  have hP : Pair fb δ Q N n j k { s with fb := p } { s' with fb := p' } :=
    ⟨⟨h.near.N, h.near.M, h.near.move, h.near.T, h.near.step, h.near.ds, h.near.ttnp, h.near.len, h.near.tl,
      h.near.kinL, h.near.kinR, h.near.facL, h.near.facR⟩, ⟨h.on.N, h.on.T, h.on.per, h.on.tl⟩, h.tick, h.sum⟩
  obtain ⟨s₁', v₁', j₁, k₁, g3, hv₁, hj₁, hP₁⟩ := popPhase_near hf hP hv h3
  have hn := hP₁.near
  have ho := hP₁.on
  have hT := hn.T' ho
  have hδ := hf.δ0
  have hsum := hP₁.sum
  have hL : LNear fb δ (((2 * k₁ + 1 : ℕ) : K) * δ) Q N n
      ⟨{ s₁ with M := 0 }, 0, s₁.ttnp, s₁.N * s₁.T, v₁⟩
      ⟨{ s₁' with M := 0 }, 0, s₁'.ttnp, c.rnd (s₁'.N * s₁'.T), v₁'⟩ := by
    refine ⟨⟨hn.N, rfl, hn.move, hn.T, hn.step, hn.ds, hn.ttnp, hn.len, hn.tl, hn.kinL, hn.kinR, hn.facL, hn.facR⟩,
      ⟨ho.N, ho.T, ho.per, ho.tl⟩, rfl, hv₁, 0, by omega, ?_, ?_, j₁, by omega, by omega, ?_, ?_⟩
    · dsimp only; rw [ho.N, ho.T]; push_cast; ring
    · have e1 : |(s₁'.N : K) * s₁'.T - ((((N : ℤ) - (0 : ℕ)) * n : ℤ) : K) * fb| ≤ (N : K) * δ := by
        rw [hn.N, ho.N]
        have : (N : K) * s₁'.T - ((((N : ℤ) - (0 : ℕ)) * n : ℤ) : K) * fb = N * (s₁'.T - ((n : ℤ) : K) * fb) := by
          push_cast; ring
        rw [this, abs_mul, Nat.abs_cast]
        exact mul_le_mul_of_nonneg_left hT (by positivity)
      have s1 := hf.sum (j := N) (by omega)
      have hNn : (0 : ℤ) ≤ N * n := by positivity
      have e2 := hf.round e1 s1 (by
        rw [abs_of_nonneg (by push_cast; linarith)]; push_cast; linarith)
      refine e2.trans (le_of_eq ?_)
      push_cast; ring
    · dsimp only; rw [hP₁.tick]; simp
    · refine hP₁.ttnp'.trans (mul_le_mul_of_nonneg_right ?_ hδ)
      exact_mod_cast (by omega : 2 * k₁ + 1 ≤ 2 * Q + 1 + 2 * 0)
  obtain ⟨l', g4, hl⟩ := mainLoop_near hf hL h4
  have hN : l'.sup.N = l.sup.N := hl.sup.N
  have hN1 := (Vec.segment?_eq_ok h5).1
  obtain ⟨sv', g5⟩ : ∃ sv', l'.var.segment? (2 * l'.sup.N) (l'.var.size - 2 * l'.sup.N) = .ok sv' := by
    rw [hl.var, hN]
    exact ⟨_, Vec.segment?_ok (by rw [hl.var]; exact hN1)⟩
  have hmid : ∀ w₁ w₂, Pair fb δ Q N n j₁ k₁
      { l.sup with timeline := l.sup.timeline.take (l.idx + 1), stepVec := sv, weight := w₁ }
      { l'.sup with timeline := l'.sup.timeline.take (l'.idx + 1), stepVec := sv', weight := w₂ } := by
    intro w₁ w₂
    have ht : l.sup.ttnp = s₁.ttnp :=
      (whileLoop_ok (fun x : TLState K => x.sup.ttnp = s₁.ttnp) h4 rfl
        fun _ _ _ hx hb => (TLState.body_ttnp hb).trans hx).1
    refine ⟨⟨hN, hl.sup.M, hl.sup.move, hl.sup.T, hl.sup.step, hl.sup.ds, hl.sup.ttnp, ?_, ?_, hl.sup.kinL, hl.sup.kinR,
      hl.sup.facL, hl.sup.facR⟩, ⟨hl.on.N, hl.on.T, hl.on.per, ?_⟩, by dsimp only; rw [ht]; exact hP₁.tick, hsum⟩
    · simp [hl.idx, hl.sup.len]
    · intro i p p' hi hi'
      dsimp only at hi hi'
      rw [hl.idx] at hi'
      rw [List.getElem?_take] at hi hi'
      split at hi
      · rename_i hc
        rw [if_pos hc] at hi'
        exact hl.sup.tl i p p' hi hi'
      · cases hi
    · intro i p hi
      dsimp only at hi
      rw [List.getElem?_take] at hi
      split at hi
      · exact hl.on.tl i p hi
      · cases hi
  have hw0 := hmid l.sup.weight l'.sup.weight
  obtain ⟨wt', g6⟩ := sampleWeight_near hf hw0.near hw0.on hw0.tick le_rfl hsum h6
  have hw1 := hmid wt wt'
  obtain ⟨u', g7, V0, V, I, e1, e2⟩ := selection_near hf hw1.near hw1.on hw1.tick le_rfl hsum hj₁ h7
  unfold Sup.updateTimelineR
  rw [require_pos (by rw [h.near.len]; exact require_eq_ok.1 h1), ok_bind,
    require_pos (by rw [h.near.N, hv]; exact require_eq_ok.1 h2), ok_bind]
  dsimp only
  rw [g3, ok_bind]
  dsimp only
  rw [g4, ok_bind, g5, ok_bind, g6, ok_bind, g7, ok_bind]
  have hfb' : l'.sup.fb = p' :=
    (whileLoop_ok (fun x : TLState K => x.sup.fb = p') g4 (Sup.popPhaseR_fb g3)
      fun _ _ _ hx hb => (TLState.bodyR_fb hb).trans hx).1
  subst e1 e2
  refine ⟨_, _, j₁, k₁, rfl, hl.var, hj₁, ⟨⟨hw1.near.N, hw1.near.M, hw1.near.move, hw1.near.T, hw1.near.step, hw1.near.ds,
    hw1.near.ttnp, hw1.near.len, hw1.near.tl, hw1.near.kinL, hw1.near.kinR, hw1.near.facL, hw1.near.facR⟩,
    ⟨hw1.on.N, hw1.on.T, hw1.on.per, hw1.on.tl⟩, hw1.tick, hsum⟩, hfb', rfl, rfl, rfl, rfl⟩

end MPC
