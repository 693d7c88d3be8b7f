import Verif.Lemmas.RoundedHistory
import Verif.Lemmas.FloatRound
/-! # A robot at rest with rounded clocks (C84) -/

namespace MPC

variable {K : Type} [Field K] [LinearOrder K] [IsStrictOrderedRing K]

/-- A supervisor at rest with one sample of 5 s and phases of 5 s. -/
structure Rests (t : K) (a : Sup K × Vec K) : Prop where
  N : a.1.N = 1
  T : a.1.T = 5
  ds : a.1.dsPeriod = 5
  move : a.1.move = false
  ttnp : a.1.ttnp = t
  tl : a.1.timeline = [⟨.DS, 5⟩] ∨ a.1.timeline = [⟨.DS, 5⟩, ⟨.DS, 5⟩]
  var : a.2.size = 2

variable {c : Clock K}

/-- Errors of one millionth. -/
structure Rough (c : Clock K) : Prop where
  rnd : ∀ x, |x| ≤ 11 → |c.rnd x - x| ≤ 1 / 1000000
  eps : |c.eps - EPS| ≤ 1 / 1000000

theorem Rough.near (h : Rough c) {x y e : K} (hx : |x - y| ≤ e) (he : e ≤ 1 / 100000) (hy : |y| ≤ 10) :
    |c.rnd x - y| ≤ e + 1 / 1000000 := by
  have h1 : |x| ≤ 11 := by
    rw [abs_le] at *
    constructor <;> linarith [hx.1, hx.2, hy.1, hy.2]
  have h2 := h.rnd x h1
  rw [abs_le] at *
  constructor <;> linarith [hx.1, hx.2, h2.1, h2.2]

section
variable (h : Rough c) {s : Sup K} {v : Vec K} {t fb : K}
include h

theorem Rests.update (hr : Rests t (s, v)) (h1 : EPS + 5 / 1000000 ≤ t) (h2 : t ≤ 5) :
    ∃ s', s.updateTimelineR c v fb = .ok (s', v) ∧ Rests t (s', v) ∧ s'.M = 0 ∧ s'.fb = fb := by
  obtain ⟨hN, hT, hd, hm, htt, htl, hv⟩ := hr
  dsimp only at hN hT hd hm htt htl hv
  have hE : (EPS : K) = 1 / 10000 := rfl
  have he := abs_le.1 h.eps
  rw [hE] at he h1
  have t0 : ¬ t < c.eps := not_lt.2 (by linarith [he.2])
  have hTl : 0 < s.timeline.length := by rcases htl with e | e <;> simp [e]
  have hl0 : listAt s.timeline 0 = .ok ⟨.DS, 5⟩ := by rcases htl with e | e <;> simp [e, listAt]
  -- the first loop
  set r1 := c.rnd ((1 : ℕ) * 5) with hr1
  set r0 := c.rnd (r1 - 5) with hr0
  set rm := c.rnd (r0 - 5) with hrm
  have e5 : |r1 - 5| ≤ (2 : K) / 1000000 :=
    (h.near (x := (1 : ℕ) * 5) (y := 5) (e := 1 / 1000000) (by norm_num) (by norm_num) (by norm_num)).trans (by norm_num)
  have e0 : |r0 - 0| ≤ (3 : K) / 1000000 :=
    (h.near (y := 0) (e := 2 / 1000000) (by rwa [sub_zero]) (by norm_num) (by norm_num)).trans (by norm_num)
  rw [sub_zero] at e0
  have em : |rm - (-5)| ≤ (4 : K) / 1000000 :=
    (h.near (y := -5) (e := 3 / 1000000) (by rwa [show ∀ x : K, x - 5 - -5 = x by intro x; ring])
      (by norm_num) (by norm_num)).trans (by norm_num)
  have et : |c.rnd (t - 5) - (t - 5)| ≤ (1 : K) / 1000000 := h.rnd _ (by rw [abs_le]; constructor <;> linarith)
  set s1 : Sup K := { s with fb := fb } with hs1
  have hpop : s1.popPhaseR c v = .ok (s1, v) := by
    unfold Sup.popPhaseR
    rw [if_neg (by rw [hs1]; dsimp only; rw [htt]; exact t0)]
    rfl
  set s2 : Sup K := { s1 with M := 0 } with hs2
  have hel : ∀ u : Sup K, u.N = 1 → u.M = 0 → u.enlargeLoop v = .ok v := by
    intro u e1 e2
    unfold Sup.enlargeLoop
    rw [whileLoop_done (by rw [e1, e2, hv]; norm_num)]
  have htr : ∀ u : Sup K, u.N = 1 → u.trim v = .ok v := by
    intro u e1
    unfold Sup.trim
    rw [if_neg (by rw [e1, hv]; norm_num)]
    rfl
  have hb1 : TLState.bodyR c ⟨s2, 0, s2.ttnp, c.rnd (s1.N * s1.T), v⟩ =
      .ok ⟨s2, 0, c.rnd (t - 5), r0, v⟩ := by
    unfold TLState.bodyR TLState.nextPhaseR
    rw [if_neg (by dsimp only [hs2, hs1]; rw [htt]; exact t0)]
    simp only [pure_bind, bind, Except.bind, pure, Except.pure]
    rw [hel s2 hN rfl]
    dsimp only
    rw [htr s2 hN]
    dsimp only [hs2, hs1]
    rw [hN, hT, htt]
  set tl2 : List (Phase K) := if 0 + 1 = s2.timeline.length then s2.timeline ++ [⟨.DS, 5⟩]
      else s2.timeline.set (0 + 1) ⟨.DS, 5⟩ with htl2
  have htl2e : tl2 = [⟨.DS, 5⟩, ⟨.DS, 5⟩] := by
    rw [htl2, hs2, hs1]
    dsimp only
    rcases htl with e | e <;> rw [e] <;> simp
  set s3 : Sup K := { s2 with timeline := tl2 } with hs3
  have hb2 : TLState.bodyR c ⟨s2, 0, c.rnd (t - 5), r0, v⟩ =
      .ok ⟨s3, 1, c.rnd (5 - 5), rm, v⟩ := by
    have hlt : c.rnd (t - 5) < c.eps := by linarith [(abs_le.1 et).2, he.1]
    have hl2 : listAt s2.timeline 0 = .ok ⟨.DS, 5⟩ := hl0
    have hnp : s2.nextPhase ⟨.DS, 5⟩ = ⟨.DS, 5⟩ := by
      unfold Sup.nextPhase Sup.nextType Sup.period
      dsimp only [hs2, hs1]
      rw [hm, hd]
      rfl
    unfold TLState.bodyR TLState.nextPhaseR
    rw [if_pos hlt]
    dsimp only
    rw [hl2]
    simp only [bind, Except.bind, pure, Except.pure, hnp, if_true]
    rw [← htl2]
    rw [show ({ s2 with timeline := tl2 } : Sup K) = s3 from rfl, hel s3 hN rfl]
    dsimp only
    rw [htr s3 hN]
    dsimp only
    rw [show s2.T = 5 from hT]
  have hloop : whileLoop (fun l : TLState K => -c.eps < l.horizon) (TLState.bodyR c)
      ⟨s2, 0, s2.ttnp, c.rnd (s1.N * s1.T), v⟩ =
      .ok ⟨s3, 1, c.rnd (5 - 5), rm, v⟩ := by
    have k1 : -c.eps < c.rnd ((s1.N : K) * s1.T) := by
      rw [show s1.N = 1 from hN, show s1.T = 5 from hT, ← hr1]; linarith [(abs_le.1 e5).1, he.1]
    have k2 : -c.eps < r0 := by linarith [(abs_le.1 e0).1, he.1]
    have k3 : ¬ -c.eps < rm := by
      rw [not_lt]; linarith [(abs_le.1 em).2, he.2]
    rw [whileLoop_step (cond := fun l : TLState K => -c.eps < l.horizon) k1 hb1,
      whileLoop_step (cond := fun l : TLState K => -c.eps < l.horizon) k2 hb2,
      whileLoop_done (cond := fun l : TLState K => -c.eps < l.horizon) k3]
  -- the rest
  have hts : timeToSampleR c 5 t = .ok t := by
    unfold timeToSampleR
    have k : |c.rnd (5 + c.eps) - (5 + EPS)| ≤ (2 : K) / 1000000 :=
      (h.near (y := 5 + EPS) (e := 1 / 1000000) (by rw [show ∀ x y : K, 5 + x - (5 + y) = x - y by intros; ring]; exact h.eps)
        (by norm_num) (by rw [hE]; norm_num)).trans (by norm_num)
    rw [hE] at k
    rw [whileLoop_done (by rw [not_lt]; linarith [(abs_le.1 k).1])]
  set sv : Vec K := ⟨v.size - 2 * 1, fun i => v.get (2 * 1 + i)⟩ with hsv
  obtain ⟨w, hw⟩ : ∃ w, ({ s3 with stepVec := sv } : Sup K).sampleWeightR c = .ok w := by
    unfold Sup.sampleWeightR
    dsimp only [hs3, hs2, hs1]
    rw [hT, htt, hts, hN]
    dsimp only [bind, Except.bind]
    rw [if_neg (by norm_num)]
    refine ⟨_, rfl⟩
  set s4 : Sup K := { s3 with stepVec := sv, weight := w } with hs4
  have hl4 : s4.timeline = [⟨.DS, 5⟩, ⟨.DS, 5⟩] := htl2e
  have hds : s4.isInDS = .ok true := by
    unfold Sup.isInDS; rw [hl4]; rfl
  have hsel : ∃ V0 V I, s4.selectionR c = .ok { s4 with V0 := V0, V := V, VT := V.transpose, phaseIdx := I } := by
    set l0 : SelState K := ⟨Mat.zero 1 1, Mat.zero 1 0, Vec.const 1 0, 0, 0, 1, t, c.rnd (r1 - t)⟩ with hl0'
    have q1 : |c.rnd (r1 - t) - (5 - t)| ≤ (3 : K) / 1000000 :=
      (h.near (y := 5 - t) (e := 2 / 1000000) (by rwa [show ∀ x : K, x - t - (5 - t) = x - 5 by intro x; ring])
        (by norm_num) (by rw [abs_le]; constructor <;> linarith)).trans (by norm_num)
    have q2 : |c.rnd (c.rnd (r1 - t) - 5) - (-t)| ≤ (4 : K) / 1000000 :=
      (h.near (y := -t) (e := 3 / 1000000)
        (by rwa [show ∀ x : K, x - 5 - -t = x - (5 - t) by intro x; ring])
        (by norm_num) (by rw [abs_le]; constructor <;> linarith)).trans (by norm_num)
    have k0 : ¬ (c.rnd (5 + c.eps) < t ∧ (0 : ℕ) < 1) := by
      have k : |c.rnd (5 + c.eps) - (5 + EPS)| ≤ (2 : K) / 1000000 :=
        (h.near (y := 5 + EPS) (e := 1 / 1000000) (by rw [show ∀ x y : K, 5 + x - (5 + y) = x - y by intros; ring]; exact h.eps)
          (by norm_num) (by rw [hE]; norm_num)).trans (by norm_num)
      rw [hE] at k
      rintro ⟨k', -⟩
      linarith [(abs_le.1 k).1]
    have houter : ∃ V0 V I, s4.selOuterR c l0 =
        .ok ⟨V0, V, I, 1, 0, 2, c.rnd (5 - 5), c.rnd (c.rnd (r1 - t) - 5)⟩ := by
      have hin : ∃ V0 V I, s4.selInnerR c { l0 with phaseTimer := 5 } =
          .ok ⟨V0, V, I, 1, 0, 1, c.rnd (5 - 5), c.rnd (c.rnd (r1 - t) - 5)⟩ := by
        unfold Sup.selInnerR
        rw [hds]
        simp only [bind, Except.bind, pure, Except.pure, hl0']
        rw [show s4.T = 5 from hT]
        refine ⟨_, _, _, rfl⟩
      obtain ⟨V0, V, I, hin⟩ := hin
      refine ⟨V0, V, I, ?_⟩
      unfold Sup.selOuterR
      have hl1 : listAt s4.timeline l0.phase = .ok ⟨.DS, 5⟩ := by rw [hl4]; rfl
      rw [hl1]
      simp only [bind, Except.bind, pure, Except.pure, hds]
      rw [show s4.N = 1 from hN]
      rw [whileLoop_step (cond := fun l : SelState K => c.eps < l.phaseTimer ∧ l.row < 1)
        (by refine ⟨?_, Nat.one_pos⟩; change c.eps < 5; linarith [he.2]) hin,
        whileLoop_done (cond := fun l : SelState K => c.eps < l.phaseTimer ∧ l.row < 1) (by rintro ⟨-, k⟩; exact lt_irrefl _ k)]
      rw [show s4.move = false from hm]
      simp
    obtain ⟨V0, V, I, houter⟩ := houter
    refine ⟨V0, V, I, ?_⟩
    unfold Sup.selectionR
    rw [show s4.N = 1 from hN, show s4.T = 5 from hT, show s4.ttnp = t from htt, show s4.M = 0 from rfl]
    simp only [require, bind, Except.bind, pure, Except.pure, Nat.one_pos, if_true]
    rw [whileLoop_done (by exact k0)]
    dsimp only
    rw [← hr1]
    rw [whileLoop_step (cond := fun l : SelState K => -c.eps < l.horizon) (t := ⟨V0, V, I, 1, 0, 2, c.rnd (5 - 5), c.rnd (c.rnd (r1 - t) - 5)⟩)
      (by change -c.eps < c.rnd (r1 - t); linarith [(abs_le.1 q1).1, he.1]) houter,
      whileLoop_done (cond := fun l : SelState K => -c.eps < l.horizon)
      (by change ¬ -c.eps < c.rnd (c.rnd (r1 - t) - 5); rw [not_lt]; linarith [(abs_le.1 q2).2, he.2])]
  obtain ⟨V0, V, I, hsel⟩ := hsel
  refine ⟨{ s4 with V0 := V0, V := V, VT := V.transpose, phaseIdx := I }, ?_, ⟨hN, hT, hd, hm, htt, Or.inr htl2e, hv⟩, rfl, rfl⟩
  unfold Sup.updateTimelineR
  simp only [require, bind, Except.bind, pure, Except.pure, if_pos hTl]
  rw [if_pos (by rw [hN, hv])]
  dsimp only
  rw [show ({ s with fb := fb } : Sup K) = s1 from rfl, hpop]
  dsimp only
  rw [show ({ s1 with M := 0 } : Sup K) = s2 from rfl, show s1.ttnp = s2.ttnp from rfl, hloop]
  dsimp only
  have htk : tl2.take 2 = tl2 := by rw [htl2e]; rfl
  have hseg : v.segment? (2 * 1) (v.size - 2 * 1) = .ok sv := by
    unfold Vec.segment? requireIndex
    rw [if_pos (by rw [hv])]
    rfl
  rw [show s3.timeline = tl2 from rfl, htk, show v.segment? (2 * s3.N) (v.size - 2 * s3.N) = .ok sv by
    rw [show s3.N = 1 from hN, hseg]]
  dsimp only
  rw [show Sup.sampleWeightR c { s3 with stepVec := sv, timeline := tl2 } = .ok w from hw]
  dsimp only
  rw [show Sup.selectionR c { s3 with stepVec := sv, weight := w, timeline := tl2 } = _ from hsel]

/-- A cycle of a robot at rest. -/
theorem Rests.cycle (hr : Rests t (s, v)) (h1 : EPS + 5 / 1000000 ≤ t) (h2 : t ≤ 5) :
    ∃ b, CycleR c fb (s, v) b ∧ Rests (c.rnd (t - fb)) b := by
  obtain ⟨s', hu, hr', hM, -⟩ := Rests.update h hr h1 h2 (fb := fb)
  obtain ⟨hN, hT, hd, hm, htt, htl, hv⟩ := hr'
  dsimp only at hN hT hd hm htt htl hv
  refine ⟨({ s' with stepVec := ⟨2 * s'.M, fun i => v.get (2 * s'.N + i)⟩, ttnp := c.rnd (t - fb) }, v), ⟨s', v, hu, rfl, ?_⟩,
    ⟨hN, hT, hd, hm, rfl, htl, hv⟩⟩
  unfold Sup.updateFeetStatesR
  have hl : listAt s'.timeline 0 = .ok ⟨.DS, 5⟩ := by rcases htl with e | e <;> simp [e, listAt]
  simp only [bind, Except.bind, pure, Except.pure, Sup.isInDS, hl, htt]
  simp

/-- Many cycles. -/
theorem Rests.cycles {k : ℕ} (hk : ∀ i < k, EPS + 5 / 1000000 ≤ (fun x => c.rnd (x - fb))^[i] t ∧
      (fun x => c.rnd (x - fb))^[i] t ≤ 5) {a : Sup K × Vec K} (hr : Rests t a) :
    ∃ b : ℕ → Sup K × Vec K, b 0 = a ∧ (∀ i < k, CycleR c fb (b i) (b (i + 1))) ∧
      Rests ((fun x => c.rnd (x - fb))^[k] t) (b k) := by
  induction k with
  | zero => exact ⟨fun _ => a, rfl, by simp, hr⟩
  | succ k ih =>
    obtain ⟨b, h0, h1, h2⟩ := ih fun i hi => hk i (by omega)
    obtain ⟨b', h3, h4⟩ := Rests.cycle h (s := (b k).1) (v := (b k).2) h2 (hk k (by omega)).1 (hk k (by omega)).2 (fb := fb)
    refine ⟨fun i => if i ≤ k then b i else b', by simp [h0], fun i hi => ?_, ?_⟩
    · rcases Nat.lt_succ_iff_lt_or_eq.1 hi with e | rfl
      · have := h1 i e
        simpa [e.le, Nat.succ_le_iff.2 e] using this
      · simpa using h3
    · rw [Function.iterate_succ_apply']
      simpa using h4

end
end MPC
