import Verif.Lemmas.HumShiftSup
import Verif.Lemmas.Interpolator
import Verif.Lemmas.SupFeet
import Mathlib.Tactic.IntervalCases

/-! # The feet of a moved generator -/

set_option linter.unusedSectionVars false

namespace MPC

open Finset Spec

variable {K : Type} [Field K] [LinearOrder K] [IsStrictOrderedRing K] {a b : K}

theorem abcRow_shift (s f : State3 K) (T δ : K) (i : ℕ) :
    abcRow (State3.shift s δ) (State3.shift f δ) T i
      = abcRow s f T i + δ * ((aInvNorm (K := K)).get i 6 - (aInvNorm (K := K)).get i 0) := by
  rw [abcRow_eq, abcRow_eq]
  simp only [State3.shift]
  ring

/-- The pieces of the moved trajectory. -/
theorem pieceState_shift (s f : State3 K) (T δ : K) {q : ℕ} (hq : q < 3) (t : K) :
    pieceState (State3.shift s δ) (State3.shift f δ) T q t = State3.shift (pieceState s f T q t) δ := by
  have hA : ∀ i < 9, (aInvNorm (K := K)).get i 6 - (aInvNorm (K := K)).get i 0
      = if i = 4 ∨ i = 8 then 1 else 0 := by
    intro i hi
    interval_cases i <;> simp [aInvNorm, interpTable] <;> norm_num
  obtain ⟨u0, u1, u2, u3, u4, u5, u6, u7, u8, u9, u10, u11⟩ := factorOf_vals s f T
  obtain ⟨v0, v1, v2, v3, v4, v5, v6, v7, v8, v9, v10, v11⟩ := factorOf_vals (State3.shift s δ) (State3.shift f δ) T
  rw [abcRow_shift, hA _ (by norm_num)] at v0 v4 v5 v6 v7 v8 v9 v10 v11
  have w3 : factorOf (State3.shift s δ) (State3.shift f δ) T 3 = factorOf s f T 3 + δ := by rw [v3, u3]; rfl
  have w1 : factorOf (State3.shift s δ) (State3.shift f δ) T 1 = factorOf s f T 1 := by rw [v1, u1]; rfl
  have w2 : factorOf (State3.shift s δ) (State3.shift f δ) T 2 = factorOf s f T 2 := by rw [v2, u2]; rfl
  rw [← u0] at v0
  rw [← u4] at v4
  rw [← u5] at v5
  rw [← u6] at v6
  rw [← u7] at v7
  rw [← u8] at v8
  rw [← u9] at v9
  rw [← u10] at v10
  rw [← u11] at v11
  norm_num at v0 v4 v5 v6 v7 v8 v9 v10 v11
  interval_cases q
  · simp only [pieceState, piecePos, pieceVel, pieceAcc, Nat.mul_zero, Nat.zero_add, v0, w1, w2, w3]
    simp only [State3.shift, State3.mk.injEq, and_true]
    ring
  · simp only [pieceState, piecePos, pieceVel, pieceAcc, Nat.mul_one, Nat.reduceAdd, v4, v5, v6, v7]
    simp only [State3.shift, State3.mk.injEq, and_true]
    ring
  · simp only [pieceState, piecePos, pieceVel, pieceAcc, Nat.reduceMul, Nat.reduceAdd, v8, v9, v10, v11]
    simp only [State3.shift, State3.mk.injEq, and_true]
    ring

theorem interpolate_moved {f f' g : FootAxis K} {δ : K} (hs : f'.state = State3.shift f.state δ)
    (hf : f.factor.size = 12 ∧ f'.factor.size = 12) {p p' T t : K} (hp : p' = p + δ)
    (e : interpolateTrajectory f ⟨p, 0, 0⟩ T t = .ok g) :
    ∃ g', interpolateTrajectory f' ⟨p', 0, 0⟩ T t = .ok g' ∧ g'.state = State3.shift g.state δ ∧
      (g.factor.size = 12 ∧ g'.factor.size = 12) := by
  have hT : T ≠ 0 := by
    intro h0
    unfold interpolateTrajectory at e
    obtain ⟨_, -, e⟩ := bind_eq_ok.1 e
    obtain ⟨_, -, e⟩ := bind_eq_ok.1 e
    rw [if_pos h0] at e
    exact absurd e (by simp)
  obtain ⟨g1, e1, z1, s1⟩ := interpolateTrajectory_ok f hf.1 ⟨p, 0, 0⟩ T hT t
  obtain ⟨g2, e2, z2, s2⟩ := interpolateTrajectory_ok f' hf.2 ⟨p', 0, 0⟩ T hT t
  obtain rfl := Except.ok.inj (e1.symm.trans e)
  refine ⟨g2, e2, ?_, z1, z2⟩
  rw [s2, s1, hs, hp]
  exact pieceState_shift f.state ⟨p, 0, 0⟩ T δ (pieceOf_lt T t) t

theorem fly_moved {f f' g : Foot K} (h : FootMoved a b f f') {tx ty tx' ty' F R fb : K} (hx : tx' = tx + a)
    (hy : ty' = ty + b) (e : f.fly tx ty F R fb = .ok g) :
    ∃ g', f'.fly tx' ty' F R fb = .ok g' ∧ FootMoved a b g g' := by
  unfold Foot.fly at e
  obtain ⟨x1, e1, e⟩ := bind_eq_ok.1 e
  obtain ⟨y1, e2, e⟩ := bind_eq_ok.1 e
  obtain ⟨x2, e1', s1, t1⟩ := interpolate_moved h.x h.fx hx e1
  obtain ⟨y2, e2', s2, t2⟩ := interpolate_moved h.y h.fy hy e2
  unfold Foot.fly
  rw [e1', ok_bind, e2', ok_bind, h.z, h.maxHeight]
  dsimp only at e ⊢
  by_cases hc : R < F / 2 + EPS
  · rw [if_pos hc] at e ⊢
    obtain ⟨z1, e3, e⟩ := bind_eq_ok.1 e
    obtain rfl := Except.ok.inj e
    rw [e3, ok_bind]
    exact ⟨_, rfl, s1, s2, rfl, t1, t2, rfl, h.kin, h.cop⟩
  · rw [if_neg hc] at e ⊢
    obtain ⟨z1, e3, e⟩ := bind_eq_ok.1 e
    obtain rfl := Except.ok.inj e
    rw [e3, ok_bind]
    exact ⟨_, rfl, s1, s2, rfl, t1, t2, rfl, h.kin, h.cop⟩

theorem updateFeet_moved {s s' t : Sup K} (h : SupMoved a b s s') {sv sv' : Vec K} {fb : K}
    (hz : sv'.size = sv.size) (h0 : 0 < sv.size → sv'.get 0 = sv.get 0 + a)
    (hM : s.M < sv.size → sv'.get s.M = sv.get s.M + b)
    (e : s.updateFeetStates sv fb = .ok t) :
    ∃ t', s'.updateFeetStates sv' fb = .ok t' ∧ SupMoved a b t t' := by
  obtain ⟨L, R, v, hs, hL, hR⟩ := h.with_eq
  subst hs
  unfold Sup.updateFeetStates at e ⊢
  dsimp only at e ⊢
  obtain ⟨f, ef, e⟩ := bind_eq_ok.1 e
  rw [ef, ok_bind]
  obtain ⟨ds, ed, e⟩ := bind_eq_ok.1 e
  have ed' : Sup.isInDS { s with left := L, right := R, stepVec := sv' } = .ok ds := ed
  rw [ed', ok_bind]
  by_cases hc : ds = false ∧ s.ttnp < f.duration - s.T + EPS
  · rw [if_pos hc] at e ⊢
    cases ht : f.type with
    | DS => rw [ht] at e; exact absurd e (by intro h; cases h)
    | leftSS =>
      rw [ht] at e
      dsimp only at e ⊢
      obtain ⟨p0, a0, e⟩ := bind_eq_ok.1 e
      obtain ⟨p1, a1, e⟩ := bind_eq_ok.1 e
      obtain ⟨g, eg, e⟩ := bind_eq_ok.1 e
      obtain rfl := Except.ok.inj e
      obtain ⟨z0, rfl⟩ := Vec.at?_eq_ok.1 a0
      obtain ⟨z1, rfl⟩ := Vec.at?_eq_ok.1 a1
      obtain ⟨g', eg', hg⟩ := fly_moved hR (h0 z0) (hM z1) eg
      rw [Vec.at?_eq_ok.2 ⟨hz ▸ z0, rfl⟩, ok_bind, Vec.at?_eq_ok.2 ⟨hz ▸ z1, rfl⟩, ok_bind, eg', ok_bind]
      exact ⟨_, rfl, rfl, hL, hg⟩
    | rightSS =>
      rw [ht] at e
      dsimp only at e ⊢
      obtain ⟨p0, a0, e⟩ := bind_eq_ok.1 e
      obtain ⟨p1, a1, e⟩ := bind_eq_ok.1 e
      obtain ⟨g, eg, e⟩ := bind_eq_ok.1 e
      obtain rfl := Except.ok.inj e
      obtain ⟨z0, rfl⟩ := Vec.at?_eq_ok.1 a0
      obtain ⟨z1, rfl⟩ := Vec.at?_eq_ok.1 a1
      obtain ⟨g', eg', hg⟩ := fly_moved hL (h0 z0) (hM z1) eg
      rw [Vec.at?_eq_ok.2 ⟨hz ▸ z0, rfl⟩, ok_bind, Vec.at?_eq_ok.2 ⟨hz ▸ z1, rfl⟩, ok_bind, eg', ok_bind]
      exact ⟨_, rfl, rfl, hg, hR⟩
  · rw [if_neg hc] at e ⊢
    obtain rfl := Except.ok.inj e
    exact ⟨_, rfl, rfl, hL, hR⟩

end MPC
