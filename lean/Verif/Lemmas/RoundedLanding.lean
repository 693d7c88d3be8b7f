import Verif.Lemmas.RoundedHistory
import Verif.Lemmas.Swing
/-! # The last cycle of a flight with rounded clocks (C85) -/
set_option linter.unusedSectionVars false
namespace MPC
open Spec
variable {K : Type} [Field K] [LinearOrder K] [IsStrictOrderedRing K]
variable {c : Clock K} {fb δ : K} {Q N n : ℕ}

/-- The third piece of an axis. -/
theorem piece_lands (s : State3 K) (g T : K) (hT : T ≠ 0) (t : K) :
    Lands s (pieceState s ⟨g, 0, 0⟩ T 2 t) g T (1 - t / T) := by
  have ht : t = t / T * T := (div_mul_cancel₀ t hT).symm
  obtain ⟨h0, h1, h2, h3, h4, h5, h6, h7, h8, h9, h10, h11⟩ := factorOf_vals s ⟨g, 0, 0⟩ T
  generalize t / T = r at *
  subst ht
  have hr : r * T / T = r := by field_simp
  constructor <;>
    simp only [pieceState, piecePos, pieceVel, pieceAcc, hr, Nat.reduceMul, Nat.reduceAdd, h8, h9, h10, h11, abcRow_eq,
      aInvNorm, interpTable, List.getD_cons_zero, List.getD_cons_succ] <;> field_simp <;> ring

theorem interpolate_lands {f f' : FootAxis K} (hf : f.factor.size = 12) {g D t : K} (hD : 0 < D) (ht : 2 * D / 3 < t)
    (h : interpolateTrajectory f ⟨g, 0, 0⟩ D t = .ok f') : Lands f.state f'.state g D (1 - t / D) := by
  obtain ⟨f1, e1, -, e3⟩ := interpolateTrajectory_ok f hf ⟨g, 0, 0⟩ D hD.ne' t
  obtain rfl : f1 = f' := by rw [e1] at h; exact Except.ok.inj h
  rw [e3]
  have : pieceOf D t = 2 := by
    unfold pieceOf
    rw [if_neg (by linarith), if_neg (by linarith)]
  rw [this]
  exact piece_lands _ _ _ hD.ne' _

theorem Foot.flyR_lands {f f' : Foot K} (hf : f.HasFactors) {x y ft D t : K} (hD : 0 < D) (ht : 2 * D / 3 < t)
    (hz : D < c.rnd (c.rnd (ft / 2) + c.eps)) (h : f.flyR c x y ft D t = .ok f') : FootLands f f' x y D (1 - t / D) := by
  unfold Foot.flyR at h
  obtain ⟨X, hX, h⟩ := bind_eq_ok.1 h
  obtain ⟨Y, hY, h⟩ := bind_eq_ok.1 h
  rw [if_pos hz] at h
  obtain ⟨Z, hZ, h⟩ := bind_eq_ok.1 h
  cases h
  exact ⟨interpolate_lands hf.1 hD ht hX, interpolate_lands hf.2.1 hD ht hY, interpolate_lands hf.2.2 hD ht hZ⟩

/-- The remaining time and the control period of the last cycle. -/
theorem Pair.last (hf : Fine c fb δ Q N n) {j k : ℕ} {s s' : Sup K} (h : Pair fb δ Q N n j k s s') (ht : s.ttnp = fb)
    {p : K} (hp : |p - fb| ≤ δ) :
    0 < s'.ttnp ∧ 2 * s'.ttnp / 3 < p ∧ |1 - p / s'.ttnp| ≤ 3 * Q * δ / fb := by
  have h0 := hf.fb0
  have hδ := hf.δ0
  have hfb2 := hf.fb2
  have hE := EPS_pos (K := K)
  have hj : (j : K) * fb = 1 * fb := by rw [← h.tick, ht, one_mul]
  have hj1 : j = 1 := by exact_mod_cast mul_right_cancel₀ h0.ne' hj
  subst hj1
  have hk := h.sum
  have hq : (k : K) + 1 ≤ Q := by exact_mod_cast hk
  have hkd : (k : K) * δ + δ ≤ Q * δ := by nlinarith
  have hkd0 : (0 : K) ≤ k * δ := by positivity
  have htt := h.ttnp'
  have hsm : 3 * (Q * δ) + 12 * δ < EPS := by
    have := hf.small
    have h3 : (0 : K) ≤ N * δ := by positivity
    nlinarith
  push_cast at htt
  rw [one_mul, abs_le] at htt
  rw [abs_le] at hp
  have e : (2 * (k : K) + 1) * δ = 2 * (k * δ) + δ := by ring
  rw [e] at htt
  rw [show 3 * (Q : K) * δ = 3 * (Q * δ) by ring]
  generalize (k : K) * δ = A at *
  generalize (Q : K) * δ = B at *
  have hpos : 0 < s'.ttnp := by linarith
  refine ⟨hpos, by linarith, ?_⟩
  rw [show 1 - p / s'.ttnp = (s'.ttnp - p) / s'.ttnp by field_simp, abs_div, abs_of_pos hpos, div_le_div_iff₀ hpos h0]
  have h1 : |s'.ttnp - p| ≤ 2 * B := by rw [abs_le]; constructor <;> linarith
  have h2 : 2 * fb ≤ 3 * s'.ttnp := by linarith
  have hB : 0 ≤ B := by linarith
  calc |s'.ttnp - p| * fb ≤ 2 * B * fb := mul_le_mul_of_nonneg_right h1 h0.le
    _ = B * (2 * fb) := by ring
    _ ≤ B * (3 * s'.ttnp) := mul_le_mul_of_nonneg_left h2 hB
    _ = 3 * B * s'.ttnp := by ring

/-- The flying foot in the last cycle. -/
theorem updateFeetR_lands {s t : Sup K} {f : Phase K} (h1 : s.timeline[0]? = some f) {sv : Vec K} {p : K}
    (hL : s.left.HasFactors) (hR : s.right.HasFactors) (hD : 0 < s.ttnp) (ht : 2 * s.ttnp / 3 < p)
    (hfl : s.ttnp < c.rnd (c.rnd (f.duration - s.T) + c.eps))
    (hz : s.ttnp < c.rnd (c.rnd (c.rnd (f.duration - s.T) / 2) + c.eps)) (h : s.updateFeetStatesR c sv p = .ok t) :
    (f.type = .leftSS → FootLands s.right t.right (sv.get 0) (sv.get s.M) s.ttnp (1 - p / s.ttnp)) ∧
    (f.type = .rightSS → FootLands s.left t.left (sv.get 0) (sv.get s.M) s.ttnp (1 - p / s.ttnp)) := by
  unfold Sup.updateFeetStatesR at h
  dsimp only at h
  rw [listAt_of_get? h1, ok_bind, Sup.isInDS_ok (s := { s with stepVec := sv }) (f := f) h1, ok_bind] at h
  cases hty : f.type with
  | DS => exact ⟨fun h => by simp at h, fun h => by simp at h⟩
  | leftSS =>
    refine ⟨fun _ => ?_, fun h => by simp at h⟩
    rw [if_pos ⟨by rw [hty]; rfl, hfl⟩] at h
    rw [hty] at h
    simp only at h
    obtain ⟨x, hx, h⟩ := bind_eq_ok.1 h
    obtain ⟨y, hy, h⟩ := bind_eq_ok.1 h
    obtain ⟨g, hg, h⟩ := bind_eq_ok.1 h
    cases h
    rw [(Vec.at?_eq_ok.1 hx).2, (Vec.at?_eq_ok.1 hy).2]
    exact Foot.flyR_lands hR hD ht hz hg
  | rightSS =>
    refine ⟨fun h => by simp at h, fun _ => ?_⟩
    rw [if_pos ⟨by rw [hty]; rfl, hfl⟩] at h
    rw [hty] at h
    simp only at h
    obtain ⟨x, hx, h⟩ := bind_eq_ok.1 h
    obtain ⟨y, hy, h⟩ := bind_eq_ok.1 h
    obtain ⟨g, hg, h⟩ := bind_eq_ok.1 h
    cases h
    rw [(Vec.at?_eq_ok.1 hx).2, (Vec.at?_eq_ok.1 hy).2]
    exact Foot.flyR_lands hL hD ht hz hg

end MPC
