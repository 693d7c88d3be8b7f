import Verif.Lemmas.Hull

/-! # Running the march on concrete points -/

namespace MPC

open Pt

section
variable {δ : ℝ} {p : Vec (Pt ℝ)} {c : ℕ} {last : Pt ℝ} {k h : ℕ} {l : List ℕ}

theorem angle_skip (e : angleLoop δ p c last k = .ok (h :: l)) (hk : k + 1 < p.size)
    (hc : c < p.size) (ha : (p.get (k + 1)).isApprox (p.get c)) :
    angleLoop δ p c last (k + 1) = .ok (h :: l) := by
  rw [angleLoop, e, ok_bind, Vec.at?_ok hk, ok_bind, Vec.at?_ok hc, ok_bind, if_neg (not_not.2 ha)]
  rfl

theorem angle_less (e : angleLoop δ p c last k = .ok (h :: l)) (hk : k + 1 < p.size)
    (hc : c < p.size) (hh : h < p.size) (ha : ¬ (p.get (k + 1)).isApprox (p.get c))
    (hlt : angleBetweenVecs δ ((p.get c).sub last) ((p.get (k + 1)).sub (p.get c)) <
      angleBetweenVecs δ ((p.get c).sub last) ((p.get h).sub (p.get c))) :
    angleLoop δ p c last (k + 1) = .ok [k + 1] := by
  rw [angleLoop, e, ok_bind, Vec.at?_ok hk, ok_bind, Vec.at?_ok hc, ok_bind, if_pos ha, first?, ok_bind,
    Vec.at?_ok hh, ok_bind]
  simp only [if_pos hlt]
  rfl

theorem angle_push (e : angleLoop δ p c last k = .ok (h :: l)) (hk : k + 1 < p.size)
    (hc : c < p.size) (hh : h < p.size) (ha : ¬ (p.get (k + 1)).isApprox (p.get c))
    (heq : angleBetweenVecs δ ((p.get c).sub last) ((p.get (k + 1)).sub (p.get c)) =
      angleBetweenVecs δ ((p.get c).sub last) ((p.get h).sub (p.get c))) :
    angleLoop δ p c last (k + 1) = .ok (h :: (l ++ [k + 1])) := by
  rw [angleLoop, e, ok_bind, Vec.at?_ok hk, ok_bind, Vec.at?_ok hc, ok_bind, if_pos ha, first?, ok_bind,
    Vec.at?_ok hh, ok_bind]
  simp only [heq, lt_irrefl, if_false, sub_self, abs_zero, if_pos EPS_pos]
  rfl

theorem angle_keep (e : angleLoop δ p c last k = .ok (h :: l)) (hk : k + 1 < p.size)
    (hc : c < p.size) (hh : h < p.size) (ha : ¬ (p.get (k + 1)).isApprox (p.get c))
    (hge : EPS ≤ angleBetweenVecs δ ((p.get c).sub last) ((p.get (k + 1)).sub (p.get c)) -
      angleBetweenVecs δ ((p.get c).sub last) ((p.get h).sub (p.get c))) :
    angleLoop δ p c last (k + 1) = .ok (h :: l) := by
  have h0 := EPS_pos (K := ℝ)
  rw [angleLoop, e, ok_bind, Vec.at?_ok hk, ok_bind, Vec.at?_ok hc, ok_bind, if_pos ha, first?, ok_bind,
    Vec.at?_ok hh, ok_bind]
  simp only
  rw [if_neg (not_lt.2 (by linarith)), if_neg (not_lt.2 (hge.trans (le_abs_self _)))]
  rfl

end

/-- The angle is at least its sine. -/
theorem sin_le_theta {d v : Pt ℝ} (hd : d ≠ ⟨0, 0⟩) (hv : v ≠ ⟨0, 0⟩) (hc : 0 ≤ d.cross v) :
    d.cross v / (d.norm * v.norm) ≤ theta d v := by
  rw [← sin_theta hd hv hc]
  exact Real.sin_le (theta_mem d v).1

/-- The angle is smaller than `π` by at least its sine. -/
theorem sin_le_pi_sub_theta {d v : Pt ℝ} (hd : d ≠ ⟨0, 0⟩) (hv : v ≠ ⟨0, 0⟩) (hc : 0 ≤ d.cross v) :
    d.cross v / (d.norm * v.norm) ≤ Real.pi - theta d v := by
  rw [← sin_theta hd hv hc, ← Real.sin_pi_sub]
  exact Real.sin_le (by linarith [(theta_mem d v).2])

/-- A sine above `EPS`, without square roots. -/
theorem eps_le_sin {d v : Pt ℝ} (hd : d ≠ ⟨0, 0⟩) (hv : v ≠ ⟨0, 0⟩) (hc : 0 ≤ d.cross v)
    (h : EPS * EPS * (d.normSq * v.normSq) ≤ d.cross v * d.cross v) :
    EPS ≤ d.cross v / (d.norm * v.norm) := by
  have hp : 0 < d.norm * v.norm := mul_pos (norm_pos hd) (norm_pos hv)
  rw [le_div_iff₀ hp]
  apply le_of_sq_le_sq _ hc
  rw [mul_pow, mul_pow, sq d.norm, sq v.norm, norm_mul_self, norm_mul_self]
  nlinarith

/-- The four points of the witness: the first one is repeated. -/
noncomputable def repeatedPts : Vec (Pt ℝ) :=
  ⟨4, fun i => if i = 0 then ⟨0, 0⟩ else if i = 1 then ⟨0, 0⟩ else if i = 2 then ⟨1, 1⟩ else ⟨-1, 1⟩⟩

theorem repeated_vertices {δ : ℝ} (h0 : 0 ≤ δ) (h1 : δ < 1 / 2) :
    extractVertices δ repeatedPts = .ok [⟨0, 0⟩, ⟨0, 0⟩, ⟨1, 1⟩, ⟨-1, 1⟩] := by
  have g0 : repeatedPts.get 0 = ⟨0, 0⟩ := rfl
  have g1 : repeatedPts.get 1 = ⟨0, 0⟩ := rfl
  have g2 : repeatedPts.get 2 = ⟨1, 1⟩ := rfl
  have g3 : repeatedPts.get 3 = ⟨-1, 1⟩ := rfl
  have hsz : repeatedPts.size = 4 := rfl
  have hlow : lowestLeftmost repeatedPts = .ok 0 := by
    simp [lowestLeftmost, hsz, lowestLoop, first?, Vec.at?, requireIndex, g0, g1, g2, g3, EPS, require]
    norm_num [g0, g1, leftmostLoop, Vec.at?, requireIndex, hsz]
  -- second vertex
  have n0 : smallestAngle δ repeatedPts 0 ⟨(repeatedPts.get 0).x - 1, (repeatedPts.get 0).y⟩ = .ok 1 := by
    have e0 : angleLoop δ repeatedPts 0 ⟨(repeatedPts.get 0).x - 1, (repeatedPts.get 0).y⟩ 0 = .ok [1] := rfl
    have a1 : angleBetweenVecs δ ((repeatedPts.get 0).sub ⟨(repeatedPts.get 0).x - 1, (repeatedPts.get 0).y⟩)
        ((repeatedPts.get 1).sub (repeatedPts.get 0)) = 0 := by
      unfold angleBetweenVecs
      rw [if_pos]
      right; left
      simp [isZero, Pt.sub, g0, g1, h0]
    have ang : ∀ v : Pt ℝ, v ≠ ⟨0, 0⟩ → ¬ v.isZero δ → 0 ≤ v.y →
        ¬ (⟨1, 0⟩ : Pt ℝ).isApprox v → ¬ (⟨1, 0⟩ : Pt ℝ).isApprox v.neg →
        EPS * EPS * v.normSq ≤ v.y * v.y →
        EPS ≤ angleBetweenVecs δ ((repeatedPts.get 0).sub ⟨(repeatedPts.get 0).x - 1, (repeatedPts.get 0).y⟩)
          v - 0 := by
      intro v hv hz hy ha hb hs
      have hd : (repeatedPts.get 0).sub ⟨(repeatedPts.get 0).x - 1, (repeatedPts.get 0).y⟩ = (⟨1, 0⟩ : Pt ℝ) :=
        Pt.ext' (by simp [Pt.sub]) (by simp [Pt.sub])
      have hd0 : (⟨1, 0⟩ : Pt ℝ) ≠ ⟨0, 0⟩ := by simp
      have hc : (⟨1, 0⟩ : Pt ℝ).cross v = v.y := by simp [cross]
      rw [hd, sub_zero, angle_eq_theta hd0 hv (by simp [isZero]; intro h; linarith) hz (by rw [hc]; exact hy)
        (fun h => absurd h ha) (fun h => absurd h hb)]
      refine le_trans (eps_le_sin hd0 hv (by rw [hc]; exact hy) ?_) (sin_le_theta hd0 hv (by rw [hc]; exact hy))
      rw [hc]
      simpa [normSq] using hs
    have e1 := angle_skip e0 (by rw [hsz]; omega) (by rw [hsz]; omega) (by rw [g0, g1]; exact isApprox_self _)
    have e2 := angle_keep e1 (by rw [hsz]; omega) (by rw [hsz]; omega) (by rw [hsz]; omega)
      (by rw [show 1 + 1 = 2 from rfl, g2, g0]; norm_num [isApprox, Pt.sub, normSq, EPS])
      (by
        rw [a1, show 1 + 1 = 2 from rfl, g2, g0]
        apply ang
        · simp [Pt.sub]
        · simp [isZero, Pt.sub]; linarith
        all_goals norm_num [Pt.sub, isApprox, Pt.neg, normSq, EPS])
    have e3 := angle_keep e2 (by rw [hsz]; omega) (by rw [hsz]; omega) (by rw [hsz]; omega)
      (by rw [show 2 + 1 = 3 from rfl, g3, g0]; norm_num [isApprox, Pt.sub, normSq, EPS])
      (by
        rw [a1, show 2 + 1 = 3 from rfl, g3, g0]
        apply ang
        · simp [Pt.sub]
        · simp [isZero, Pt.sub]; linarith
        all_goals norm_num [Pt.sub, isApprox, Pt.neg, normSq, EPS])
    rw [smallestAngle, hsz, show 4 - 1 = 2 + 1 from rfl, e3]
    rfl
  -- third vertex: the incoming direction is zero, all angles are zero
  have n1 : smallestAngle δ repeatedPts 1 ⟨0, 0⟩ = .ok 2 := by
    have e0 : angleLoop δ repeatedPts 1 ⟨0, 0⟩ 0 = .ok [0] := rfl
    have ang : ∀ v : Pt ℝ, angleBetweenVecs δ ((repeatedPts.get 1).sub ⟨0, 0⟩) v = 0 := by
      intro v
      unfold angleBetweenVecs
      rw [if_pos]
      left
      simp [isZero, Pt.sub, g1, h0]
    have e1 := angle_skip e0 (by rw [hsz]; omega) (by rw [hsz]; omega) (isApprox_self _)
    have e2 := angle_push e1 (by rw [hsz]; omega) (by rw [hsz]; omega) (by rw [hsz]; omega)
      (by rw [show 1 + 1 = 2 from rfl, g2, g1]; norm_num [isApprox, Pt.sub, normSq, EPS])
      (by rw [ang, ang])
    have e3 := angle_push e2 (by rw [hsz]; omega) (by rw [hsz]; omega) (by rw [hsz]; omega)
      (by rw [show 2 + 1 = 3 from rfl, g3, g1]; norm_num [isApprox, Pt.sub, normSq, EPS])
      (by rw [ang, ang])
    rw [smallestAngle, hsz, show 4 - 1 = 2 + 1 from rfl, e3]
    simp [first?, furthestLoop, Vec.at?, requireIndex, hsz, g0, g1, g2, g3, Pt.norm, Pt.sub, normSq]
  have n2 : smallestAngle δ repeatedPts 2 ⟨0, 0⟩ = .ok 3 := by
    have hd : (repeatedPts.get 2).sub ⟨0, 0⟩ = (⟨1, 1⟩ : Pt ℝ) := Pt.ext' (by simp [Pt.sub, g2]) (by simp [Pt.sub, g2])
    have hdz : ¬ (⟨1, 1⟩ : Pt ℝ).isZero δ := by simp [isZero]; linarith
    have e0 : angleLoop δ repeatedPts 2 ⟨0, 0⟩ 0 = .ok [0] := rfl
    have v0 : (repeatedPts.get 0).sub (repeatedPts.get 2) = (⟨-1, -1⟩ : Pt ℝ) := by rw [g0, g2]; simp [Pt.sub]
    have v1 : (repeatedPts.get 1).sub (repeatedPts.get 2) = (⟨-1, -1⟩ : Pt ℝ) := by rw [g1, g2]; simp [Pt.sub]
    have v3 : (repeatedPts.get 3).sub (repeatedPts.get 2) = (⟨-2, 0⟩ : Pt ℝ) := by
      rw [g3, g2]; simp [Pt.sub]; norm_num
    have a0 : angleBetweenVecs δ (⟨1, 1⟩ : Pt ℝ) ⟨-1, -1⟩ = Real.pi := by
      unfold angleBetweenVecs
      rw [if_neg, if_pos]
      · norm_num [isApprox, Pt.sub, Pt.neg, normSq, EPS]
      · rintro (h | h | h)
        · exact hdz h
        · simp [isZero] at h; linarith
        · norm_num [isApprox, Pt.sub, normSq, EPS] at h
    have a3 : angleBetweenVecs δ (⟨1, 1⟩ : Pt ℝ) ⟨-2, 0⟩ < Real.pi := by
      have hd0 : (⟨1, 1⟩ : Pt ℝ) ≠ ⟨0, 0⟩ := by simp
      have hv0 : (⟨-2, 0⟩ : Pt ℝ) ≠ ⟨0, 0⟩ := by simp
      have hc : (0 : ℝ) ≤ (⟨1, 1⟩ : Pt ℝ).cross ⟨-2, 0⟩ := by norm_num [cross]
      rw [angle_eq_theta hd0 hv0 hdz (by simp [isZero]; intro h; linarith) hc
        (fun h => by norm_num [isApprox, Pt.sub, normSq, EPS] at h)
        (fun h => by norm_num [isApprox, Pt.sub, Pt.neg, normSq, EPS] at h)]
      have h1 := sin_le_pi_sub_theta hd0 hv0 hc
      have h2 := eps_le_sin hd0 hv0 hc (by norm_num [cross, normSq, EPS])
      have := EPS_pos (K := ℝ)
      linarith
    have e1 := angle_push e0 (by rw [hsz]; omega) (by rw [hsz]; omega) (by rw [hsz]; omega)
      (by rw [show 0 + 1 = 1 from rfl, g2, g1]; norm_num [isApprox, Pt.sub, normSq, EPS])
      (by rw [show 0 + 1 = 1 from rfl, v1, v0])
    have e2 := angle_skip e1 (by rw [hsz]; omega) (by rw [hsz]; omega) (isApprox_self _)
    have e3 := angle_less e2 (by rw [hsz]; omega) (by rw [hsz]; omega) (by rw [hsz]; omega)
      (by rw [show 2 + 1 = 3 from rfl, g3, g2]; norm_num [isApprox, Pt.sub, normSq, EPS])
      (by rw [show 2 + 1 = 3 from rfl, v3, v0, hd, a0]; exact a3)
    rw [smallestAngle, hsz, show 4 - 1 = 2 + 1 from rfl, e3]
    rfl
  have n3 : smallestAngle δ repeatedPts 3 ⟨1, 1⟩ = .ok 0 := by
    have hd : (repeatedPts.get 3).sub ⟨1, 1⟩ = (⟨-2, 0⟩ : Pt ℝ) :=
      Pt.ext' (by simp [Pt.sub, g3]; norm_num) (by simp [Pt.sub, g3])
    have hdz : ¬ (⟨-2, 0⟩ : Pt ℝ).isZero δ := by simp [isZero]; intro h; linarith
    have e0 : angleLoop δ repeatedPts 3 ⟨1, 1⟩ 0 = .ok [0] := rfl
    have v0 : (repeatedPts.get 0).sub (repeatedPts.get 3) = (⟨1, -1⟩ : Pt ℝ) := by rw [g0, g3]; simp [Pt.sub]
    have v1 : (repeatedPts.get 1).sub (repeatedPts.get 3) = (⟨1, -1⟩ : Pt ℝ) := by rw [g1, g3]; simp [Pt.sub]
    have v2 : (repeatedPts.get 2).sub (repeatedPts.get 3) = (⟨2, 0⟩ : Pt ℝ) := by
      rw [g2, g3]; simp [Pt.sub]; norm_num
    have a2 : angleBetweenVecs δ (⟨-2, 0⟩ : Pt ℝ) ⟨2, 0⟩ = Real.pi := by
      unfold angleBetweenVecs
      rw [if_neg, if_pos]
      · norm_num [isApprox, Pt.sub, Pt.neg, normSq, EPS]
      · rintro (h | h | h)
        · exact hdz h
        · simp [isZero] at h; linarith
        · norm_num [isApprox, Pt.sub, normSq, EPS] at h
    have a0 : EPS ≤ Real.pi - angleBetweenVecs δ (⟨-2, 0⟩ : Pt ℝ) ⟨1, -1⟩ := by
      have hd0 : (⟨-2, 0⟩ : Pt ℝ) ≠ ⟨0, 0⟩ := by simp
      have hv0 : (⟨1, -1⟩ : Pt ℝ) ≠ ⟨0, 0⟩ := by simp
      have hc : (0 : ℝ) ≤ (⟨-2, 0⟩ : Pt ℝ).cross ⟨1, -1⟩ := by norm_num [cross]
      rw [angle_eq_theta hd0 hv0 hdz (by simp [isZero]; linarith) hc
        (fun h => by norm_num [isApprox, Pt.sub, normSq, EPS] at h)
        (fun h => by norm_num [isApprox, Pt.sub, Pt.neg, normSq, EPS] at h)]
      exact (eps_le_sin hd0 hv0 hc (by norm_num [cross, normSq, EPS])).trans
        (sin_le_pi_sub_theta hd0 hv0 hc)
    have e1 := angle_push e0 (by rw [hsz]; omega) (by rw [hsz]; omega) (by rw [hsz]; omega)
      (by rw [show 0 + 1 = 1 from rfl, g3, g1]; norm_num [isApprox, Pt.sub, normSq, EPS])
      (by rw [show 0 + 1 = 1 from rfl, v1, v0])
    have e2 := angle_keep e1 (by rw [hsz]; omega) (by rw [hsz]; omega) (by rw [hsz]; omega)
      (by rw [show 1 + 1 = 2 from rfl, g3, g2]; norm_num [isApprox, Pt.sub, normSq, EPS])
      (by rw [show 1 + 1 = 2 from rfl, v2, v0, hd, a2]; exact a0)
    have e3 := angle_skip e2 (by rw [hsz]; omega) (by rw [hsz]; omega) (isApprox_self _)
    rw [smallestAngle, hsz, show 4 - 1 = 2 + 1 from rfl, e3]
    simp [first?, furthestLoop, Vec.at?, requireIndex, hsz, g0, g1, g3, Pt.norm, Pt.sub, normSq]
  rw [extractVertices, if_neg (by rw [hsz]; omega), hlow, ok_bind, Vec.at?_ok (by rw [hsz]; omega), ok_bind,
    n0, ok_bind, hsz, g0]
  simp only [marchLoop, hlow, ok_bind, one_ne_zero, if_false, List.length_singleton, hsz,
    List.getLast?_singleton]
  rw [require_pos (by omega), ok_bind, Vec.at?_ok (by rw [hsz]; omega), ok_bind, n1, ok_bind, if_neg (by omega)]
  simp only [List.cons_append, List.nil_append, List.length_cons, List.length_nil]
  rw [require_pos (by omega), ok_bind, Vec.at?_ok (by rw [hsz]; omega), ok_bind, g1]
  simp only [List.getLast?_cons_cons, List.getLast?_singleton, ok_bind, n2]
  rw [if_neg (by omega), require_pos (by omega), ok_bind, Vec.at?_ok (by rw [hsz]; omega), ok_bind, g2]
  simp only [n3, ok_bind, if_true, g3]
  rfl

/-- A triangle of size 1 far from the origin. -/
noncomputable def farPts : Vec (Pt ℝ) :=
  ⟨3, fun i => if i = 0 then ⟨100000 + 1 / 2, 1⟩ else if i = 1 then ⟨100001, 0⟩ else ⟨100000, 0⟩⟩

theorem far_assert (δ : ℝ) : extractVertices δ farPts = .error .assertFail := by
  have g0 : farPts.get 0 = ⟨100000 + 1 / 2, 1⟩ := rfl
  have g1 : farPts.get 1 = ⟨100001, 0⟩ := rfl
  have g2 : farPts.get 2 = ⟨100000, 0⟩ := rfl
  have hsz : farPts.size = 3 := rfl
  have approx : ∀ i < 3, ∀ j < 3, (farPts.get i).isApprox (farPts.get j) := by
    intro i hi j hj
    have hi' : i = 0 ∨ i = 1 ∨ i = 2 := by omega
    have hj' : j = 0 ∨ j = 1 ∨ j = 2 := by omega
    rcases hi' with rfl | rfl | rfl <;> rcases hj' with rfl | rfl | rfl <;>
      norm_num [g0, g1, g2, isApprox, Pt.sub, normSq, EPS]
  have hlow : lowestLeftmost farPts = .ok 2 := by
    simp [lowestLeftmost, hsz, lowestLoop, first?, leftmostLoop, Vec.at?, requireIndex, g0, g1, g2,
      EPS, require]
    norm_num [first?, leftmostLoop, Vec.at?, requireIndex, g1, g2, hsz]
  have next : ∀ c < 3, ∀ last, smallestAngle δ farPts c last = .ok (if c ≠ 0 then 0 else 1) := by
    intro c hc last
    have e0 : angleLoop δ farPts c last 0 = .ok [if c ≠ 0 then 0 else 1] := rfl
    have e1 := angle_skip e0 (by rw [hsz]; omega) (by rw [hsz]; omega) (approx 1 (by omega) c hc)
    have e2 := angle_skip e1 (by rw [hsz]; omega) (by rw [hsz]; omega) (approx 2 (by omega) c hc)
    rw [smallestAngle, hsz, show 3 - 1 = 1 + 1 from rfl, e2]
    rfl
  have n0 := next 0 (by omega)
  have n1 := next 1 (by omega)
  have n2 := next 2 (by omega)
  simp only [ne_eq, not_true_eq_false, if_false, one_ne_zero, not_false_eq_true, if_true,
    OfNat.ofNat_ne_zero] at n0 n1 n2
  rw [extractVertices, if_neg (by rw [hsz]; omega), hlow, ok_bind, Vec.at?_ok (by rw [hsz]; omega), ok_bind,
    n2, ok_bind, hsz]
  simp [marchLoop, hlow, require, hsz, Vec.at?, requireIndex, n0, n1]

end MPC
