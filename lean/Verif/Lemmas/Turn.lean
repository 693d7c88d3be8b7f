import Verif.Spec.Turn
import Verif.Lemmas.ZebShift
/-! # Symmetries of the square and the QP of `ZebulonWalkgen` -/
set_option linter.unusedSectionVars false
namespace MPC
open Finset Spec
variable {K : Type} [Field K] [LinearOrder K] [IsStrictOrderedRing K] [FloorRing K]
variable {g : Turn K}

theorem abs_one_sq {x : K} (h : |x| = 1) : x ^ 2 = 1 := by rw [← sq_abs, h, one_pow]

namespace Spec.Turn

theorem Good.sq (h : g.Good) (u v : K) : g.x u v ^ 2 + g.y u v ^ 2 = u ^ 2 + v ^ 2 := by
  unfold Turn.x Turn.y
  rcases h with ⟨h1, h2, h3, h4⟩ | ⟨h1, h2, h3, h4⟩ <;>
  · have e3 := abs_one_sq h3; have e4 := abs_one_sq h4
    rw [h1, h2]
    first
    | linear_combination u ^ 2 * e3 + v ^ 2 * e4
    | linear_combination v ^ 2 * e3 + u ^ 2 * e4

/-- A box is its own image. -/
theorem Good.box (h : g.Good) (u v L : K) : (|g.x u v| ≤ L ∧ |g.y u v| ≤ L) ↔ (|u| ≤ L ∧ |v| ≤ L) := by
  unfold Turn.x Turn.y
  rcases h with ⟨h1, h2, h3, h4⟩ | ⟨h1, h2, h3, h4⟩ <;> rw [h1, h2] <;>
    simp only [zero_mul, add_zero, zero_add, abs_mul, h3, h4, one_mul]
  exact and_comm

theorem Good.det (h : g.Good) : g.a * g.d - g.b * g.c = 1 ∨ g.a * g.d - g.b * g.c = -1 := by
  rcases h with ⟨h1, h2, h3, h4⟩ | ⟨h1, h2, h3, h4⟩ <;> rw [h1, h2] <;>
    rcases eq_or_eq_neg_of_abs_eq h3 with h3 | h3 <;> rcases eq_or_eq_neg_of_abs_eq h4 with h4 | h4 <;> rw [h3, h4] <;> norm_num

/-- The transposed map is the inverse. -/
def inv (g : Turn K) : Turn K := ⟨g.a, g.c, g.b, g.d⟩

theorem Good.inv (h : g.Good) : g.inv.Good := by
  rcases h with ⟨h1, h2, h3, h4⟩ | ⟨h1, h2, h3, h4⟩
  · exact Or.inl ⟨h2, h1, h3, h4⟩
  · exact Or.inr ⟨h1, h2, h4, h3⟩

theorem Good.cancel (h : g.Good) (u v : K) :
    g.x (g.inv.x u v) (g.inv.y u v) = u ∧ g.y (g.inv.x u v) (g.inv.y u v) = v := by
  unfold Turn.x Turn.y Turn.inv
  rcases h with ⟨h1, h2, h3, h4⟩ | ⟨h1, h2, h3, h4⟩ <;>
  · have e3 := abs_one_sq h3; have e4 := abs_one_sq h4
    dsimp only
    rw [h1, h2]
    constructor <;> first
    | linear_combination u * e3
    | linear_combination v * e3
    | linear_combination u * e4
    | linear_combination v * e4

theorem inner (p q X : Pt K) : sideOf (g.pt p) (g.pt q) (g.pt X) = (g.a * g.d - g.b * g.c) * sideOf p q X := by
  unfold sideOf Turn.pt Turn.x Turn.y
  dsimp only
  ring

theorem side_swap (p q X : Pt K) : sideOf q p X = -sideOf p q X := by unfold sideOf; ring

theorem reflect (p : Pt K) : Pt.reflect (g.pt p) = g.pt (Pt.reflect p) := by
  simp only [Pt.reflect, Turn.pt, Turn.x, Turn.y, Pt.mk.injEq]
  constructor <;> ring

/-- Constraints of turned points in the turned polygon. -/
theorem rows {p p' : Vec (Pt K)} (h : g.Poly p p') {N : ℕ} {o o' n n' : ℕ → Pt K} (ho : ∀ i < N, o' i = g.pt (o i))
    (hn : ∀ i < N, n' i = g.pt (n i)) : PolygonRows p' N o' n' ↔ PolygonRows p N o n := by
  obtain ⟨hs, ⟨hd, hp⟩ | ⟨hd, hp⟩⟩ := h
  · unfold PolygonRows
    rw [hs]
    refine forall₂_congr fun e he => forall₂_congr fun i hi => ?_
    have he' : (e + 1) % p.size < p.size := Nat.mod_lt _ (by omega)
    rw [ho i hi, hn i hi, hp e he, hp _ he', reflect, inner, inner, hd, one_mul, one_mul]
    refine and_congr ?_ Iff.rfl
    change sideOf _ _ _ ≤ 0 ↔ sideOf _ _ _ ≤ 0
    rw [inner, hd, one_mul]
  · have key : ∀ e < p.size, ∃ f < p.size, f = (p.size - 1 - (e + 1) % p.size) ∧ (f + 1) % p.size = p.size - 1 - e := by
      intro e he
      refine ⟨_, by omega, rfl, ?_⟩
      rcases Nat.lt_or_ge (e + 1) p.size with h | h
      · rw [Nat.mod_eq_of_lt h, show p.size - 1 - (e + 1) + 1 = p.size - 1 - e by omega, Nat.mod_eq_of_lt (by omega)]
      · have : e + 1 = p.size := by omega
        rw [this, Nat.mod_self, show p.size - 1 - 0 + 1 = p.size by omega, Nat.mod_self]
        omega
    have eqv : ∀ e < p.size, ∀ i < N,
        ((InnerSide (p'.get e) (p'.get ((e + 1) % p.size)) (Pt.reflect (n' i)) ∧
          sideOf (p'.get e) (p'.get ((e + 1) % p.size)) (n' i) - sideOf (p'.get e) (p'.get ((e + 1) % p.size)) (o' i) ≤ MAXBOUND) ↔
        (InnerSide (p.get (p.size - 1 - (e + 1) % p.size)) (p.get ((p.size - 1 - (e + 1) % p.size + 1) % p.size)) (Pt.reflect (n i)) ∧
          sideOf (p.get (p.size - 1 - (e + 1) % p.size)) (p.get ((p.size - 1 - (e + 1) % p.size + 1) % p.size)) (n i)
            - sideOf (p.get (p.size - 1 - (e + 1) % p.size)) (p.get ((p.size - 1 - (e + 1) % p.size + 1) % p.size)) (o i)
            ≤ MAXBOUND)) := by
      intro e he i hi
      obtain ⟨f, hf, hfe, hf1⟩ := key e he
      have he' : (e + 1) % p.size < p.size := Nat.mod_lt _ (by omega)
      rw [← hfe, hf1, ho i hi, hn i hi, hp e he, hp _ he', ← hfe, reflect, inner, inner, hd, side_swap (p.get f), side_swap (p.get f)]
      refine and_congr ?_ ?_
      · change sideOf _ _ _ ≤ 0 ↔ sideOf _ _ _ ≤ 0
        rw [inner, hd, side_swap (p.get f)]
        simp
      · simp
    unfold PolygonRows
    rw [hs]
    constructor
    · intro h e he i hi
      obtain ⟨f, hf, hfe, hf1⟩ := key (p.size - 1 - (e + 1) % p.size) (by
        have := Nat.mod_lt (e + 1) (show 0 < p.size by omega); omega)
      have := (eqv _ (by omega : p.size - 1 - (e + 1) % p.size < p.size) i hi).1 (h _ (by omega) i hi)
      have e1 : p.size - 1 - (p.size - 1 - (e + 1) % p.size + 1) % p.size = e := by
        obtain ⟨f', hf', hfe', hf1'⟩ := key e he
        rw [← hfe', hf1']
        omega
      rwa [e1] at this
    · intro h e he i hi
      exact (eqv e he i hi).2 (h _ (by omega) i hi)

/-! ### Predicted motions -/

theorem trajectory_x (S T : K) (u v : State3 K) {J J' I : ℕ → K} {i : ℕ} (h : ∀ k ≤ i, I k = g.x (J k) (J' k)) :
    jerkTrajectory S T (g.sx u v) I i = g.sx (jerkTrajectory S T u J i) (jerkTrajectory S T v J' i) := by
  induction i with
  | zero =>
    simp only [jerkTrajectory, cubic, Turn.sx, Turn.x, h 0 le_rfl, State3.mk.injEq]
    refine ⟨by ring, by ring, by ring⟩
  | succ i ih =>
    simp only [jerkTrajectory, ih fun k hk => h k (by omega), h (i + 1) le_rfl]
    simp only [cubic, Turn.sx, Turn.x, State3.mk.injEq]
    refine ⟨by ring, by ring, by ring⟩

theorem trajectory_y (S T : K) (u v : State3 K) {J J' I : ℕ → K} {i : ℕ} (h : ∀ k ≤ i, I k = g.y (J k) (J' k)) :
    jerkTrajectory S T (g.sy u v) I i = g.sy (jerkTrajectory S T u J i) (jerkTrajectory S T v J' i) := by
  induction i with
  | zero =>
    simp only [jerkTrajectory, cubic, Turn.sy, Turn.y, h 0 le_rfl, State3.mk.injEq]
    refine ⟨by ring, by ring, by ring⟩
  | succ i ih =>
    simp only [jerkTrajectory, ih fun k hk => h k (by omega), h (i + 1) le_rfl]
    simp only [cubic, Turn.sy, Turn.y, State3.mk.injEq]
    refine ⟨by ring, by ring, by ring⟩

end Spec.Turn

section
variable {tr : Trig K} {s s' : ZebSettings K} {z : ZebState K} {J J' : ℕ → K}

theorem turn_nbSamples (hs : g.Settings tr s s') : s'.nbSamples = s.nbSamples := by rw [hs.same]
theorem turn_period (hs : g.Settings tr s s') : s'.period = s.period := by rw [hs.same]

theorem turn_predict (hs : g.Settings tr s s') (hJ : g.Jerks s.nbSamples J J') {i : ℕ} (hi : i < s.nbSamples) :
    s'.comX (g.state z) J' i = g.sx (s.comX z J i) (s.comY z J i) ∧ s'.comY (g.state z) J' i = g.sy (s.comX z J i) (s.comY z J i) ∧
    s'.baseX (g.state z) J' i = g.sx (s.baseX z J i) (s.baseY z J i) ∧
    s'.baseY (g.state z) J' i = g.sy (s.baseX z J i) (s.baseY z J i) := by
  unfold ZebSettings.comX ZebSettings.comY ZebSettings.baseX ZebSettings.baseY
  rw [turn_nbSamples hs, turn_period hs]
  exact ⟨Turn.trajectory_x _ _ _ _ fun k hk => hJ.cx k (by omega), Turn.trajectory_y _ _ _ _ fun k hk => hJ.cy k (by omega),
    Turn.trajectory_x _ _ _ _ fun k hk => hJ.bx k (by omega), Turn.trajectory_y _ _ _ _ fun k hk => hJ.by_ k (by omega)⟩

theorem turn_predictedCop (hs : g.Settings tr s s') (u v u' v' : State3 K) :
    s'.predictedCop s'.gx (g.sx u v) (g.sx u' v') = g.x (s.predictedCop s.gx u u') (s.predictedCop s.gy v v') ∧
    s'.predictedCop s'.gy (g.sy u v) (g.sy u' v') = g.y (s.predictedCop s.gx u u') (s.predictedCop s.gy v v') := by
  have e1 : s'.gz = s.gz := by rw [hs.same]
  have e2 : s'.bodyMass = s.bodyMass := by rw [hs.same]
  have e3 : s'.baseMass = s.baseMass := by rw [hs.same]
  have e4 : s'.bodyHeight = s.bodyHeight := by rw [hs.same]
  have e5 : s'.baseHeight = s.baseHeight := by rw [hs.same]
  unfold ZebSettings.predictedCop
  rw [hs.gx, hs.gy, e1, e2, e3, e4, e5]
  unfold copOf Turn.sx Turn.sy Turn.x Turn.y
  split_ifs <;> constructor <;> ring

theorem turn_rel (hs : g.Settings tr s s') (hJ : g.Jerks s.nbSamples J J') {i : ℕ} (hi : i < s.nbSamples) :
    s'.comRelX (g.state z) J' i = g.x (s.comRelX z J i) (s.comRelY z J i) ∧
    s'.comRelY (g.state z) J' i = g.y (s.comRelX z J i) (s.comRelY z J i) ∧
    s'.copRelX (g.state z) J' i = g.x (s.copRelX z J i) (s.copRelY z J i) ∧
    s'.copRelY (g.state z) J' i = g.y (s.copRelX z J i) (s.copRelY z J i) := by
  obtain ⟨e1, e2, e3, e4⟩ := turn_predict (z := z) hs hJ hi
  unfold ZebSettings.comRelX ZebSettings.comRelY ZebSettings.copRelX ZebSettings.copRelY
  rw [e1, e2, e3, e4, (turn_predictedCop hs _ _ _ _).1, (turn_predictedCop hs _ _ _ _).2]
  simp only [Turn.sx, Turn.sy, Turn.x, Turn.y]
  refine ⟨by ring, by ring, by ring, by ring⟩

theorem turn_allowed (hg : g.Good) (hs : g.Settings tr s s') {X X' : ℕ → K} (hX : g.Jerks s.nbSamples X X')
    (hJ : g.Jerks s.nbSamples J J') :
    s'.Allowed (tr.cos s'.yaw.p) (tr.sin s'.yaw.p) (g.state z) X' J' ↔ s.Allowed (tr.cos s.yaw.p) (tr.sin s.yaw.p) z X J := by
  have hN := turn_nbSamples hs
  have hc : s'.config = s.config := by rw [hs.same]
  have hv : s'.velLimit = s.velLimit := by rw [hs.same]
  have ha : s'.accLimit = s.accLimit := by rw [hs.same]
  have hj : s'.jerkLimit = s.jerkLimit := by rw [hs.same]
  unfold ZebSettings.Allowed
  rw [hN, hc]
  refine and_congr ?_ (and_congr ?_ (and_congr ?_ (and_congr ?_ ?_)))
  · refine forall_congr' fun _ => Turn.rows hs.copPolygon (fun i hi => ?_) fun i hi => ?_
    · obtain ⟨-, -, h3, h4⟩ := turn_rel (z := z) hs hX hi
      exact congrArg₂ Pt.mk h3 h4
    · obtain ⟨-, -, h3, h4⟩ := turn_rel (z := z) hs hJ hi
      exact congrArg₂ Pt.mk h3 h4
  · refine forall_congr' fun _ => ?_
    unfold ZebSettings.BaseWithinLimits
    rw [hN, hv, ha, hj]
    refine forall₂_congr fun i hi => ?_
    obtain ⟨-, -, e3, e4⟩ := turn_predict (z := z) hs hJ hi
    rw [e3, e4, hJ.bx i hi, hJ.by_ i hi]
    have b1 := hg.box (s.baseX z J i).v (s.baseY z J i).v s.velLimit
    have b2 := hg.box (s.baseX z J i).a (s.baseY z J i).a s.accLimit
    have b3 := hg.box (jerkBX s.nbSamples J i) (jerkBY s.nbSamples J i) s.jerkLimit
    simp only [Turn.sx, Turn.sy]
    constructor
    · rintro ⟨p1, p2, p3, p4, p5, p6⟩
      exact ⟨(b1.1 ⟨p1, p2⟩).1, (b1.1 ⟨p1, p2⟩).2, (b2.1 ⟨p3, p4⟩).1, (b2.1 ⟨p3, p4⟩).2, (b3.1 ⟨p5, p6⟩).1, (b3.1 ⟨p5, p6⟩).2⟩
    · rintro ⟨p1, p2, p3, p4, p5, p6⟩
      exact ⟨(b1.2 ⟨p1, p2⟩).1, (b1.2 ⟨p1, p2⟩).2, (b2.2 ⟨p3, p4⟩).1, (b2.2 ⟨p3, p4⟩).2, (b3.2 ⟨p5, p6⟩).1, (b3.2 ⟨p5, p6⟩).2⟩
  · refine forall_congr' fun _ => Turn.rows hs.comPolygon (fun i hi => ?_) fun i hi => ?_
    · obtain ⟨h3, h4, -, -⟩ := turn_rel (z := z) hs hX hi
      exact congrArg₂ Pt.mk h3 h4
    · obtain ⟨h3, h4, -, -⟩ := turn_rel (z := z) hs hJ hi
      exact congrArg₂ Pt.mk h3 h4
  · refine forall_congr' fun _ => ?_
    unfold ZebSettings.AlongHeading
    rw [hN, hs.cos, hs.sin]
    refine forall₂_congr fun i hi => ?_
    obtain ⟨e1, e2, e3, e4⟩ := turn_predict (z := z) hs hJ hi
    have hd : ∀ p q u v : K, g.y p q * g.x u v - g.x p q * g.y u v = (g.a * g.d - g.b * g.c) * (q * u - p * v) := by
      intro p q u v; unfold Turn.x Turn.y; ring
    rw [e1, e2, e3, e4]
    simp only [Turn.sx, Turn.sy, hd]
    rcases hg.det with h | h <;> rw [h] <;> simp only [one_mul, neg_one_mul, neg_eq_zero]
  · have blocks : ∀ P : ℕ → Prop, (∀ i < 4 * s.nbSamples, P i) ↔ ∀ i < s.nbSamples,
        (P i ∧ P (s.nbSamples + i)) ∧ (P (2 * s.nbSamples + i) ∧ P (3 * s.nbSamples + i)) := by
      intro P
      constructor
      · intro h i hi
        exact ⟨⟨h _ (by omega), h _ (by omega)⟩, ⟨h _ (by omega), h _ (by omega)⟩⟩
      · intro h i hi
        rcases Nat.lt_or_ge i s.nbSamples with h1 | h1
        · exact (h i h1).1.1
        rcases Nat.lt_or_ge i (2 * s.nbSamples) with h2 | h2
        · have := (h (i - s.nbSamples) (by omega)).1.2
          rwa [show s.nbSamples + (i - s.nbSamples) = i by omega] at this
        rcases Nat.lt_or_ge i (3 * s.nbSamples) with h3 | h3
        · have := (h (i - 2 * s.nbSamples) (by omega)).2.1
          rwa [show 2 * s.nbSamples + (i - 2 * s.nbSamples) = i by omega] at this
        · have := (h (i - 3 * s.nbSamples) (by omega)).2.2
          rwa [show 3 * s.nbSamples + (i - 3 * s.nbSamples) = i by omega] at this
    rw [blocks, blocks]
    refine forall₂_congr fun i hi => ?_
    have sub : ∀ p q u v : K, g.x p q - g.x u v = g.x (p - u) (q - v) ∧ g.y p q - g.y u v = g.y (p - u) (q - v) := by
      intro p q u v; unfold Turn.x Turn.y; constructor <;> ring
    have h1 : (|J' i - X' i| ≤ MAXBOUND ∧ |J' (s.nbSamples + i) - X' (s.nbSamples + i)| ≤ MAXBOUND) ↔
        (|J i - X i| ≤ MAXBOUND ∧ |J (s.nbSamples + i) - X (s.nbSamples + i)| ≤ MAXBOUND) := by
      have a1 := hJ.cx i hi; have a2 := hJ.cy i hi; have a3 := hX.cx i hi; have a4 := hX.cy i hi
      unfold jerkCX jerkCY at a1 a2 a3 a4
      rw [a1, a2, a3, a4, (sub _ _ _ _).1, (sub _ _ _ _).2]
      exact hg.box _ _ _
    have h2 : (|J' (2 * s.nbSamples + i) - X' (2 * s.nbSamples + i)| ≤ MAXBOUND ∧
        |J' (3 * s.nbSamples + i) - X' (3 * s.nbSamples + i)| ≤ MAXBOUND) ↔
        (|J (2 * s.nbSamples + i) - X (2 * s.nbSamples + i)| ≤ MAXBOUND ∧
        |J (3 * s.nbSamples + i) - X (3 * s.nbSamples + i)| ≤ MAXBOUND) := by
      have a1 := hJ.bx i hi; have a2 := hJ.by_ i hi; have a3 := hX.bx i hi; have a4 := hX.by_ i hi
      unfold jerkBX jerkBY at a1 a2 a3 a4
      rw [a1, a2, a3, a4, (sub _ _ _ _).1, (sub _ _ _ _).2]
      exact hg.box _ _ _
    cases hb : s.config.base
    · simp only [Bool.false_eq_true, false_implies, true_implies]
      exact and_congr h1 h2
    · have c1 : i < 2 * s.nbSamples := by omega
      have c2 : s.nbSamples + i < 2 * s.nbSamples := by omega
      have c3 : ¬ (2 * s.nbSamples + i < 2 * s.nbSamples) := by omega
      have c4 : ¬ (3 * s.nbSamples + i < 2 * s.nbSamples) := by omega
      simp only [c1, c2, c3, c4, true_implies, false_implies, and_true]
      exact h1

/-! ### Costs -/

theorem turn_tiltRhs (hs : g.Settings tr s s') (L : K) (u v u' v' : State3 K) :
    s'.tiltRhs L s'.contactX (g.sx u v) (g.sx u' v') = g.x (s.tiltRhs L s.contactX u u') (s.tiltRhs L s.contactY v v') ∧
    s'.tiltRhs L s'.contactY (g.sy u v) (g.sy u' v') = g.y (s.tiltRhs L s.contactX u u') (s.tiltRhs L s.contactY v v') := by
  have e2 : s'.bodyMass = s.bodyMass := by rw [hs.same]
  have e3 : s'.baseMass = s.baseMass := by rw [hs.same]
  have e4 : s'.bodyHeight = s.bodyHeight := by rw [hs.same]
  unfold ZebSettings.tiltRhs
  rw [hs.contactX, hs.contactY, e2, e3, e4]
  unfold Turn.sx Turn.sy Turn.x Turn.y
  constructor <;> ring

theorem turn_tilt (hg : g.Good) (hs : g.Settings tr s s') (hJ : g.Jerks s.nbSamples J J') {L : K} {u ps u' ps' : ℕ → ℕ → K}
    (hu : ∀ i < s.nbSamples, ∀ j < s.nbSamples, u' i j = u i j) (hps : ∀ i < s.nbSamples, ∀ j < 2, ps' i j = ps i j) :
    s'.tiltCost (zTilt s' L u' ps' s'.roll s'.contactX (s'.comX (g.state z) J') (s'.baseX (g.state z) J'))
        (zTilt s' L u' ps' s'.pitch s'.contactY (s'.comY (g.state z) J') (s'.baseY (g.state z) J'))
      = s.tiltCost (zTilt s L u ps s.roll s.contactX (s.comX z J) (s.baseX z J))
        (zTilt s L u ps s.pitch s.contactY (s.comY z J) (s.baseY z J)) := by
  unfold ZebSettings.tiltCost
  rw [turn_nbSamples hs]
  refine sum_congr rfl fun i hi => ?_
  have hi := mem_range.1 hi
  have e1 : zTilt s' L u' ps' s'.roll s'.contactX (s'.comX (g.state z) J') (s'.baseX (g.state z) J') i
      = g.x (zTilt s L u ps s.roll s.contactX (s.comX z J) (s.baseX z J) i)
        (zTilt s L u ps s.pitch s.contactY (s.comY z J) (s.baseY z J) i) := by
    unfold zTilt
    rw [turn_nbSamples hs, hps i hi 0 (by norm_num), hps i hi 1 (by norm_num), hs.roll,
      sum_congr rfl fun j hj => show u' i j * s'.tiltRhs L s'.contactX (s'.comX (g.state z) J' j) (s'.baseX (g.state z) J' j)
        = g.a * (u i j * s.tiltRhs L s.contactX (s.comX z J j) (s.baseX z J j))
          + g.b * (u i j * s.tiltRhs L s.contactY (s.comY z J j) (s.baseY z J j)) by
        have hj := mem_range.1 hj
        obtain ⟨p1, p2, p3, p4⟩ := turn_predict (z := z) hs hJ hj
        rw [hu i hi j hj, p1, p3, (turn_tiltRhs hs L _ _ _ _).1]
        unfold Turn.x; ring,
      sum_add_distrib, ← mul_sum, ← mul_sum]
    unfold Turn.sx Turn.x
    ring
  have e2 : zTilt s' L u' ps' s'.pitch s'.contactY (s'.comY (g.state z) J') (s'.baseY (g.state z) J') i
      = g.y (zTilt s L u ps s.roll s.contactX (s.comX z J) (s.baseX z J) i)
        (zTilt s L u ps s.pitch s.contactY (s.comY z J) (s.baseY z J) i) := by
    unfold zTilt
    rw [turn_nbSamples hs, hps i hi 0 (by norm_num), hps i hi 1 (by norm_num), hs.pitch,
      sum_congr rfl fun j hj => show u' i j * s'.tiltRhs L s'.contactY (s'.comY (g.state z) J' j) (s'.baseY (g.state z) J' j)
        = g.c * (u i j * s.tiltRhs L s.contactX (s.comX z J j) (s.baseX z J j))
          + g.d * (u i j * s.tiltRhs L s.contactY (s.comY z J j) (s.baseY z J j)) by
        have hj := mem_range.1 hj
        obtain ⟨p1, p2, p3, p4⟩ := turn_predict (z := z) hs hJ hj
        rw [hu i hi j hj, p2, p4, (turn_tiltRhs hs L _ _ _ _).2]
        unfold Turn.y; ring,
      sum_add_distrib, ← mul_sum, ← mul_sum]
    unfold Turn.sy Turn.y
    ring
  rw [e1, e2]
  exact hg.sq _ _

theorem sum_blocks (N : ℕ) (f : ℕ → K) : ∑ i ∈ range (4 * N), f i
    = ∑ i ∈ range N, (f i + f (N + i) + (f (2 * N + i) + f (3 * N + i))) := by
  rw [show 4 * N = N + N + (N + N) by ring, sum_range_add, sum_range_add, sum_range_add, ← sum_add_distrib, ← sum_add_distrib,
    ← sum_add_distrib]
  refine sum_congr rfl fun i _ => ?_
  rw [show N + N + i = 2 * N + i by ring, show N + N + (N + i) = 3 * N + i by ring]

theorem turn_total (hg : g.Good) (hs : g.Settings tr s s') (hJ : g.Jerks s.nbSamples J J') {k k' : K × K}
    (hk : k' = (g.x k.1 k.2, g.y k.1 k.2)) (t t' : K) : s'.totalCost k' t t' (g.state z) J' = s.totalCost k t t' z J := by
  have hN := turn_nbSamples hs
  have hw : s'.weighting = s.weighting := by rw [hs.same]
  have sub : ∀ p q u v : K, (g.x p q - g.x u v) ^ 2 + (g.y p q - g.y u v) ^ 2 = (p - u) ^ 2 + (q - v) ^ 2 := by
    intro p q u v
    rw [← hg.sq (p - u) (q - v)]; unfold Turn.x Turn.y; ring
  have h1 : s'.velCost (g.state z) J' = s.velCost z J := by
    unfold ZebSettings.velCost
    rw [hN]
    refine sum_congr rfl fun i hi => ?_
    have hi := mem_range.1 hi
    obtain ⟨-, -, e3, e4⟩ := turn_predict (z := z) hs hJ hi
    rw [e3, e4, hs.velRef.x i hi, hs.velRef.y i hi]
    exact sub _ _ _ _
  have h2 : s'.posCost (g.state z) J' = s.posCost z J := by
    unfold ZebSettings.posCost
    rw [hN]
    refine sum_congr rfl fun i hi => ?_
    have hi := mem_range.1 hi
    obtain ⟨-, -, e3, e4⟩ := turn_predict (z := z) hs hJ hi
    rw [e3, e4, hs.posRef.x i hi, hs.posRef.y i hi]
    exact sub _ _ _ _
  have h3 : s'.copCost (g.state z) J' = s.copCost z J := by
    unfold ZebSettings.copCost
    rw [hN]
    refine sum_congr rfl fun i hi => ?_
    have hi := mem_range.1 hi
    obtain ⟨-, -, e3, e4⟩ := turn_rel (z := z) hs hJ hi
    rw [e3, e4, hs.copRef.x i hi, hs.copRef.y i hi]
    exact sub _ _ _ _
  have h4 : s'.comCost k' (g.state z) J' = s.comCost k z J := by
    unfold ZebSettings.comCost
    rw [hN]
    refine sum_congr rfl fun i hi => ?_
    have hi := mem_range.1 hi
    obtain ⟨e3, e4, -, -⟩ := turn_rel (z := z) hs hJ hi
    rw [e3, e4, hs.comRef.x i hi, hs.comRef.y i hi, hk]
    refine Eq.trans ?_ (sub _ _ _ _)
    unfold Turn.x Turn.y; ring
  have h5 : s'.jerkCost J' = s.jerkCost J := by
    unfold ZebSettings.jerkCost
    rw [hN, sum_blocks, sum_blocks]
    refine sum_congr rfl fun i hi => ?_
    have hi := mem_range.1 hi
    have a1 := hJ.cx i hi; have a2 := hJ.cy i hi; have a3 := hJ.bx i hi; have a4 := hJ.by_ i hi
    unfold jerkCX jerkCY at a1 a2
    unfold jerkBX jerkBY at a3 a4
    rw [a1, a2, a3, a4, hg.sq, hg.sq]
  unfold ZebSettings.totalCost
  rw [h1, h2, h3, h4, h5, hw]

end

/-! ### Turned jerks -/

/-- Turned jerks, as a function. -/
def turnJerks (g : Turn K) (N : ℕ) (X : ℕ → K) (j : ℕ) : K :=
  if j < N then g.x (X j) (X (N + j)) else if j < 2 * N then g.y (X (j - N)) (X j)
  else if j < 3 * N then g.x (X j) (X (N + j)) else g.y (X (j - N)) (X j)

theorem turnJerks_rel (g : Turn K) (N : ℕ) (X : ℕ → K) : g.Jerks N X (turnJerks g N X) := by
  refine ⟨fun i hi => ?_, fun i hi => ?_, fun i hi => ?_, fun i hi => ?_⟩
  · simp only [jerkCX, jerkCY, turnJerks, hi, if_true]
  · simp only [jerkCX, jerkCY, turnJerks]
    rw [if_neg (by omega), if_pos (by omega), Nat.add_sub_cancel_left]
  · simp only [jerkBX, jerkBY, turnJerks]
    rw [if_neg (by omega), if_neg (by omega), if_pos (by omega), show N + (2 * N + i) = 3 * N + i by ring]
  · simp only [jerkBX, jerkBY, turnJerks]
    rw [if_neg (by omega), if_neg (by omega), if_neg (by omega), show 3 * N + i - N = 2 * N + i by omega]

theorem turnJerks_inv (hg : g.Good) (N : ℕ) (X : ℕ → K) : g.Jerks N (turnJerks g.inv N X) X := by
  have h := turnJerks_rel g.inv N X
  refine ⟨fun i hi => ?_, fun i hi => ?_, fun i hi => ?_, fun i hi => ?_⟩
  · rw [h.cx i hi, h.cy i hi]; exact (hg.cancel _ _).1.symm
  · rw [h.cx i hi, h.cy i hi]; exact (hg.cancel _ _).2.symm
  · rw [h.bx i hi, h.by_ i hi]; exact (hg.cancel _ _).1.symm
  · rw [h.bx i hi, h.by_ i hi]; exact (hg.cancel _ _).2.symm

theorem turnJerks_add {N : ℕ} {X X' d d' : ℕ → K} (h : g.Jerks N X X') (hd : g.Jerks N d d') :
    g.Jerks N (fun i => X i + d i) (fun i => X' i + d' i) := by
  refine ⟨fun i hi => ?_, fun i hi => ?_, fun i hi => ?_, fun i hi => ?_⟩
  · have a := h.cx i hi; have b := hd.cx i hi
    simp only [jerkCX, jerkCY] at *; rw [a, b]; unfold Turn.x; ring
  · have a := h.cy i hi; have b := hd.cy i hi
    simp only [jerkCX, jerkCY] at *; rw [a, b]; unfold Turn.y; ring
  · have a := h.bx i hi; have b := hd.bx i hi
    simp only [jerkBX, jerkBY] at *; rw [a, b]; unfold Turn.x; ring
  · have a := h.by_ i hi; have b := hd.by_ i hi
    simp only [jerkBX, jerkBY] at *; rw [a, b]; unfold Turn.y; ring

theorem turnJerks_congr {N : ℕ} {X X' Y Y' : ℕ → K} (h : g.Jerks N X X') (h1 : ∀ i < 4 * N, Y i = X i)
    (h2 : ∀ i < 4 * N, Y' i = X' i) : g.Jerks N Y Y' := by
  refine ⟨fun i hi => ?_, fun i hi => ?_, fun i hi => ?_, fun i hi => ?_⟩
  · have := h.cx i hi
    simp only [jerkCX, jerkCY] at *
    rw [h1 _ (by omega), h1 _ (by omega), h2 _ (by omega), this]
  · have := h.cy i hi
    simp only [jerkCX, jerkCY] at *
    rw [h1 _ (by omega), h1 _ (by omega), h2 _ (by omega), this]
  · have := h.bx i hi
    simp only [jerkBX, jerkBY] at *
    rw [h1 _ (by omega), h1 _ (by omega), h2 _ (by omega), this]
  · have := h.by_ i hi
    simp only [jerkBX, jerkBY] at *
    rw [h1 _ (by omega), h1 _ (by omega), h2 _ (by omega), this]

/-! ### Calls that keep states and jerks -/

theorem zComputeConstantPart_same {w w' : Zeb K} (e : w.computeConstantPart = .ok w') :
    w'.X = w.X ∧ w'.lip = w.lip ∧ w'.base = w.base := by
  unfold Zeb.computeConstantPart at e
  obtain ⟨⟨a, b, c, d⟩, -, e⟩ := bind_eq_ok.1 e
  dsimp only at e
  obtain ⟨-, -, e⟩ := bind_eq_ok.1 e
  obtain ⟨_, -, e⟩ := bind_eq_ok.1 e
  obtain ⟨_, -, e⟩ := bind_eq_ok.1 e
  obtain ⟨_, -, e⟩ := bind_eq_ok.1 e
  obtain ⟨_, -, e⟩ := bind_eq_ok.1 e
  cases e
  exact ⟨rfl, rfl, rfl⟩

theorem turn_setter {o : Oracle K} {tr : Trig K} {w w' : Zeb K} {b : Bool} {c c' : ZebCall K} {N : ℕ} (hc : g.Call N c c')
    (hn : ∀ fb, c ≠ .solve fb) :
    (w.step o tr c = .ok (b, w') → w'.state = w.state ∧ w'.X = w.X) ∧
    (w.step o tr c' = .ok (b, w') → w'.state = w.state ∧ w'.X = w.X) := by
  have key : ∀ c : ZebCall K, (match c with
      | .setVelRef _ | .setPosRef _ | .setCopRef _ | .setComRef _ | .setVelLimit _ | .setAccLimit _ | .setJerkLimit _
      | .setWeightings _ | .setConfig _ => True
      | _ => False) → w.step o tr c = .ok (b, w') → w'.state = w.state ∧ w'.X = w.X := by
    intro c hc e
    cases c with
    | setVelRef v => obtain ⟨-, -, e⟩ := bind_eq_ok.1 e; cases e; exact ⟨rfl, rfl⟩
    | setPosRef v => obtain ⟨-, -, e⟩ := bind_eq_ok.1 e; cases e; exact ⟨rfl, rfl⟩
    | setCopRef v =>
      obtain ⟨-, -, e⟩ := bind_eq_ok.1 e; obtain ⟨_, -, e⟩ := bind_eq_ok.1 e; cases e; exact ⟨rfl, rfl⟩
    | setComRef v =>
      obtain ⟨-, -, e⟩ := bind_eq_ok.1 e; obtain ⟨_, -, e⟩ := bind_eq_ok.1 e; cases e; exact ⟨rfl, rfl⟩
    | setVelLimit l => obtain ⟨-, -, e⟩ := bind_eq_ok.1 e; cases e; exact ⟨rfl, rfl⟩
    | setAccLimit l => obtain ⟨-, -, e⟩ := bind_eq_ok.1 e; cases e; exact ⟨rfl, rfl⟩
    | setJerkLimit l => obtain ⟨-, -, e⟩ := bind_eq_ok.1 e; cases e; exact ⟨rfl, rfl⟩
    | setWeightings wt =>
      obtain ⟨-, -, e⟩ := bind_eq_ok.1 e; obtain ⟨-, -, e⟩ := bind_eq_ok.1 e; obtain ⟨-, -, e⟩ := bind_eq_ok.1 e
      obtain ⟨-, -, e⟩ := bind_eq_ok.1 e; obtain ⟨-, -, e⟩ := bind_eq_ok.1 e; obtain ⟨-, -, e⟩ := bind_eq_ok.1 e
      obtain ⟨_, e1, e⟩ := bind_eq_ok.1 e
      cases e
      obtain ⟨h1, h2, h3⟩ := zComputeConstantPart_same e1
      exact ⟨by unfold Zeb.state; rw [h2, h3], h1⟩
    | setConfig wt =>
      obtain ⟨_, e1, e⟩ := bind_eq_ok.1 e
      cases e
      obtain ⟨h1, h2, h3⟩ := zComputeConstantPart_same e1
      exact ⟨by unfold Zeb.state; rw [h2, h3], h1⟩
    | _ => exact hc.elim
  cases hc with
  | solve fb => exact absurd rfl (hn fb)
  | _ => exact ⟨key _ trivial, key _ trivial⟩

/-- Settings, height and shift in use stay turned. -/
theorem turn_apply {tr : Trig K} {s s' : ZebSettings K} (hs : g.Settings tr s s') {c c' : ZebCall K}
    (hc : g.Call s.nbSamples c c') :
    g.Settings tr (s.apply c) (s'.apply c') ∧ (s.apply c).nbSamples = s.nbSamples ∧
    (∀ L, s.nextTiltHeight L c = L ∧ s'.nextTiltHeight L c' = L) ∧ ∀ k, s.nextShift k c = k ∧ s'.nextShift k c' = k := by
  obtain ⟨h0, h1, h2, h3, h4, h5, h6, h7, h8, h9, h10, h11, h12, h13, h14⟩ := hs
  cases hc <;> refine ⟨⟨?_, h1, h2, h3, h4, ?_, ?_, ?_, ?_, h9, h10, h11, h12, h13, h14⟩, rfl, fun _ => ⟨rfl, rfl⟩, fun _ => ⟨rfl, rfl⟩⟩ <;>
    first | assumption | (rw [h0]; rfl)

theorem turn_pre {tr : Trig K} {s s' : ZebSettings K} (hs : g.Settings tr s s') {c c' : ZebCall K}
    (hc : g.Call s.nbSamples c c') (h : ZCodePre s c) : ZCodePre s' c' := by
  have hN := turn_nbSamples hs
  cases hc with
  | setVelRef hv => exact hv.size.trans (h.trans (by rw [hN]))
  | setPosRef hv => exact hv.size.trans (h.trans (by rw [hN]))
  | setCopRef hv => exact hv.size.trans (h.trans (by rw [hN]))
  | setComRef hv => exact hv.size.trans (h.trans (by rw [hN]))
  | solve fb =>
    refine ⟨h.1, ?_⟩
    unfold ZebSettings.RefsCurrent
    rw [hN, hs.velRef.size, hs.posRef.size, hs.copRef.size]
    exact h.2
  | _ => exact h

end MPC
