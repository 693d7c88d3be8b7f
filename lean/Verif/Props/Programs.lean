import Verif.Lemmas.Programs
/-! # Property C81: the example programs and the hull setters -/
namespace MPC
open Pt

section
variable {K : Type} [Field K] [LinearOrder K] [IsStrictOrderedRing K]

/-- **C81 (partial), trajectory program.** With an argument, whatever the QP solver answers, the program ends without fault:
one row for each time, in milliseconds; each state is the one reached from that of the row before (the first from rest) by
the jerk of the row in one period of the loop; and the columns of the references are zero, although the reference given
to the generator is not. Missing: no argument (false, `C81_no_argument`). -/
theorem C81_trajectory_partial (o : Oracle K) {argv : List String} (ha : 2 ≤ argv.length) (ts : List K) :
    ∃ rows, trajProgram o argv ts = .ok rows ∧ rows.map TrajRow.time = ts.map (· * 1000) ∧
      Spec.LogFollows (2 / 100) ⟨0, 0, 0⟩ rows ∧ ∀ r ∈ rows, r.refPos = 0 ∧ r.refVel = 0 := by
  obtain ⟨w, hw⟩ := C16_no_fault_partial o (trajProgramSetup (K := K))
    (by simp [trajProgramSetup, Spec.TrajSettings.Legal, Spec.TrajSettings.Pre, Spec.TrajSettings.apply, Vec.const])
    (by simp [trajProgramSetup, Spec.TrajSettings.RefsCurrentAtSolves])
  have hI := reachable_inv hw
  obtain ⟨w0, e0, e⟩ := bind_eq_ok.1 hw
  have hz : w.getState = ⟨0, 0, 0⟩ := by
    have e1 := e
    unfold trajProgramSetup at e1
    simp only [TrajWalkgen.run] at e1
    obtain ⟨_, -, e1⟩ := bind_eq_ok.1 e1
    obtain ⟨_, -, e1⟩ := bind_eq_ok.1 e1
    obtain ⟨_, -, e1⟩ := bind_eq_ok.1 e1
    obtain ⟨_, -, e1⟩ := bind_eq_ok.1 e1
    obtain ⟨_, -, e1⟩ := bind_eq_ok.1 e1
    obtain ⟨_, -, e1⟩ := bind_eq_ok.1 e1
    obtain ⟨r1, f1, e1⟩ := bind_eq_ok.1 e1
    obtain ⟨r2, f2, e1⟩ := bind_eq_ok.1 e1
    obtain ⟨r3, f3, e1⟩ := bind_eq_ok.1 e1
    obtain ⟨r4, f4, e1⟩ := bind_eq_ok.1 e1
    cases e1
    unfold TrajWalkgen.step at f1 f2 f3 f4
    obtain ⟨_, -, f1⟩ := bind_eq_ok.1 f1
    obtain ⟨_, -, f2⟩ := bind_eq_ok.1 f2
    obtain ⟨_, -, f3⟩ := bind_eq_ok.1 f3
    obtain ⟨_, -, f4⟩ := bind_eq_ok.1 f4
    cases f1
    cases f2
    cases f3
    cases f4
    rfl
  obtain ⟨rows, er, h1, h2, h3⟩ := trajLoop_ok o ⟨rfl, rfl⟩ ts w hI
  rw [hz] at h2
  refine ⟨rows, ?_, h1, h2, h3⟩
  unfold trajProgram
  rw [if_neg (by omega), e0, ok_bind, e, ok_bind, er]

/-- The program with an argument, and four turns. -/
example : (2 ≤ ["trajectory-walkgen-bin", "/tmp"].length) ∧ ([0, 2 / 100, 4 / 100, 6 / 100] : List ℚ).length = 4 ∧
    (settingsOf (trajProgramSetup (K := ℚ))).velRef.get 0 ≠ 0 := by
  refine ⟨le_rfl, rfl, ?_⟩
  show (2 / 10 : ℚ) ≠ 0
  norm_num

/-- **C81 is violated by the trajectory program.** Started without argument it prints how to use it, goes on, and makes a
string of a null pointer. -/
theorem C81_no_argument (o : Oracle K) (name : String) (ts : List K) : trajProgram o [name] ts = .error .unspecified := rfl

end

/-- **C81 (partial), hull setters.** For points of the ground that are separated for the tolerances of the code and not
aligned, the hull setters are the polygon setters with at least three vertices, whose polygon is convex and is the convex hull
of the points; the heights of the points do not matter. Missing: other points (false, `C81_hull_single_point`). -/
theorem C81_hull_partial {δ : ℝ} {p : Vec (ℝ × ℝ × ℝ)} (hp : Spec.Separated δ (head2 p))
    (hna : ∃ i < p.size, ∃ j < p.size, ∃ k < p.size,
      (((head2 p).get j).sub ((head2 p).get i)).cross (((head2 p).get k).sub ((head2 p).get i)) ≠ 0) :
    ∃ q : Vec (Pt ℝ), 3 ≤ q.size ∧ Spec.Convex q ∧
      (∀ X : Pt ℝ, Spec.InPolygon q X ↔ Spec.toProd X ∈ Spec.Hull (head2 p)) ∧
      ∀ w : Zeb ℝ, w.setBaseCopHull δ p = w.setCopPolygon q ∧ w.setBaseComHull δ p = w.setComPolygon q := by
  obtain ⟨g, eg, h3, hc, h⟩ := ofPoints_three hp hna
  refine ⟨g.vertices, h3, hc, h, fun w => ?_⟩
  unfold Zeb.setBaseCopHull Zeb.setBaseComHull
  rw [eg]
  exact ⟨rfl, rfl⟩

/-- The hypotheses of `C81_hull_partial` are met by the points of the Zebulon program. -/
example : Spec.Separated (1 / 1000) (head2 zebProgramPoints) ∧
    ∃ i < zebProgramPoints.size, ∃ j < zebProgramPoints.size, ∃ k < zebProgramPoints.size,
      (((head2 zebProgramPoints).get j).sub ((head2 zebProgramPoints).get i)).cross
        (((head2 zebProgramPoints).get k).sub ((head2 zebProgramPoints).get i)) ≠ 0 :=
  ⟨octagon_separated (by norm_num) le_rfl, octagon_not_aligned⟩

/-- **C81 is violated by the hull setters.** A single point makes both read outside of a list. -/
theorem C81_hull_single_point (δ : ℝ) (w : Zeb ℝ) (a : ℝ × ℝ × ℝ) :
    w.setBaseCopHull δ ⟨1, fun _ => a⟩ = .error .outOfRange ∧ w.setBaseComHull δ ⟨1, fun _ => a⟩ = .error .outOfRange := by
  have h := C24_single_point_out_of_range δ ⟨a.1, a.2.1⟩
  unfold Zeb.setBaseCopHull Zeb.setBaseComHull
  have e : head2 ⟨1, fun _ => a⟩ = ⟨1, fun _ => ⟨a.1, a.2.1⟩⟩ := rfl
  rw [e, h]
  exact ⟨rfl, rfl⟩

/-- **C81 (partial), Zebulon program.** Whatever the QP solver answers, also when it reports failures, and whatever the
roundings of the literals and of the times, the program ends without fault and writes one row for each time, without leaving the
loop early. The states of base and CoM of each row are reached from those of the row before by constant jerks. The tilt is zero
before the push. After it the tilt is zero or at most -0.01 rad, and once zero it stays zero. Missing: the contact point, to
which the constructor gives no value, is read (`C81_zebulon_uninitialised`). -/
theorem C81_zebulon_partial {δ : ℝ} (h0 : 0 ≤ δ) (h1 : δ ≤ 1 / 1000) (o : Oracle ℝ) (tr : Trig ℝ) (cx cy : ℝ) (l : TiltTimes)
    (ts : List ℝ) : ∃ rows s, zebProgram δ o tr (some cx, some cy) l ts = .ok (rows, s) ∧ rows.map ZebRow.time = ts ∧
      (∃ b c, Spec.ZebLogFollows (2 / 100) b c rows) ∧
      (∀ r ∈ rows, r.time < l.a → r.psi = ⟨0, 0, 0⟩) ∧
      (∀ r ∈ rows, l.a ≤ r.time → l.f ≤ r.time → r.psi = ⟨0, 0, 0⟩ ∨ r.psi.p ≤ -(1 / 100)) ∧
      rows.Pairwise (fun r r' => l.a ≤ r.time → l.f ≤ r.time → r.psi = ⟨0, 0, 0⟩ → l.a ≤ r'.time → l.f ≤ r'.time →
        r'.psi = ⟨0, 0, 0⟩) := by
  obtain ⟨s, hI, -, -, e⟩ := zebStart_ok h0 h1 o tr cx cy l ts
  obtain ⟨rows, s', e', k1, k2, k3, -, k5⟩ := zebLoop_ok o l ts s hI
  exact ⟨rows, s', e.trans e', k1, ⟨_, _, k2⟩, fun r hr => (k3 r hr).1, fun r hr => (k3 r hr).2, k5⟩

/-- The precision of Eigen for `double` meets the hypotheses of `C81_zebulon_partial`. -/
example : (0 : ℝ) ≤ 1 / 10 ^ 12 ∧ (1 : ℝ) / 10 ^ 12 ≤ 1 / 1000 := by norm_num

/-- **C81 is violated by the Zebulon program**: its first line reads memory without value. -/
theorem C81_zebulon_uninitialised (δ : ℝ) (o : Oracle ℝ) (tr : Trig ℝ) (l : TiltTimes) (ts : List ℝ) :
    zebProgram δ o tr (none, none) l ts = .error .unspecified := by
  unfold zebProgram
  rw [C53_violated tr (none, none) (.inl rfl)]
  rfl

end MPC
