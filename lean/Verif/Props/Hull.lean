import Verif.Lemmas.HullWitness
import Verif.Props.Polygon

/-! # Properties C23 and C24: construction of a polygon from points -/

namespace MPC

open Pt

/-- **C23** (part). For points separated with respect to the tolerances of the code, the stored
vertices are at least two different input points, none strictly between two input points, listed
counterclockwise, and every input point lies in the polygon. Missing: points that are nearly, but not
exactly, aligned or equal, and repetitions of the first point, for which the claim is false
(`C23_repeated_point_wrong`). -/
theorem C23_hull_partial {δ : ℝ} {p : Vec (Pt ℝ)} (hp : Spec.Separated δ p) :
    ∃ l, extractVertices δ p = .ok l ∧ 2 ≤ l.length ∧ l.Nodup ∧
      (∀ a ∈ l, ∃ i < p.size, a = p.get i) ∧
      (∀ a ∈ l, ∀ i < p.size, ∀ j < p.size, ∀ t : ℝ, 0 < t → t < 1 →
        a = ⟨(1 - t) * (p.get i).x + t * (p.get j).x, (1 - t) * (p.get i).y + t * (p.get j).y⟩ →
        p.get i = p.get j) ∧
      Spec.Convex (listVec l) ∧ ∀ j < p.size, Spec.InPolygon (listVec l) (p.get j) := by
  obtain ⟨s, m, c, h2, hc, hm, e⟩ := extract_cycle hp
  have hin : ∀ j < p.size,
      Spec.InPolygon (listVec ((List.range m).map (fun i => p.get (c i)))) (p.get j) := by
    intro j hj
    rw [inPolygon_cycle hc hm]
    exact fun i hi => (hc.next i hi).left j hj
  refine ⟨_, e, by simpa using h2, ?_, ?_, ?_, ?_, hin⟩
  · refine List.Nodup.map_on ?_ List.nodup_range
    intro i hi j hj he
    have hi := List.mem_range.1 hi
    have hj := List.mem_range.1 hj
    apply hc.inj i hi j hj
    exact le_antisymm ((hc.extreme i hi.le).first _ (hc.extreme j hj.le).lt he.symm)
      ((hc.extreme j hj.le).first _ (hc.extreme i hi.le).lt he)
  · intro a ha
    obtain ⟨i, hi, rfl⟩ := List.mem_map.1 ha
    exact ⟨c i, (hc.extreme i (List.mem_range.1 hi).le).lt, rfl⟩
  · intro a ha i hi j hj t h0 h1 hx
    obtain ⟨k, hk, rfl⟩ := List.mem_map.1 ha
    exact (hc.extreme k (List.mem_range.1 hk).le).between i hi j hj t h0 h1 (congrArg Pt.x hx)
      (congrArg Pt.y hx)
  · intro j hj
    have hj' : j < m := by simpa [listVec] using hj
    have : (listVec ((List.range m).map (fun i => p.get (c i)))).get j = p.get (c j) := by
      simp [listVec, hj']
    rw [this]
    exact hin _ (hc.extreme j hj'.le).lt

/-- **C23** (part). For separated points that are not all aligned, the polygon of the stored vertices
is the convex hull of the input points. -/
theorem C23_is_convex_hull_partial {δ : ℝ} {p : Vec (Pt ℝ)} (hp : Spec.Separated δ p)
    (hna : ∃ i < p.size, ∃ j < p.size, ∃ k < p.size,
      ((p.get j).sub (p.get i)).cross ((p.get k).sub (p.get i)) ≠ 0) :
    ∃ l, extractVertices δ p = .ok l ∧
      ∀ X : Pt ℝ, Spec.InPolygon (listVec l) X ↔ Spec.toProd X ∈ Spec.Hull p := by
  obtain ⟨s, m, c, h2, hc, hm, e⟩ := extract_cycle hp
  refine ⟨_, e, fun X => ?_⟩
  have h3 : 3 ≤ m := by
    rcases Nat.lt_or_eq_of_le h2 with h | rfl
    · exact h
    · exfalso
      obtain ⟨i, hi, j, hj, k, hk, hne⟩ := hna
      apply hne
      have n0 := hc.next 0 (by omega)
      have n1 := hc.next 1 (by omega)
      have hc2 : c (1 + 1) = c 0 := by rw [hc.start]; exact hm
      have z : ∀ x < p.size, ((p.get (c 1)).sub (p.get (c 0))).cross ((p.get x).sub (p.get (c 0))) = 0 := by
        intro x hx
        have a := n0.left x hx
        have b := n1.left x hx
        rw [hc2] at b
        rw [zero_add] at a
        have : ((p.get (c 1)).sub (p.get (c 0))).cross ((p.get x).sub (p.get (c 0))) +
          ((p.get (c 0)).sub (p.get (c 1))).cross ((p.get x).sub (p.get (c 1))) = 0 := by
          unfold Pt.sub cross; ring
        linarith
      have hne0 := n0.ne
      rw [zero_add] at hne0
      have hd := Pt.sub_ne_zero hne0
      obtain ⟨r1, x1, y1⟩ := proportional hd (z i hi)
      obtain ⟨r2, x2, y2⟩ := proportional hd (z j hj)
      obtain ⟨r3, x3, y3⟩ := proportional hd (z k hk)
      simp only [Pt.sub] at x1 y1 x2 y2 x3 y3
      have ej : (p.get j).sub (p.get i) = ⟨(r2 - r1) * ((p.get (c 1)).x - (p.get (c 0)).x),
          (r2 - r1) * ((p.get (c 1)).y - (p.get (c 0)).y)⟩ :=
        Pt.ext' (by simp only [Pt.sub]; linear_combination x2 - x1)
          (by simp only [Pt.sub]; linear_combination y2 - y1)
      have ek : (p.get k).sub (p.get i) = ⟨(r3 - r1) * ((p.get (c 1)).x - (p.get (c 0)).x),
          (r3 - r1) * ((p.get (c 1)).y - (p.get (c 0)).y)⟩ :=
        Pt.ext' (by simp only [Pt.sub]; linear_combination x3 - x1)
          (by simp only [Pt.sub]; linear_combination y3 - y1)
      rw [ej, ek]
      unfold cross
      ring
  constructor
  · intro h
    rw [inPolygon_cycle hc hm] at h
    exact fan hc hm h3 h
  · intro h
    have hsub : Spec.Hull p ⊆ {a : ℝ × ℝ |
        Spec.InPolygon (listVec ((List.range m).map (fun i => p.get (c i)))) ⟨a.1, a.2⟩} := by
      apply convexHull_min
      · rintro a ⟨i, hi, rfl⟩
        show Spec.InPolygon _ (p.get i)
        rw [inPolygon_cycle hc hm]
        exact fun j hj => (hc.next j hj).left i hi
      · intro a ha b hb u v hu hv huv
        simp only [Set.mem_ofPred_eq] at ha hb ⊢
        rw [inPolygon_cycle hc hm] at ha hb ⊢
        intro i hi
        have h1 := mul_nonneg hu (ha i hi)
        have h2 := mul_nonneg hv (hb i hi)
        have e : ((p.get (c (i + 1))).sub (p.get (c i))).cross
            ((⟨(u • a + v • b).1, (u • a + v • b).2⟩ : Pt ℝ).sub (p.get (c i))) =
            u * ((p.get (c (i + 1))).sub (p.get (c i))).cross ((⟨a.1, a.2⟩ : Pt ℝ).sub (p.get (c i))) +
            v * ((p.get (c (i + 1))).sub (p.get (c i))).cross ((⟨b.1, b.2⟩ : Pt ℝ).sub (p.get (c i))) := by
          obtain rfl : v = 1 - u := by linarith
          simp only [Pt.sub, cross, Prod.fst_add, Prod.snd_add, Prod.smul_fst, Prod.smul_snd, smul_eq_mul]
          ring
        rw [e]; linarith
    exact hsub h

/-- **C22 and C23 together** (part). For separated, non aligned points whose hull has clean edges, a
point satisfies the bounds and rows of the constructed `ConvexPolygon` iff it is in the convex hull of
the points given to the constructor. -/
theorem C23_constraints_are_hull_partial {δ : ℝ} {p : Vec (Pt ℝ)} (hp : Spec.Separated δ p)
    (hna : ∃ i < p.size, ∃ j < p.size, ∃ k < p.size,
      ((p.get j).sub (p.get i)).cross ((p.get k).sub (p.get i)) ≠ 0)
    (hcl : ∀ l, extractVertices δ p = .ok l → Spec.CleanEdges (listVec l)) :
    ∃ g, Polygon.ofPoints δ p = .ok g ∧ ∀ X : Pt ℝ, |X.x| ≤ MAXBOUND → |X.y| ≤ MAXBOUND →
      (Spec.SatisfiesConstraints g X ↔ Spec.toProd X ∈ Spec.Hull p) := by
  obtain ⟨l, e, h⟩ := C23_is_convex_hull_partial hp hna
  obtain ⟨l', e', -, -, -, -, hconv, -⟩ := C23_hull_partial hp
  rw [e] at e'
  cases e'
  obtain ⟨g, eg, -, hg⟩ := C22_constraints_mean_membership (listVec l) hconv (hcl l e)
  refine ⟨g, ?_, fun X hx hy => (hg X hx hy).trans (h X)⟩
  rw [Polygon.ofPoints, e, ok_bind, eg]

/-- C23 is false without separation: for the points `(0,0), (0,0), (1,1), (-1,1)`, whose first point
is repeated, the constructed polygon has a repeated vertex and its constraints reject the input point
`(1,1)`. -/
theorem C23_repeated_point_wrong {δ : ℝ} (h0 : 0 ≤ δ) (h1 : δ < 1 / 2) :
    ∃ (p : Vec (Pt ℝ)) (l : List (Pt ℝ)) (g : Polygon ℝ), p.size = 4 ∧ p.get 2 = ⟨1, 1⟩ ∧
      extractVertices δ p = .ok l ∧ ¬ l.Nodup ∧ Polygon.ofPoints δ p = .ok g ∧
      ¬ Spec.SatisfiesConstraints g ⟨1, 1⟩ := by
  have e := repeated_vertices h0 h1
  obtain ⟨g, eg, hs, hv, -⟩ := edges_ok (listVec [⟨0, 0⟩, ⟨0, 0⟩, ⟨1, 1⟩, ⟨-1, 1⟩]) 4 le_rfl
  refine ⟨repeatedPts, _, g, rfl, rfl, e, by simp, ?_, ?_⟩
  · rw [Polygon.ofPoints, e, ok_bind]; exact eg
  · intro h
    have hx : g.xSup = 0 := by
      have t1 : ¬ (1 : ℝ) < 1 / 10000 := by norm_num
      have t2 : ¬ (2 : ℝ) < 1 / 10000 := by norm_num
      simp [Polygon.edges, Polygon.edge, Polygon.start, listVec, Vec.at?, requireIndex, EPS,
        Vec.conservativeResize, Vec.set?] at eg
      norm_num at eg
      rw [← eg]
    have := h.2.1
    rw [hx] at this
    norm_num at this

/-- C24 is false: one point makes the constructor read the second element of a list of one. -/
theorem C24_single_point_out_of_range (δ : ℝ) (a : Pt ℝ) :
    Polygon.ofPoints δ ⟨1, fun _ => a⟩ = .error .outOfRange := by
  have h : extractVertices δ ⟨1, fun _ => a⟩ = .error .outOfRange := by
    simp [extractVertices, lowestLeftmost, lowestLoop, first?, leftmostLoop, Vec.at?, requireIndex,
      require, smallestAngle, angleLoop, furthestLoop, marchLoop]
  rw [Polygon.ofPoints, h, error_bind]

/-- C24 is false also for a proper triangle that is far from the origin compared to its size: the
assertion of the loop fails (without assertions the loop does not end). -/
theorem C24_far_triangle_assertion (δ : ℝ) : ∃ p : Vec (Pt ℝ), p.size = 3 ∧
    ((p.get 1).sub (p.get 0)).cross ((p.get 2).sub (p.get 0)) ≠ 0 ∧
    Polygon.ofPoints δ p = .error .assertFail := by
  refine ⟨farPts, rfl, ?_, ?_⟩
  · norm_num [farPts, Pt.sub, cross]
  · rw [Polygon.ofPoints, far_assert, error_bind]

/-- **C24** (part). For every list that does not consist of exactly one point, the constructor
terminates without reading outside of the list: it returns a polygon or its own assertion fails. -/
theorem C24_no_out_of_range_partial (δ : ℝ) (p : Vec (Pt ℝ)) (hp : p.size ≠ 1) :
    (∃ g, Polygon.ofPoints δ p = .ok g) ∨ Polygon.ofPoints δ p = .error .assertFail := by
  by_cases h0 : p.size = 0
  · left
    rw [Polygon.ofPoints, extractVertices, if_pos h0, res_pure, ok_bind]
    obtain ⟨g, eg, -⟩ := edges_ok (listVec []) 0 le_rfl
    exact ⟨g, eg⟩
  · have h2 : 2 ≤ p.size := by omega
    obtain ⟨s, es, hs, -⟩ := lowestLeftmost_ok p (by omega)
    obtain ⟨k, ek, hk⟩ := smallestAngle_range δ p h2 hs ⟨(p.get s).x - 1, (p.get s).y⟩
    have e : extractVertices δ p = marchLoop δ p (p.size + 2) [p.get s] k := by
      rw [extractVertices, if_neg h0, es, ok_bind, Vec.at?_ok hs, ok_bind, ek, ok_bind]
    rcases marchLoop_range δ p h2 (p.size + 2) [p.get s] k (by simp) hk (by simp) (by simp) with
      ⟨l, hl⟩ | hl
    · left
      obtain ⟨g, eg, -⟩ := edges_ok (listVec l) (listVec l).size le_rfl
      exact ⟨g, by rw [Polygon.ofPoints, e, hl, ok_bind]; exact eg⟩
    · right
      rw [Polygon.ofPoints, e, hl, error_bind]

/-- **C24** (part). For separated points the constructor returns a polygon. -/
theorem C24_separated_partial {δ : ℝ} {p : Vec (Pt ℝ)} (hp : Spec.Separated δ p) :
    ∃ g, Polygon.ofPoints δ p = .ok g ∧ g.vertices.size ≤ p.size := by
  obtain ⟨s, m, c, h2, hc, hm, e⟩ := extract_cycle hp
  obtain ⟨g, eg, -, hv, -⟩ := edges_ok (listVec ((List.range m).map fun i => p.get (c i))) _ le_rfl
  refine ⟨g, by rw [Polygon.ofPoints, e, ok_bind]; exact eg, ?_⟩
  rw [hv]
  simpa [listVec] using hc.len

/-- A square with its centre, a point on an edge and a repeated corner is separated. -/
example : Spec.Separated (1 / 1000000) (⟨7, fun i => if i = 0 then ⟨1, 1⟩ else if i = 1 then ⟨0, 0⟩ else
    if i = 2 then ⟨2, 0⟩ else if i = 3 then ⟨2, 2⟩ else if i = 4 then ⟨0, 2⟩ else
    if i = 5 then ⟨1, 0⟩ else ⟨2, 2⟩⟩ : Vec (Pt ℝ)) := by
  have norm_le : ∀ v : Pt ℝ, v.normSq ≤ 9 → v.norm ≤ 3 := by
    intro v h
    unfold Pt.norm
    rw [show (3 : ℝ) = Real.sqrt 9 by
      rw [show (9 : ℝ) = 3 ^ 2 by norm_num, Real.sqrt_sq (by norm_num)]]
    exact Real.sqrt_le_sqrt h
  have split : ∀ i < 7, i = 0 ∨ i = 1 ∨ i = 2 ∨ i = 3 ∨ i = 4 ∨ i = 5 ∨ i = 6 := by omega
  have prod_le : ∀ u v : Pt ℝ, u.normSq ≤ 9 → v.normSq ≤ 9 → 1 ≤ |u.cross v| →
      EPS * (u.norm * v.norm) < |u.cross v| := by
    intro u v hu hv hc
    have h1 := mul_le_mul (norm_le u hu) (norm_le v hv) (Pt.norm_nonneg v) (by norm_num)
    have : (EPS : ℝ) * (u.norm * v.norm) ≤ EPS * (3 * 3) := mul_le_mul_of_nonneg_left h1 EPS_pos.le
    have h3 : (EPS : ℝ) * (3 * 3) < 1 := by unfold EPS; norm_num
    linarith
  refine ⟨by norm_num, by norm_num, by norm_num, ?_, ?_, ?_, ?_, ?_⟩
  · intro j hj
    rcases split j hj with rfl | rfl | rfl | rfl | rfl | rfl | rfl <;> simp
  · intro i hi j hj
    rcases split i hi with rfl | rfl | rfl | rfl | rfl | rfl | rfl <;>
      rcases split j hj with rfl | rfl | rfl | rfl | rfl | rfl | rfl <;>
      norm_num [isApprox, Pt.sub, normSq, EPS]
  · intro i hi j hj
    rcases split i hi with rfl | rfl | rfl | rfl | rfl | rfl | rfl <;>
      rcases split j hj with rfl | rfl | rfl | rfl | rfl | rfl | rfl <;>
      norm_num [isZero, Pt.sub]
  · intro i hi hlow j hj
    have h1 := hlow 1 (by norm_num)
    rcases split i hi with rfl | rfl | rfl | rfl | rfl | rfl | rfl <;> norm_num at h1 <;>
      rcases split j hj with rfl | rfl | rfl | rfl | rfl | rfl | rfl <;>
      norm_num [EPS]
  · have int : ∀ i < 7, ∃ x y : ℤ, 0 ≤ x ∧ x ≤ 2 ∧ 0 ≤ y ∧ y ≤ 2 ∧
        (⟨7, fun i => if i = 0 then ⟨1, 1⟩ else if i = 1 then ⟨0, 0⟩ else
          if i = 2 then ⟨2, 0⟩ else if i = 3 then ⟨2, 2⟩ else if i = 4 then ⟨0, 2⟩ else
          if i = 5 then ⟨1, 0⟩ else ⟨2, 2⟩⟩ : Vec (Pt ℝ)).get i = ⟨(x : ℝ), (y : ℝ)⟩ := by
      intro i hi
      rcases split i hi with rfl | rfl | rfl | rfl | rfl | rfl | rfl
      · exact ⟨1, 1, by simp⟩
      · exact ⟨0, 0, by simp⟩
      · exact ⟨2, 0, by simp⟩
      · exact ⟨2, 2, by simp⟩
      · exact ⟨0, 2, by simp⟩
      · exact ⟨1, 0, by simp⟩
      · exact ⟨2, 2, by simp⟩
    have nle : ∀ x y x' y' : ℤ, 0 ≤ x → x ≤ 2 → 0 ≤ y → y ≤ 2 → 0 ≤ x' → x' ≤ 2 → 0 ≤ y' → y' ≤ 2 →
        ((⟨(x' : ℝ), (y' : ℝ)⟩ : Pt ℝ).sub ⟨(x : ℝ), (y : ℝ)⟩).normSq ≤ 9 := by
      intro x y x' y' h1 h2 h3 h4 h5 h6 h7 h8
      have : (x' - x) * (x' - x) + (y' - y) * (y' - y) ≤ 9 := by nlinarith
      simp only [Pt.sub, normSq]
      exact_mod_cast this
    intro i hi j hj k hk
    obtain ⟨x1, y1, a1, b1, c1, d1, e1⟩ := int i hi
    obtain ⟨x2, y2, a2, b2, c2, d2, e2⟩ := int j hj
    obtain ⟨x3, y3, a3, b3, c3, d3, e3⟩ := int k hk
    rw [e1, e2, e3]
    have hint : ((⟨(x2 : ℝ), (y2 : ℝ)⟩ : Pt ℝ).sub ⟨(x1 : ℝ), (y1 : ℝ)⟩).cross
        ((⟨(x3 : ℝ), (y3 : ℝ)⟩ : Pt ℝ).sub ⟨(x1 : ℝ), (y1 : ℝ)⟩) =
        (((x2 - x1) * (y3 - y1) - (y2 - y1) * (x3 - x1) : ℤ) : ℝ) := by
      unfold Pt.sub cross; push_cast; ring
    by_cases hz : (x2 - x1) * (y3 - y1) - (y2 - y1) * (x3 - x1) = 0
    · left; rw [hint, hz]; simp
    · right
      apply prod_le _ _ (nle _ _ _ _ a1 b1 c1 d1 a2 b2 c2 d2) (nle _ _ _ _ a1 b1 c1 d1 a3 b3 c3 d3)
      rw [hint]
      exact_mod_cast Int.one_le_abs hz

end MPC
