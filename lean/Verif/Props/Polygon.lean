import Verif.Lemmas.Polygon

/-! # Properties C22 and C25: constraints of a polygon -/

set_option linter.unusedSectionVars false

namespace MPC

variable {K : Type} [Field K] [LinearOrder K] [IsStrictOrderedRing K]

/-- **C22.** For a convex polygon with clean edges, a point (of coordinates below the bound `1e11`
that stands for infinity) satisfies the bounds and the general rows iff it is on the inner side of
every edge. -/
theorem C22_constraints_mean_membership (p : Vec (Pt K)) (hc : Spec.Convex p)
    (hcl : Spec.CleanEdges p) :
    ∃ g, Polygon.ofVertices p = .ok g ∧ g.vertices = p ∧
      ∀ X : Pt K, |X.x| ≤ MAXBOUND → |X.y| ≤ MAXBOUND →
        (Spec.SatisfiesConstraints g X ↔ Spec.InPolygon p X) := by
  obtain ⟨g, e, -, hv, -, h⟩ := edges_meaning p hc hcl p.size le_rfl
  exact ⟨g, e, hv, h⟩

/-- C22 also needs the clean edges: with an edge that is almost vertical, a vertex of the polygon
violates the constraints of the polygon. -/
theorem C22_unclean_edge_wrong : ∃ (p : Vec (Pt K)) (g : Polygon K), Spec.Convex p ∧
    Polygon.ofVertices p = .ok g ∧ g.vertices = p ∧ ∃ j < p.size,
      |(p.get j).x| ≤ MAXBOUND ∧ |(p.get j).y| ≤ MAXBOUND ∧
      ¬ Spec.SatisfiesConstraints g (p.get j) := by
  -- triangle (0,0), (1,0), (1 + 1/20000, 1)
  let p : Vec (Pt K) := ⟨3, fun i => if i = 0 then ⟨0, 0⟩ else if i = 1 then ⟨1, 0⟩ else
    ⟨1 + 1 / 20000, 1⟩⟩
  obtain ⟨g, e, -, hv, -⟩ := edges_ok p 3 le_rfl
  have hconv : Spec.Convex p := by
    intro j hj i hi
    have hj' : j = 0 ∨ j = 1 ∨ j = 2 := by simp only [p] at hj; omega
    have hi' : i = 0 ∨ i = 1 ∨ i = 2 := by simp only [p] at hi; omega
    rcases hi' with rfl | rfl | rfl <;> rcases hj' with rfl | rfl | rfl <;>
      simp [p, Spec.InnerSide]
  refine ⟨p, g, hconv, e, hv, 2, by simp [p], ?_, ?_, ?_⟩
  · simp only [p, MAXBOUND]; norm_num [abs_le]
  · simp only [p, MAXBOUND]; norm_num [abs_le]
  · have h1 : Polygon.edges (Polygon.start p) 3 = .ok { (Polygon.start p) with
        yInf := 0, xSup := 1
        coefX := Vec.push ⟨0, fun _ => 0⟩ (-1), coefY := Vec.push ⟨0, fun _ => 0⟩ (1 + 1 / 20000)
        const := Vec.push ⟨0, fun _ => 0⟩ ((0 - (1 + 1 / 20000)) * 1 - (0 - 1) * (1 + 1 / 20000)) } := by
      have t1 : ¬ (1 : K) < 1 / 10000 := by norm_num
      have t2 : (1 / 20000 : K) < 1 / 10000 := by norm_num
      have t3 : ¬ (1 + 1 / 20000 : K) < 1 / 10000 := by norm_num
      simp [Polygon.edges, Polygon.edge, Polygon.start, p, Vec.at?, requireIndex, EPS, Vec.push,
        Vec.conservativeResize, Vec.set?]
      norm_num [abs_of_pos, abs_of_neg, t1, t2, t3]
    rw [e] at h1
    cases h1
    intro h
    have := h.2.1
    simp [p] at this
    norm_num at this

/-- **C25.** For every list of vertices the number of general constraints is the common size of the
three coefficient vectors and at most the number of vertices. -/
theorem C25_rows_at_most_vertices (p : Vec (Pt K)) :
    ∃ g, Polygon.ofVertices p = .ok g ∧ g.vertices = p ∧ g.nbGeneral ≤ p.size ∧
      g.coefX.size = g.nbGeneral ∧ g.coefY.size = g.nbGeneral := by
  obtain ⟨g, e, hs, hv, hk⟩ := edges_ok p p.size le_rfl
  refine ⟨g, e, hv, ?_, ?_, ?_⟩
  · unfold Polygon.nbGeneral; rw [hs.2]; exact hk
  · exact hs.2.symm
  · unfold Polygon.nbGeneral; rw [hs.1, hs.2]

/-- A convex polygon with a vertical, a horizontal and two general edges meets the hypotheses. -/
example : let p : Vec (Pt ℚ) := ⟨4, fun i => if i = 0 then ⟨0, 0⟩ else if i = 1 then ⟨2, 0⟩ else
      if i = 2 then ⟨3, 2⟩ else ⟨0, 1⟩⟩
    Spec.Convex p ∧ Spec.CleanEdges p := by
  intro p
  constructor
  · intro j hj i hi
    have hj' : j = 0 ∨ j = 1 ∨ j = 2 ∨ j = 3 := by simp only [p] at hj; omega
    have hi' : i = 0 ∨ i = 1 ∨ i = 2 ∨ i = 3 := by simp only [p] at hi; omega
    rcases hi' with rfl | rfl | rfl | rfl <;> rcases hj' with rfl | rfl | rfl | rfl <;>
      norm_num [p, Spec.InnerSide]
  · intro i hi
    have hi' : i = 0 ∨ i = 1 ∨ i = 2 ∨ i = 3 := by simp only [p] at hi; omega
    rcases hi' with rfl | rfl | rfl | rfl <;> norm_num [p, Spec.CleanEdge, EPS]

end MPC
