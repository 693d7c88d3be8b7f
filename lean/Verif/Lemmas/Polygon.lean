import Verif.Spec.Polygon

set_option linter.unusedSectionVars false

namespace MPC

variable {K : Type} [Field K] [LinearOrder K] [IsStrictOrderedRing K]

/-- The three coefficient vectors have the same size. -/
def Polygon.Sized (g : Polygon K) : Prop :=
  g.coefY.size = g.coefX.size ∧ g.const.size = g.coefX.size

/-- `v` with `x` appended. -/
def Vec.push (v : Vec K) (x : K) : Vec K :=
  ⟨v.size + 1, fun k => if k = v.size then x else v.get k⟩

theorem edge_general {g : Polygon K} (h : g.Sized) {a b : Pt K} (h1 : ¬ |b.x - a.x| < EPS)
    (h2 : ¬ |b.y - a.y| < EPS) :
    g.edge a b = .ok { g with
      coefX := g.coefX.push (b.y - a.y), coefY := g.coefY.push (a.x - b.x)
      const := g.const.push ((b.x - a.x) * a.y - (b.y - a.y) * a.x) } := by
  simp only [Polygon.edge, h1, h2, if_false, Vec.conservativeResize]
  rw [Vec.set?_ok (by exact Nat.lt_succ_self _), ok_bind, Vec.set?_ok (by exact Nat.lt_succ_self _),
    ok_bind, Vec.set?_ok (by exact Nat.lt_succ_self _), ok_bind]
  simp only [Vec.push, h.1, h.2]
  rfl

/-- One iteration succeeds, keeps the vertices, adds at most one row. -/
theorem edge_ok {g : Polygon K} (h : g.Sized) (a b : Pt K) :
    ∃ g', g.edge a b = .ok g' ∧ g'.Sized ∧ g'.vertices = g.vertices ∧
      g'.coefX.size ≤ g.coefX.size + 1 := by
  by_cases h1 : |b.x - a.x| < EPS
  · by_cases h2 : b.y - a.y < 0
    · exact ⟨{ g with xInf := a.x }, by simp only [Polygon.edge, h1, h2, if_true]; rfl, h, rfl,
        Nat.le_succ _⟩
    · exact ⟨{ g with xSup := a.x }, by simp only [Polygon.edge, h1, h2, if_true, if_false]; rfl, h,
        rfl, Nat.le_succ _⟩
  · by_cases h2 : |b.y - a.y| < EPS
    · by_cases h3 : b.x - a.x < 0
      · exact ⟨{ g with ySup := a.y }, by simp only [Polygon.edge, h1, h2, h3, if_true, if_false]; rfl,
          h, rfl, Nat.le_succ _⟩
      · exact ⟨{ g with yInf := a.y }, by simp only [Polygon.edge, h1, h2, h3, if_true, if_false]; rfl,
          h, rfl, Nat.le_succ _⟩
    · refine ⟨_, edge_general h h1 h2, ?_, rfl, le_rfl⟩
      exact ⟨by simp [Vec.push, h.1], by simp [Vec.push, h.2]⟩

theorem edges_ok (p : Vec (Pt K)) (k : ℕ) (hk : k ≤ p.size) :
    ∃ g, Polygon.edges (Polygon.start p) k = .ok g ∧ g.Sized ∧ g.vertices = p ∧
      g.coefX.size ≤ k := by
  induction k with
  | zero => exact ⟨_, rfl, ⟨rfl, rfl⟩, rfl, le_rfl⟩
  | succ k ih =>
    obtain ⟨g, e, h1, h2, h3⟩ := ih (by omega)
    obtain ⟨g', e', h1', h2', h3'⟩ := edge_ok h1 (p.get k) (p.get ((k + 1) % p.size))
    refine ⟨g', ?_, h1', h2'.trans h2, by omega⟩
    have hp : 0 < p.size := by omega
    simp only [Polygon.edges, e, ok_bind, h2]
    rw [Vec.at?_ok (by omega), ok_bind, Vec.at?_ok (Nat.mod_lt _ hp), ok_bind, e']

/-- The bounds are either the default ones or come from an already seen edge. -/
structure BoundsFrom (p : Vec (Pt K)) (k : ℕ) (g : Polygon K) : Prop where
  xInf : g.xInf = -MAXBOUND ∨ ∃ i < k, (p.get ((i + 1) % p.size)).x = (p.get i).x ∧
    (p.get ((i + 1) % p.size)).y < (p.get i).y ∧ g.xInf = (p.get i).x
  xSup : g.xSup = MAXBOUND ∨ ∃ i < k, (p.get ((i + 1) % p.size)).x = (p.get i).x ∧
    (p.get i).y < (p.get ((i + 1) % p.size)).y ∧ g.xSup = (p.get i).x
  ySup : g.ySup = MAXBOUND ∨ ∃ i < k, (p.get ((i + 1) % p.size)).y = (p.get i).y ∧
    (p.get ((i + 1) % p.size)).x < (p.get i).x ∧ g.ySup = (p.get i).y
  yInf : g.yInf = -MAXBOUND ∨ ∃ i < k, (p.get ((i + 1) % p.size)).y = (p.get i).y ∧
    (p.get i).x < (p.get ((i + 1) % p.size)).x ∧ g.yInf = (p.get i).y

theorem BoundsFrom.mono {p : Vec (Pt K)} {k : ℕ} {g : Polygon K} (h : BoundsFrom p k g) :
    BoundsFrom p (k + 1) g := by
  refine ⟨h.xInf.imp id ?_, h.xSup.imp id ?_, h.ySup.imp id ?_, h.yInf.imp id ?_⟩ <;>
    exact fun ⟨i, hi, h'⟩ => ⟨i, by omega, h'⟩

theorem inner_down {a b X : Pt K} (hx : b.x = a.x) (hy : b.y < a.y) :
    Spec.InnerSide a b X ↔ a.x ≤ X.x := by
  unfold Spec.InnerSide
  rw [hx, sub_self, zero_mul, sub_zero]
  constructor
  · intro h
    by_contra hn
    have : 0 < (b.y - a.y) * (X.x - a.x) := mul_pos_of_neg_of_neg (by linarith) (by linarith)
    linarith
  · intro h
    exact mul_nonpos_of_nonpos_of_nonneg (by linarith) (by linarith)

theorem inner_up {a b X : Pt K} (hx : b.x = a.x) (hy : a.y < b.y) :
    Spec.InnerSide a b X ↔ X.x ≤ a.x := by
  unfold Spec.InnerSide
  rw [hx, sub_self, zero_mul, sub_zero]
  constructor
  · intro h
    by_contra hn
    have : 0 < (b.y - a.y) * (X.x - a.x) := mul_pos (by linarith) (by linarith)
    linarith
  · intro h
    exact mul_nonpos_of_nonneg_of_nonpos (by linarith) (by linarith)

theorem inner_left {a b X : Pt K} (hy : b.y = a.y) (hx : b.x < a.x) :
    Spec.InnerSide a b X ↔ X.y ≤ a.y := by
  unfold Spec.InnerSide
  rw [hy, sub_self, zero_mul, zero_sub]
  constructor
  · intro h
    by_contra hn
    have : (b.x - a.x) * (X.y - a.y) < 0 := mul_neg_of_neg_of_pos (by linarith) (by linarith)
    linarith
  · intro h
    have := mul_nonneg_of_nonpos_of_nonpos (show b.x - a.x ≤ 0 by linarith) (show X.y - a.y ≤ 0 by linarith)
    linarith

theorem inner_right {a b X : Pt K} (hy : b.y = a.y) (hx : a.x < b.x) :
    Spec.InnerSide a b X ↔ a.y ≤ X.y := by
  unfold Spec.InnerSide
  rw [hy, sub_self, zero_mul, zero_sub]
  constructor
  · intro h
    by_contra hn
    have : (b.x - a.x) * (X.y - a.y) < 0 := mul_neg_of_pos_of_neg (by linarith) (by linarith)
    linarith
  · intro h
    have := mul_nonneg (show 0 ≤ b.x - a.x by linarith) (show 0 ≤ X.y - a.y by linarith)
    linarith

theorem edge_vertical {g : Polygon K} {a b : Pt K} (hx : b.x = a.x) :
    g.edge a b = .ok (if b.y < a.y then { g with xInf := a.x } else { g with xSup := a.x }) := by
  have h1 : |b.x - a.x| < (EPS : K) := by rw [hx, sub_self, abs_zero]; exact EPS_pos
  simp only [Polygon.edge, h1, if_true, sub_neg, res_pure]
  split_ifs <;> rfl

theorem edge_horizontal {g : Polygon K} {a b : Pt K} (hx : EPS ≤ |b.x - a.x|) (hy : b.y = a.y) :
    g.edge a b = .ok (if b.x < a.x then { g with ySup := a.y } else { g with yInf := a.y }) := by
  have h2 : |b.y - a.y| < (EPS : K) := by rw [hy, sub_self, abs_zero]; exact EPS_pos
  simp only [Polygon.edge, not_lt.2 hx, h2, if_false, if_true, sub_neg, res_pure]
  split_ifs <;> rfl

/-- The constraints after `k` edges mean the first `k` inner sides. -/
theorem edges_meaning (p : Vec (Pt K)) (hc : Spec.Convex p) (hcl : Spec.CleanEdges p) (k : ℕ)
    (hk : k ≤ p.size) :
    ∃ g, Polygon.edges (Polygon.start p) k = .ok g ∧ g.Sized ∧ g.vertices = p ∧ BoundsFrom p k g ∧
      ∀ X : Pt K, |X.x| ≤ MAXBOUND → |X.y| ≤ MAXBOUND → (Spec.SatisfiesConstraints g X ↔
        ∀ i < k, Spec.InnerSide (p.get i) (p.get ((i + 1) % p.size)) X) := by
  induction k with
  | zero =>
    refine ⟨_, rfl, ⟨rfl, rfl⟩, rfl, ⟨.inl rfl, .inl rfl, .inl rfl, .inl rfl⟩, fun X hx hy => ?_⟩
    rw [abs_le] at hx hy
    simp [Spec.SatisfiesConstraints, Polygon.start, Polygon.nbGeneral, hx, hy]
  | succ k ih =>
    obtain ⟨g, e, h1, h2, h3, h4⟩ := ih (by omega)
    have hp : 0 < p.size := by omega
    have e0 : ∀ g', g.edge (p.get k) (p.get ((k + 1) % p.size)) = .ok g' →
        Polygon.edges (Polygon.start p) (k + 1) = .ok g' := by
      intro g' e'
      simp only [Polygon.edges, e, ok_bind, h2]
      rw [Vec.at?_ok (by omega), ok_bind, Vec.at?_ok (Nat.mod_lt _ hp), ok_bind, e']
    have split : ∀ X : Pt K, (∀ i < k + 1, Spec.InnerSide (p.get i) (p.get ((i + 1) % p.size)) X) ↔
        (∀ i < k, Spec.InnerSide (p.get i) (p.get ((i + 1) % p.size)) X) ∧
          Spec.InnerSide (p.get k) (p.get ((k + 1) % p.size)) X := by
      intro X
      constructor
      · exact fun h => ⟨fun i hi => h i (by omega), h k (by omega)⟩
      · rintro ⟨ha, hb⟩ i hi
        rcases Nat.lt_succ_iff_lt_or_eq.1 hi with h | rfl
        · exact ha i h
        · exact hb
    -- two edges of the same axis direction are on the same line
    have hconv : ∀ i < p.size, ∀ j < p.size,
        Spec.InnerSide (p.get i) (p.get ((i + 1) % p.size)) (p.get j) := fun i hi j hj => hc j hj i hi
    rcases hcl k (by omega) with ⟨hx, hy⟩ | ⟨hx, hy⟩ | ⟨hx, hy⟩
    · rcases lt_or_gt_of_ne hy with hy | hy
      · -- downwards
        refine ⟨{ g with xInf := (p.get k).x }, e0 _ ?_, h1, h2, ?_, fun X bx by' => ?_⟩
        · rw [edge_vertical hx, if_pos hy]
        · exact { h3.mono with xInf := .inr ⟨k, by omega, hx, hy, rfl⟩ }
        · rw [split, ← h4 X bx by', inner_down hx hy]
          have hb : g.xInf ≤ X.x ∨ g.xInf = (p.get k).x := by
            rcases h3.xInf with h | ⟨i, hi, hxi, hyi, h⟩
            · left; rw [h]; exact (abs_le.1 bx).1
            · right
              rw [h]
              exact le_antisymm ((inner_down hxi hyi).1 (hconv i (by omega) k (by omega)))
                ((inner_down hx hy).1 (hconv k (by omega) i (by omega)))
          unfold Spec.SatisfiesConstraints
          constructor
          · rintro ⟨a, b, c, d, f⟩
            refine ⟨⟨?_, b, c, d, f⟩, a⟩
            rcases hb with h | h
            · exact h
            · rw [h]; exact a
          · rintro ⟨⟨_, b, c, d, f⟩, a⟩
            exact ⟨a, b, c, d, f⟩
      · refine ⟨{ g with xSup := (p.get k).x }, e0 _ ?_, h1, h2, ?_, fun X bx by' => ?_⟩
        · rw [edge_vertical hx, if_neg (not_lt.2 hy.le)]
        · exact { h3.mono with xSup := .inr ⟨k, by omega, hx, hy, rfl⟩ }
        · rw [split, ← h4 X bx by', inner_up hx hy]
          have hb : X.x ≤ g.xSup ∨ g.xSup = (p.get k).x := by
            rcases h3.xSup with h | ⟨i, hi, hxi, hyi, h⟩
            · left; rw [h]; exact (abs_le.1 bx).2
            · right
              rw [h]
              exact le_antisymm ((inner_up hx hy).1 (hconv k (by omega) i (by omega)))
                ((inner_up hxi hyi).1 (hconv i (by omega) k (by omega)))
          unfold Spec.SatisfiesConstraints
          constructor
          · rintro ⟨a, b, c, d, f⟩
            refine ⟨⟨a, ?_, c, d, f⟩, b⟩
            rcases hb with h | h
            · exact h
            · rw [h]; exact b
          · rintro ⟨⟨a, _, c, d, f⟩, b⟩
            exact ⟨a, b, c, d, f⟩
    · have hne : (p.get ((k + 1) % p.size)).x ≠ (p.get k).x := by
        intro h
        rw [h, sub_self, abs_zero] at hx
        exact absurd hx (not_le.2 EPS_pos)
      rcases lt_or_gt_of_ne hne with hx' | hx'
      · refine ⟨{ g with ySup := (p.get k).y }, e0 _ ?_, h1, h2, ?_, fun X bx by' => ?_⟩
        · rw [edge_horizontal hx hy, if_pos hx']
        · exact { h3.mono with ySup := .inr ⟨k, by omega, hy, hx', rfl⟩ }
        · rw [split, ← h4 X bx by', inner_left hy hx']
          have hb : X.y ≤ g.ySup ∨ g.ySup = (p.get k).y := by
            rcases h3.ySup with h | ⟨i, hi, hyi, hxi, h⟩
            · left; rw [h]; exact (abs_le.1 by').2
            · right
              rw [h]
              exact le_antisymm ((inner_left hy hx').1 (hconv k (by omega) i (by omega)))
                ((inner_left hyi hxi).1 (hconv i (by omega) k (by omega)))
          unfold Spec.SatisfiesConstraints
          constructor
          · rintro ⟨a, b, c, d, f⟩
            refine ⟨⟨a, b, c, ?_, f⟩, d⟩
            rcases hb with h | h
            · exact h
            · rw [h]; exact d
          · rintro ⟨⟨a, b, c, _, f⟩, d⟩
            exact ⟨a, b, c, d, f⟩
      · refine ⟨{ g with yInf := (p.get k).y }, e0 _ ?_, h1, h2, ?_, fun X bx by' => ?_⟩
        · rw [edge_horizontal hx hy, if_neg (not_lt.2 hx'.le)]
        · exact { h3.mono with yInf := .inr ⟨k, by omega, hy, hx', rfl⟩ }
        · rw [split, ← h4 X bx by', inner_right hy hx']
          have hb : g.yInf ≤ X.y ∨ g.yInf = (p.get k).y := by
            rcases h3.yInf with h | ⟨i, hi, hyi, hxi, h⟩
            · left; rw [h]; exact (abs_le.1 by').1
            · right
              rw [h]
              exact le_antisymm ((inner_right hyi hxi).1 (hconv i (by omega) k (by omega)))
                ((inner_right hy hx').1 (hconv k (by omega) i (by omega)))
          unfold Spec.SatisfiesConstraints
          constructor
          · rintro ⟨a, b, c, d, f⟩
            refine ⟨⟨a, b, ?_, d, f⟩, c⟩
            rcases hb with h | h
            · exact h
            · rw [h]; exact c
          · rintro ⟨⟨a, b, _, d, f⟩, c⟩
            exact ⟨a, b, c, d, f⟩
    · refine ⟨_, e0 _ (edge_general h1 (not_lt.2 hx) (not_lt.2 hy)), ?_, h2, ?_, fun X bx by' => ?_⟩
      · exact ⟨by simp [Vec.push, h1.1], by simp [Vec.push, h1.2]⟩
      · exact { h3.mono with }
      · rw [split, ← h4 X bx by']
        unfold Spec.SatisfiesConstraints
        have key : (∀ r < g.const.size + 1,
            (g.coefX.push ((p.get ((k + 1) % p.size)).y - (p.get k).y)).get r * X.x
            + (g.coefY.push ((p.get k).x - (p.get ((k + 1) % p.size)).x)).get r * X.y
            + (g.const.push (((p.get ((k + 1) % p.size)).x - (p.get k).x) * (p.get k).y
              - ((p.get ((k + 1) % p.size)).y - (p.get k).y) * (p.get k).x)).get r ≤ 0) ↔
            (∀ r < g.const.size,
              g.coefX.get r * X.x + g.coefY.get r * X.y + g.const.get r ≤ 0) ∧
            Spec.InnerSide (p.get k) (p.get ((k + 1) % p.size)) X := by
          have last : Spec.InnerSide (p.get k) (p.get ((k + 1) % p.size)) X ↔
              ((p.get ((k + 1) % p.size)).y - (p.get k).y) * X.x
              + ((p.get k).x - (p.get ((k + 1) % p.size)).x) * X.y
              + (((p.get ((k + 1) % p.size)).x - (p.get k).x) * (p.get k).y
                - ((p.get ((k + 1) % p.size)).y - (p.get k).y) * (p.get k).x) ≤ 0 := by
            unfold Spec.InnerSide
            constructor <;> intro h <;> linarith
          rw [last]
          simp only [Vec.push, h1.1, h1.2]
          constructor
          · intro h
            refine ⟨fun r hr => ?_, ?_⟩
            · have := h r (by omega)
              rw [if_neg (by omega), if_neg (by omega), if_neg (by omega)] at this
              exact this
            · have := h g.coefX.size (by omega)
              simpa using this
          · rintro ⟨ha, hb⟩ r hr
            rcases Nat.lt_succ_iff_lt_or_eq.1 hr with h | rfl
            · rw [if_neg (by omega), if_neg (by omega), if_neg (by omega)]
              exact ha r (by omega)
            · simpa using hb
        constructor
        · rintro ⟨a, b, c, d, f⟩
          obtain ⟨f1, f2⟩ := key.1 f
          exact ⟨⟨a, b, c, d, f1⟩, f2⟩
        · rintro ⟨⟨a, b, c, d, f1⟩, f2⟩
          exact ⟨a, b, c, d, key.2 ⟨f1, f2⟩⟩

end MPC
