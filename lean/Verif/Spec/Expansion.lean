import Verif.Eigen

/-!
# Gradient and Hessian of a quadratic function

Stated by the expansion of the function, which determines both (`HasGradHess.unique`).
-/

set_option linter.unusedSectionVars false

namespace MPC.Spec

open Finset

variable {K : Type} [Field K] [LinearOrder K]

/-- `G` and `H` are gradient at `x0` and Hessian of the function `f` of `n` unknowns: for every step `d`
`f (x0 + d) = f x0 + Gᵀ d + ½ dᵀ H d`, and `H` is symmetric. -/
structure HasGradHess (n : ℕ) (f : (ℕ → K) → K) (x0 : ℕ → K) (G : Vec K) (H : Mat K) : Prop where
  size : G.size = n
  rows : H.rows = n
  cols : H.cols = n
  symm : ∀ i < n, ∀ j < n, H.get i j = H.get j i
  expand : ∀ d : ℕ → K, f (fun i => x0 i + d i) = f x0 + ∑ i ∈ range n, G.get i * d i
    + 1 / 2 * ∑ i ∈ range n, ∑ j ∈ range n, d i * H.get i j * d j

variable [IsStrictOrderedRing K]

/-- Gradient and Hessian are determined by the function. -/
theorem HasGradHess.unique {n : ℕ} {f : (ℕ → K) → K} {x0 : ℕ → K} {G G' : Vec K} {H H' : Mat K}
    (h : HasGradHess n f x0 G H) (h' : HasGradHess n f x0 G' H') :
    (∀ i < n, G.get i = G'.get i) ∧ ∀ i < n, ∀ j < n, H.get i j = H'.get i j := by
  have e : ∀ d : ℕ → K, ∑ i ∈ range n, (G.get i - G'.get i) * d i
      + 1 / 2 * ∑ i ∈ range n, ∑ j ∈ range n, d i * (H.get i j - H'.get i j) * d j = 0 := by
    intro d
    have h1 := h.expand d
    have h2 := h'.expand d
    simp only [mul_sub, sub_mul, sum_sub_distrib]
    linear_combination h2 - h1
  have s1 : ∀ (g : ℕ → K) (i : ℕ) (t : K), i < n → ∑ k ∈ range n, g k * (if k = i then t else 0) = g i * t := by
    intro g i t hi
    rw [sum_eq_single_of_mem i (mem_range.2 hi) fun k _ hk => by rw [if_neg hk, mul_zero], if_pos rfl]
  have q : ∀ (A : ℕ → ℕ → K) (i j : ℕ) (t u : K), i < n → j < n →
      ∑ k ∈ range n, ∑ l ∈ range n, ((if k = i then t else 0) + if k = j then u else 0) * A k l
        * ((if l = i then t else 0) + if l = j then u else 0)
      = t * t * A i i + t * u * A i j + u * t * A j i + u * u * A j j := by
    intro A i j t u hi hj
    have r : ∀ k, ∑ l ∈ range n, ((if k = i then t else 0) + if k = j then u else 0) * A k l
        * ((if l = i then t else 0) + if l = j then u else 0)
        = (A k i * t + A k j * u) * (if k = i then t else 0) + (A k i * t + A k j * u) * (if k = j then u else 0) := by
      intro k
      rw [sum_congr rfl fun l _ => mul_add _ _ _, sum_add_distrib,
        s1 (fun l => ((if k = i then t else 0) + if k = j then u else 0) * A k l) i t hi,
        s1 (fun l => ((if k = i then t else 0) + if k = j then u else 0) * A k l) j u hj]
      ring
    rw [sum_congr rfl fun k _ => r k, sum_add_distrib, s1 (fun k => A k i * t + A k j * u) i t hi,
      s1 (fun k => A k i * t + A k j * u) j u hj]
    ring
  have lin : ∀ (g : ℕ → K) (i j : ℕ) (t u : K), i < n → j < n →
      ∑ k ∈ range n, g k * ((if k = i then t else 0) + if k = j then u else 0) = g i * t + g j * u := by
    intro g i j t u hi hj
    rw [sum_congr rfl fun l _ => mul_add _ _ _, sum_add_distrib, s1 g i t hi, s1 g j u hj]
  have key : ∀ i < n, ∀ j < n, ∀ t u : K, (G.get i - G'.get i) * t + (G.get j - G'.get j) * u
      + 1 / 2 * (t * t * (H.get i i - H'.get i i) + t * u * (H.get i j - H'.get i j)
        + u * t * (H.get j i - H'.get j i) + u * u * (H.get j j - H'.get j j)) = 0 := by
    intro i hi j hj t u
    have := e fun k => (if k = i then t else 0) + if k = j then u else 0
    rw [lin (fun k => G.get k - G'.get k) i j t u hi hj, q (fun k l => H.get k l - H'.get k l) i j t u hi hj] at this
    exact this
  have hG : ∀ i < n, G.get i = G'.get i := by
    intro i hi
    have h1 := key i hi i hi 1 0
    have h2 := key i hi i hi (-1) 0
    linarith
  refine ⟨hG, fun i hi j hj => ?_⟩
  have h1 := key i hi j hj 1 1
  have h2 := key i hi j hj 1 (-1)
  have := hG i hi
  have := hG j hj
  have := h.symm i hi j hj
  have := h'.symm i hi j hj
  linarith

end MPC.Spec
