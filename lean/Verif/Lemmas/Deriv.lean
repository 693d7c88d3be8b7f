import Mathlib.Analysis.Calculus.Deriv.Pow
import Mathlib.Analysis.Calculus.Deriv.Add
import Mathlib.Analysis.Calculus.Deriv.Mul
import Mathlib.Tactic.Ring

/-! The derivative of a cubic. -/

namespace MPC

theorem hasDerivAt_cubic (a b c d t : ℝ) :
    HasDerivAt (fun x : ℝ => a + b * x + c * x ^ 2 + d * x ^ 3) (b + 2 * c * t + 3 * d * t ^ 2) t := by
  have h1 := (hasDerivAt_id' t).const_mul b
  have h2 := (hasDerivAt_pow 2 t).const_mul c
  have h3 := (hasDerivAt_pow 3 t).const_mul d
  exact (((h1.const_add a).fun_add h2).fun_add h3).congr_deriv (by push_cast; ring)

theorem hasDerivAt_of_cubic {f : ℝ → ℝ} {f' t : ℝ} (a b c d : ℝ)
    (hf : ∀ x, f x = a + b * x + c * x ^ 2 + d * x ^ 3) (hf' : f' = b + 2 * c * t + 3 * d * t ^ 2) :
    HasDerivAt f f' t := by
  rw [funext hf, hf']
  exact hasDerivAt_cubic a b c d t

/-- Gluing two differentiable functions that agree to first order at `c`. -/
theorem hasDerivAt_glue {f1 f2 d1 d2 : ℝ → ℝ} {c : ℝ} (h1 : ∀ t, HasDerivAt f1 (d1 t) t)
    (h2 : ∀ t, HasDerivAt f2 (d2 t) t) (hc : f1 c = f2 c) (hd : d1 c = d2 c) (t : ℝ) :
    HasDerivAt (fun t => if t ≤ c then f1 t else f2 t) (if t ≤ c then d1 t else d2 t) t := by
  rcases lt_trichotomy t c with h | h | h
  · rw [if_pos h.le]
    refine (h1 t).congr_of_eventuallyEq ?_
    filter_upwards [Iio_mem_nhds h] with x hx
    exact if_pos (le_of_lt hx)
  · subst h
    rw [if_pos le_rfl]
    have hl : HasDerivWithinAt (fun x => if x ≤ t then f1 x else f2 x) (d1 t) (Set.Iic t) t := by
      refine (h1 t).hasDerivWithinAt.congr (fun x hx => if_pos hx) (if_pos le_rfl)
    have hr : HasDerivWithinAt (fun x => if x ≤ t then f1 x else f2 x) (d1 t) (Set.Ici t) t := by
      rw [hd]
      refine (h2 t).hasDerivWithinAt.congr (fun x hx => ?_) (by rw [if_pos le_rfl, hc])
      rcases eq_or_lt_of_le (show t ≤ x from hx) with h | h
      · subst h; rw [if_pos le_rfl, hc]
      · exact if_neg (not_le.2 h)
    have := hl.union hr
    rwa [Set.Iic_union_Ici, hasDerivWithinAt_univ] at this
  · rw [if_neg (not_le.2 h)]
    refine (h2 t).congr_of_eventuallyEq ?_
    filter_upwards [Ioi_mem_nhds h] with x hx
    exact if_neg (not_le.2 hx)

end MPC
