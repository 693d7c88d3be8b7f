import Verif.Lemmas.SupChain
import Verif.Lemmas.SupGrid

/-!
# `updateFeetStates`, and runs of control cycles
-/
set_option linter.unusedSectionVars false

namespace MPC

section
variable {K : Type} [Field K] [LinearOrder K] [IsStrictOrderedRing K]

theorem Vec.at?_eq_ok {v : Vec K} {i : ℕ} {x : K} :
    v.at? i = .ok x ↔ i < v.size ∧ v.get i = x := by
  unfold Vec.at? requireIndex
  by_cases h : i < v.size
  · simp [h]
  · simp [h]

theorem Sup.updateFeet_cases {s s' : Sup K} {sv : Vec K} {fb : K} {f : Phase K}
    (hf : s.timeline[0]? = some f) (h : s.updateFeetStates sv fb = .ok s') :
    (¬ InFlight s f ∧ s'.left = s.left ∧ s'.right = s.right) ∨
    (InFlight s f ∧ 0 < sv.size ∧ s.M < sv.size ∧
      ((f.type = .leftSS ∧ s'.left = s.left ∧ s.right.fly (sv.get 0) (sv.get s.M)
        (f.duration - s.T) s.ttnp fb = .ok s'.right) ∨
       (f.type = .rightSS ∧ s'.right = s.right ∧ s.left.fly (sv.get 0) (sv.get s.M)
        (f.duration - s.T) s.ttnp fb = .ok s'.left))) := by
  unfold Sup.updateFeetStates at h
  simp only at h
  rw [listAt_of_get? hf, ok_bind, Sup.isInDS_ok (s := { s with stepVec := sv }) (f := f) hf,
    ok_bind] at h
  split at h
  · rename_i hc
    have hfl : InFlight s f := ⟨by simpa using hc.1, hc.2⟩
    right
    cases ht : f.type with
    | DS => exact absurd ht hfl.1
    | leftSS =>
      rw [ht] at h
      obtain ⟨x, hx, h⟩ := bind_eq_ok.1 h
      obtain ⟨y, hy, h⟩ := bind_eq_ok.1 h
      obtain ⟨g, hg, h⟩ := bind_eq_ok.1 h
      cases h
      obtain ⟨hx1, rfl⟩ := Vec.at?_eq_ok.1 hx
      obtain ⟨hy1, rfl⟩ := Vec.at?_eq_ok.1 hy
      exact ⟨hfl, hx1, hy1, Or.inl ⟨rfl, rfl, hg⟩⟩
    | rightSS =>
      rw [ht] at h
      obtain ⟨x, hx, h⟩ := bind_eq_ok.1 h
      obtain ⟨y, hy, h⟩ := bind_eq_ok.1 h
      obtain ⟨g, hg, h⟩ := bind_eq_ok.1 h
      cases h
      obtain ⟨hx1, rfl⟩ := Vec.at?_eq_ok.1 hx
      obtain ⟨hy1, rfl⟩ := Vec.at?_eq_ok.1 hy
      exact ⟨hfl, hx1, hy1, Or.inr ⟨rfl, rfl, hg⟩⟩
  · rename_i hc
    left
    cases h
    refine ⟨fun hi => hc ⟨by simpa using hi.1, hi.2⟩, rfl, rfl⟩

theorem Reach.mono {okfb okfb' : K → Prop} {ok ok' : Sup K → Bool → Prop}
    (h1 : ∀ x, okfb x → okfb' x) (h2 : ∀ s m, ok s m → ok' s m) {a : Sup K × Vec K}
    (h : Reach okfb ok a) : Reach okfb' ok' a := by
  induction h with
  | start h => exact .start h
  | cycle _ k1 k2 ih => exact .cycle ih (h1 _ k1) k2
  | setMove _ k ih => exact .setMove ih (h2 _ _ k)

theorem Foot.fly_factors {f g : Foot K} (hf : f.HasFactors) {tx ty F R fb : K} (hR : EPS ≤ R)
    (h : f.fly tx ty F R fb = .ok g) : g.HasFactors := by
  obtain ⟨g', h1, h2⟩ := Foot.fly_ok hf tx ty F hR fb
  rw [h1] at h
  cases h
  exact h2

/-- The scratch vectors keep their size. -/
theorem Reach.factors {okfb : K → Prop} {ok : Sup K → Bool → Prop} (hfb : ∀ x, okfb x → 0 ≤ x)
    (hok : ∀ s m, ok s m → CanStop s m) {a : Sup K × Vec K} (h : Reach okfb ok a) :
    a.1.left.HasFactors ∧ a.1.right.HasFactors := by
  induction h with
  | start h => exact ⟨h.left, h.right⟩
  | setMove _ _ ih => exact ih
  | cycle h0 h1 h2 ih =>
    obtain ⟨f, mv, R, hI⟩ := h0.hinv hfb hok
    obtain ⟨s', v', hu, hb, hf⟩ := h2
    obtain ⟨s₁, v₁, f₁, m, hU⟩ := hI.update hu
    have hsame := hU.preview.same
    have hR : EPS ≤ s'.ttnp := by rw [hsame.ttnp]; exact hU.pos
    have el : s'.left.HasFactors := by rw [hsame.left, hU.left]; exact ih.1
    have er : s'.right.HasFactors := by rw [hsame.right, hU.right]; exact ih.2
    rcases Sup.updateFeet_cases hU.front' hf with ⟨-, e1, e2⟩ | ⟨-, -, -, ⟨-, e1, e2⟩ | ⟨-, e1, e2⟩⟩
    · rw [e1, e2]; exact ⟨el, er⟩
    · rw [e1]; exact ⟨el, Foot.fly_factors er hR e2⟩
    · rw [e1]; exact ⟨Foot.fly_factors el hR e2, er⟩

end

end MPC
