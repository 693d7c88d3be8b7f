import Verif.Model.SupportRef
import Verif.Lemmas.SupChain
import Verif.Lemmas.HumShiftGrid
/-! No footstep is previewed while the robot stands (C82). -/
set_option linter.unusedSectionVars false
namespace MPC
variable {K : Type} [Field K] [LinearOrder K]

/-- Invariant of the main loop of `updateTimeline` while the robot stands. -/
structure StandInv (s : Sup K) (l : TLState K) : Prop where
  chain : ChainInv s l
  ds : ∀ k ≤ l.idx, ∀ p, l.sup.timeline[k]? = some p → p.type = .DS
  M : l.sup.M = 0

theorem StandInv.next {s : Sup K} (hm : s.move = false) {l l' : TLState K} (h : StandInv s l)
    (hb : l.nextPhase = .ok l') : StandInv s l' := by
  have hc := h.chain.next hb
  have hM : l'.sup.M = 0 ∧ (l'.idx = l.idx ∨ l'.idx = l.idx + 1) := by
    unfold TLState.nextPhase at hb
    split at hb
    · obtain ⟨last, h1, hb⟩ := bind_eq_ok.1 hb
      cases hb
      have h1 := listAt_eq_ok.1 h1
      refine ⟨?_, .inr rfl⟩
      dsimp only
      rw [if_pos (h.ds l.idx le_rfl last h1)]
      exact h.M
    · cases hb
      exact ⟨h.M, .inl rfl⟩
  refine ⟨hc, ?_, hM.1⟩
  have h0 : ∀ p, l'.sup.timeline[0]? = some p → p.type = .DS := by
    intro p hp
    rw [hc.front, ← h.chain.front] at hp
    exact h.ds 0 (Nat.zero_le _) p hp
  intro k
  induction k with
  | zero => intro _ p hp; exact h0 p hp
  | succ k ih =>
    intro hk p hp
    obtain ⟨hlen, hch⟩ := hc.chain
    have hk' : k < l'.sup.timeline.length := by omega
    have hq : l'.sup.timeline[k]? = some (l'.sup.timeline[k]) := List.getElem?_eq_getElem hk'
    have hd := ih (by omega) _ hq
    have := hch k (by omega) _ hq
    rw [this] at hp
    cases hp
    unfold Sup.nextPhase
    dsimp only
    rw [hd]
    unfold Sup.nextType
    simp [hm]

theorem StandInv.body {s : Sup K} (hm : s.move = false) {l l' : TLState K} (h : StandInv s l)
    (hb : l.body = .ok l') : StandInv s l' := by
  have hc := h.chain.body hb
  unfold TLState.body at hb
  obtain ⟨l1, h1, hb⟩ := bind_eq_ok.1 hb
  obtain ⟨v1, -, hb⟩ := bind_eq_ok.1 hb
  obtain ⟨v2, -, hb⟩ := bind_eq_ok.1 hb
  cases hb
  have hn := h.next hm h1
  exact ⟨hc, hn.ds, hn.M⟩

/-- While the robot stands no footstep is previewed. -/
theorem Sup.stand_no_step {s s' : Sup K} {v v' : Vec K} {fb : K} (h : s.updateTimeline v fb = .ok (s', v'))
    {f : Phase K} (h0 : s'.timeline[0]? = some f) (hf : f.type = .DS) (hm : s'.move = false) : s'.M = 0 := by
  obtain ⟨htl, -, -⟩ := Sup.updateTimeline_pop h
  unfold Sup.updateTimeline at h
  obtain ⟨_, -, h⟩ := bind_eq_ok.1 h
  obtain ⟨_, -, h⟩ := bind_eq_ok.1 h
  obtain ⟨⟨s₁, v₁⟩, hpop, h⟩ := bind_eq_ok.1 h
  obtain ⟨l, hl, h⟩ := bind_eq_ok.1 h
  obtain ⟨sv, -, h⟩ := bind_eq_ok.1 h
  obtain ⟨w, hw, h⟩ := bind_eq_ok.1 h
  obtain ⟨s₂, h2, h⟩ := bind_eq_ok.1 h
  cases h
  have h2 := Sup.selection_frame h2
  have hne : 0 < s₁.timeline.length := by
    rcases Sup.popPhase_of_ok hpop with ⟨-, rfl, -⟩ | ⟨-, f, g, r, -, rfl, -, -⟩
    · exact htl
    · simp
  have hC0 : ChainInv s₁ ⟨{ s₁ with M := 0 }, 0, s₁.ttnp, s₁.N * s₁.T, v₁⟩ :=
    ⟨rfl, rfl, hne, fun k hk => by simp only at hk; omega⟩
  obtain ⟨hI, -⟩ := whileLoop_ok (ChainInv s₁) hl hC0 (fun a b _ hi hb => hi.body hb)
  have hsame := hI.same
  have hmv : s₁.move = false := by
    rw [h2, hsame] at hm
    exact hm
  have hfr : s₁.timeline[0]? = some f := by
    rw [← hI.front, ← h0, h2]
    simp only
    rw [List.getElem?_take_of_lt (by omega)]
  obtain ⟨hS, -⟩ := whileLoop_ok (StandInv s₁) hl ⟨hC0, fun k hk p hp => by
      have : k = 0 := by simpa using hk
      subst this
      have hp' : s₁.timeline[0]? = some p := hp
      rw [hfr] at hp'
      cases hp'
      exact hf, rfl⟩ (fun a b _ hi hb => hi.body hmv hb)
  rw [h2]
  exact hS.M

theorem Sup.supportXLate_eq {s : Sup K} (h : ¬ ∃ f, s.timeline[0]? = some f ∧ f.type = .DS ∧ s.move = false) :
    s.supportXLate = s.supportX := by
  unfold Sup.supportXLate Sup.supportX Sup.isInDS
  cases e : listAt s.timeline 0 with
  | error e => rfl
  | ok f =>
    simp only [ok_bind]
    have e := listAt_eq_ok.1 e
    by_cases hr : f.type = .rightSS
    · rw [if_pos hr, if_pos hr]
    · rw [if_neg hr, if_neg hr]
      simp only [pure_bind]
      have : ¬ (decide (f.type = .DS) = true ∧ s.move = false) := fun hc => h ⟨f, e, by simpa using hc.1, hc.2⟩
      have hc : ¬ ((f.type == .DS) = true ∧ s.move = false) := fun hc => h ⟨f, e, by simpa using hc.1, hc.2⟩
      first | rw [if_neg this, if_neg this] | rw [if_neg hc, if_neg hc]

/-- The polygons of the footsteps cannot be read for a robot that stands with previewed footsteps. -/
theorem Sup.stand_polygons {s : Sup K} {f : Phase K} (h0 : s.timeline[0]? = some f) (hf : f.type = .DS)
    (hm : s.move = false) {ps : Vec (Polygon K)} (h : s.kinPolygons = .ok ps) : s.M = 0 := by
  by_contra hM
  obtain ⟨-, h⟩ := buildVec_ok h
  have h := h 0 (by omega)
  unfold Sup.kinPolygon at h
  obtain ⟨_, -, h⟩ := bind_eq_ok.1 h
  rw [Sup.isInDS_ok h0, ok_bind] at h
  dsimp only at h
  rw [if_neg (fun hc => by rw [hm] at hc; cases hc.2), listAt_of_get? h0, ok_bind, hf] at h
  cases h

/-- The order of evaluation does not matter. -/
theorem footOrder_eq (late : Bool) (l : Lip K) (s : Sup K) (x0 : Vec K) :
    footConstraintOrder late l s x0 = footConstraint l s x0 := by
  by_cases hc : ∃ f, s.timeline[0]? = some f ∧ f.type = .DS ∧ s.move = false
  · obtain ⟨f, h0, hf, hm⟩ := hc
    unfold footConstraintOrder footConstraint
    cases hp : s.kinPolygons with
    | error e => rfl
    | ok ps =>
    have hM := Sup.stand_polygons h0 hf hm hp
    have hk : s.kinPolygons = .ok ⟨0, fun _ => Polygon.none⟩ := by unfold Sup.kinPolygons; rw [hM]; rfl
    rw [hk] at hp
    cases hp
    have hg : ∀ rx sy n, generalRows (footStep s.N s.M rx sy) (⟨0, fun _ => Polygon.none⟩ : Vec (Polygon K)) n
        = .ok ⟨Mat.zero (nbRows (⟨0, fun _ => Polygon.none⟩ : Vec (Polygon K))) n,
          Vec.const (nbRows (⟨0, fun _ => Polygon.none⟩ : Vec (Polygon K))) MAXBOUND, 0⟩ := fun _ _ _ => rfl
    obtain ⟨px, py, ex, ey⟩ : ∃ px py, s.supportX = .ok px ∧ s.supportY = .ok py := supportE h0
    obtain ⟨q, hq⟩ : ∃ q, s.supportXLate = .ok q := by
      refine ⟨py, ?_⟩
      unfold Sup.supportXLate
      rw [listAt_of_get? h0, ok_bind, if_neg (by rw [hf]; decide), Sup.isInDS_ok h0, ok_bind, if_pos ⟨by simp [hf], hm⟩]
      exact ey
    rw [ex, ey, hq]
    cases late <;> simp only [ok_bind, hg, Bool.false_eq_true, if_false, if_true]
  · unfold footConstraintOrder footConstraint
    rw [Sup.supportXLate_eq hc]
    cases late <;> simp only [Bool.false_eq_true, if_false, if_true]
    all_goals
      cases s.supportX <;> cases s.supportY <;> rfl

end MPC
