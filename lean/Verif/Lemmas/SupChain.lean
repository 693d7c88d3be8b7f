import Verif.Lemmas.SupHistory

/-!
# What a successful `updateTimeline` gives, without any assumption
-/
set_option linter.unusedSectionVars false

namespace MPC

variable {K : Type} [Field K] [LinearOrder K]

/-- Each of the first `n` phases is followed by the one given by the finite state machine. -/
def Sup.Chain (s : Sup K) (tl : List (Phase K)) (n : ℕ) : Prop :=
  n < tl.length ∧ ∀ k < n, ∀ p, tl[k]? = some p → tl[k + 1]? = some (s.nextPhase p)

theorem Sup.nextPhase_congr {s s' : Sup K} (hm : s'.move = s.move) (hd : s'.dsPeriod = s.dsPeriod)
    (hs : s'.stepPeriod = s.stepPeriod) (p : Phase K) : s'.nextPhase p = s.nextPhase p := by
  unfold Sup.nextPhase
  rw [Sup.nextType_congr hm, Sup.period_congr hd hs]

/-- Invariant of the main loop. -/
structure ChainInv (s : Sup K) (l : TLState K) : Prop where
  same : l.sup = { s with timeline := l.sup.timeline, M := l.sup.M }
  front : l.sup.timeline[0]? = s.timeline[0]?
  chain : s.Chain l.sup.timeline l.idx

theorem ChainInv.next {s : Sup K} {l l' : TLState K} (h : ChainInv s l)
    (hb : l.nextPhase = .ok l') : ChainInv s l' := by
  unfold TLState.nextPhase at hb
  split at hb
  · obtain ⟨last, h1, hb⟩ := bind_eq_ok.1 hb
    rw [listAt_eq_ok] at h1
    cases hb
    have hph : l.sup.nextPhase last = s.nextPhase last := by
      rw [h.same]
      exact Sup.nextPhase_congr (s := s)
        (s' := { s with timeline := l.sup.timeline, M := l.sup.M }) rfl rfl rfl last
    have hlen := h.chain.1
    have hold : ∀ k ≤ l.idx, (if l.idx + 1 = l.sup.timeline.length then
        l.sup.timeline ++ [l.sup.nextPhase last]
        else l.sup.timeline.set (l.idx + 1) (l.sup.nextPhase last))[k]? = l.sup.timeline[k]? := by
      intro k hk
      split
      · rw [List.getElem?_append_left (by omega)]
      · rw [List.getElem?_set_ne (by omega)]
    have hnew : (if l.idx + 1 = l.sup.timeline.length then
        l.sup.timeline ++ [l.sup.nextPhase last]
        else l.sup.timeline.set (l.idx + 1) (l.sup.nextPhase last))[l.idx + 1]? =
        some (s.nextPhase last) := by
      split
      · rename_i e
        rw [e, List.getElem?_append_right (le_refl _), Nat.sub_self, List.getElem?_cons_zero, hph]
      · rw [List.getElem?_set_self (by omega), hph]
    refine ⟨?_, ?_, ?_, ?_⟩
    · simp only
      rw [h.same]
    · rw [← h.front]; exact hold 0 (Nat.zero_le _)
    · exact (List.getElem?_eq_some_iff.1 hnew).1
    · intro k hk p hp
      change k < l.idx + 1 at hk
      simp only at hp ⊢
      rw [hold k (by omega)] at hp
      rcases Nat.lt_or_ge k l.idx with hl | hl
      · rw [hold (k + 1) (by omega)]
        exact h.chain.2 k hl p hp
      · have : k = l.idx := by omega
        subst this
        rw [h1] at hp
        cases hp
        exact hnew
  · cases hb; exact h

theorem ChainInv.body {s : Sup K} {l l' : TLState K} (h : ChainInv s l)
    (hb : l.body = .ok l') : ChainInv s l' := by
  obtain ⟨a, ha, hb⟩ := bind_eq_ok.1 hb
  obtain ⟨v, -, hb⟩ := bind_eq_ok.1 hb
  obtain ⟨w, -, hb⟩ := bind_eq_ok.1 hb
  cases hb
  have := h.next ha
  exact ⟨this.same, this.front, this.chain⟩

theorem Sup.selection_frame {s s' : Sup K} (h : s.selection = .ok s') :
    s' = { s with V0 := s'.V0, V := s'.V, VT := s'.VT, phaseIdx := s'.phaseIdx } := by
  simp only [Sup.selection, bind_eq_ok, require_eq_ok, res_pure] at h
  obtain ⟨_, _, l, _, l', _, hs⟩ := h
  cases hs
  rfl

/-- What a successful `updateTimeline` gives: `s₁` is the state after the phase change. -/
structure Sup.Chained (s₁ s' : Sup K) : Prop where
  same : s₁.Same s'
  front : s'.timeline[0]? = s₁.timeline[0]?
  chain : ∀ k p q, s'.timeline[k]? = some p → s'.timeline[k + 1]? = some q → q = s₁.nextPhase p
  weight : s'.sampleWeight = .ok s'.weight

theorem Sup.updateTimeline_chain {s s' : Sup K} {v v' : Vec K} {fb : K}
    (h : s.updateTimeline v fb = .ok (s', v')) :
    ∃ s₁ v₁, Sup.popPhase { s with fb := fb } v = .ok (s₁, v₁) ∧ s₁.Chained s' := by
  obtain ⟨htl, -, -⟩ := Sup.updateTimeline_pop h
  unfold Sup.updateTimeline at h
  obtain ⟨_, -, h⟩ := bind_eq_ok.1 h
  obtain ⟨_, -, h⟩ := bind_eq_ok.1 h
  obtain ⟨⟨s₁, v₁⟩, hpop, h⟩ := bind_eq_ok.1 h
  obtain ⟨l, hl, h⟩ := bind_eq_ok.1 h
  obtain ⟨sv, -, h⟩ := bind_eq_ok.1 h
  obtain ⟨w, hw, h⟩ := bind_eq_ok.1 h
  obtain ⟨s₂, h2, h⟩ := bind_eq_ok.1 h
  cases h
  refine ⟨s₁, v₁, hpop, ?_⟩
  have h2 := Sup.selection_frame h2
  have hne : 0 < s₁.timeline.length := by
    rcases Sup.popPhase_of_ok hpop with ⟨-, rfl, -⟩ | ⟨-, f, g, r, -, rfl, -, -⟩
    · exact htl
    · simp
  obtain ⟨hI, -⟩ := whileLoop_ok (ChainInv s₁) hl ⟨rfl, rfl, hne, fun k hk => by
    simp only at hk; omega⟩ (fun a b _ hi hb => hi.body hb)
  have hsame := hI.same
  refine ⟨?_, ?_, ?_, ?_⟩
  · rw [h2, hsame]
    exact ⟨rfl, rfl, rfl, rfl, rfl, rfl, rfl, rfl, rfl⟩
  · rw [h2, ← hI.front]
    simp only
    rw [List.getElem?_take_of_lt (by omega)]
  · intro k p q hp hq
    rw [h2] at hp hq
    simp only at hp hq
    have hk : k + 1 < l.idx + 1 := by
      by_contra hc
      rw [List.getElem?_take_eq_none (by omega)] at hq
      simp at hq
    rw [List.getElem?_take_of_lt (by omega)] at hp hq
    rw [hI.chain.2 k (by omega) p hp] at hq
    cases hq
    rfl
  · rw [h2]
    exact hw

/-- The running phase of a successful update. -/
theorem Sup.updateTimeline_running {s s' : Sup K} {v v' : Vec K} {fb : K}
    (h : s.updateTimeline v fb = .ok (s', v')) :
    ∃ f, Running s f s'.ttnp ∧ s'.timeline[0]? = some f ∧ s'.N = s.N ∧ s'.T = s.T ∧
      s'.stepPeriod = s.stepPeriod ∧ s'.dsPeriod = s.dsPeriod ∧ s'.move = s.move ∧
      s'.left = s.left ∧ s'.right = s.right ∧ s'.fb = fb ∧
      (∀ k p q, s'.timeline[k]? = some p → s'.timeline[k + 1]? = some q → q = s.nextPhase p) ∧
      s'.sampleWeight = .ok s'.weight := by
  obtain ⟨htl, -, -⟩ := Sup.updateTimeline_pop h
  obtain ⟨s₁, v₁, hpop, hc⟩ := Sup.updateTimeline_chain h
  have hs := hc.same
  rcases Sup.popPhase_of_ok hpop with ⟨h1, rfl, -⟩ | ⟨h1, f, g, r, h2, rfl, -, -⟩
  · have hf := hc.front
    rw [List.getElem?_eq_getElem htl] at hf
    exact ⟨s.timeline[0], Or.inl ⟨h1, List.getElem?_eq_getElem htl, hs.ttnp⟩, hf, hs.N, hs.T,
      hs.stepPeriod, hs.dsPeriod, hs.move, hs.left, hs.right, hs.fb, hc.chain, hc.weight⟩
  · have h2' : s.timeline = f :: g :: r := h2
    exact ⟨g, Or.inr ⟨h1, by rw [h2']; rfl, hs.ttnp⟩, hc.front, hs.N, hs.T,
      hs.stepPeriod, hs.dsPeriod, hs.move, hs.left, hs.right, hs.fb, hc.chain, hc.weight⟩

/-- The running phase of a cycle. -/
theorem Cycle.running {fb : K} {a b : Sup K × Vec K} (h : Cycle fb a b) :
    ∃ f R, Running a.1 f R ∧ b.1.timeline[0]? = some f ∧ b.1.ttnp = R - fb ∧ b.1.N = a.1.N ∧
      b.1.T = a.1.T ∧ b.1.stepPeriod = a.1.stepPeriod ∧ b.1.dsPeriod = a.1.dsPeriod ∧
      b.1.move = a.1.move ∧
      (∀ k p q, b.1.timeline[k]? = some p → b.1.timeline[k + 1]? = some q →
        q = a.1.nextPhase p) := by
  obtain ⟨s₁, v₁, h1, -, h2⟩ := h
  obtain ⟨f, hr, hf, e1, e2, e3, e4, e5, -, -, -, hc, -⟩ := Sup.updateTimeline_running h1
  obtain ⟨g1, g2, -, -, g5, g6, g7, g8, g9, -⟩ := Sup.updateFeet_frame h2
  refine ⟨f, s₁.ttnp, hr, by rw [g9]; exact hf, g7, by rw [g1, e1], by rw [g2, e2],
    by rw [g5, e3], by rw [g6, e4], by rw [g8, e5], ?_⟩
  rw [g9]
  exact hc

theorem Running.unique {s : Sup K} {f g : Phase K} {R R' : K} (h : Running s f R)
    (h' : Running s g R') : f = g ∧ R = R' := by
  rcases h with ⟨a, b, c⟩ | ⟨a, b, c⟩ <;> rcases h' with ⟨a', b', c'⟩ | ⟨a', b', c'⟩
  · rw [b] at b'; cases b'; exact ⟨rfl, by rw [c, c']⟩
  · exact absurd a (not_le.2 a')
  · exact absurd a' (not_le.2 a)
  · rw [b] at b'; cases b'; exact ⟨rfl, by rw [c, c']⟩

end MPC
