import Verif.Lemmas.SupUpdate

/-!
# `updateTimeline` always halts (with a result or a fault)
-/
set_option linter.unusedSectionVars false

namespace MPC

/-- The computation ends. -/
def Halts {α : Type} (r : Res α) : Prop := r ≠ .error .nonTermination

theorem Halts.ok {α : Type} (a : α) : Halts (.ok a : Res α) := by simp [Halts]

theorem Halts.pure {α : Type} (a : α) : Halts (pure a : Res α) := by simp [Halts]

theorem Halts.error {α : Type} {e : Fault} (h : e ≠ .nonTermination) :
    Halts (.error e : Res α) := by simpa [Halts] using h

theorem Halts.bind {α β : Type} {a : Res α} {f : α → Res β} (ha : Halts a)
    (hf : ∀ x, a = .ok x → Halts (f x)) : Halts (a >>= f) := by
  cases a with
  | error e => rw [error_bind]; simpa [Halts] using ha
  | ok x => rw [ok_bind]; exact hf x rfl

theorem Halts.ite {α : Type} {c : Prop} [Decidable c] {a b : Res α} (ha : c → Halts a)
    (hb : ¬ c → Halts b) : Halts (if c then a else b) := by
  split
  · exact ha ‹_›
  · exact hb ‹_›

theorem Halts.require {c : Prop} [Decidable c] : Halts (require c) :=
  .ite (fun _ => .ok _) (fun _ => .error (by decide))
theorem Halts.requireSize {c : Prop} [Decidable c] : Halts (requireSize c) :=
  .ite (fun _ => .ok _) (fun _ => .error (by decide))
theorem Halts.requireIndex {c : Prop} [Decidable c] : Halts (requireIndex c) :=
  .ite (fun _ => .ok _) (fun _ => .error (by decide))

theorem Halts.listAt {α : Type} {l : List α} {i : ℕ} : Halts (listAt l i) := by
  unfold MPC.listAt; split
  · exact .ok _
  · exact .error (by decide)

/-- A loop whose body halts and decreases a measure. -/
theorem Halts.whileLoop {σ : Type} {cond : σ → Prop} [DecidablePred cond] {body : σ → Res σ}
    (I : σ → Prop) (μ : σ → ℕ)
    (hb : ∀ s, I s → cond s → Halts (body s))
    (hd : ∀ s t, I s → cond s → body s = .ok t → I t ∧ μ t < μ s) {s : σ} (h0 : I s) :
    Halts (whileLoop cond body s) := by
  induction hn : μ s using Nat.strong_induction_on generalizing s with
  | _ n ih =>
    by_cases hc : cond s
    · cases hbs : body s with
      | error e =>
        rw [whileLoop_fault hc hbs]
        have := hb s h0 hc
        rw [hbs] at this
        exact this
      | ok t =>
        rw [whileLoop_step hc hbs]
        obtain ⟨h1, h2⟩ := hd s t h0 hc hbs
        exact ih _ (hn ▸ h2) h1 rfl
    · rw [whileLoop_done hc]; exact .ok _

section
variable {K : Type}

theorem Halts.vat {v : Vec K} {i : ℕ} : Halts (v.at? i) :=
  .bind .requireIndex fun _ _ => .pure _
theorem Halts.segment {v : Vec K} {i l : ℕ} : Halts (v.segment? i l) :=
  .bind .requireIndex fun _ _ => .pure _
theorem Halts.setSegment {v w : Vec K} {i l : ℕ} : Halts (v.setSegment? i l w) :=
  .bind .requireIndex fun _ _ => .bind .requireSize fun _ _ => .pure _
theorem Halts.vset {v : Vec K} {i : ℕ} {x : K} : Halts (v.set? i x) :=
  .bind .requireIndex fun _ _ => .pure _
theorem Halts.mset [Field K] [LinearOrder K] {A : Mat K} {i j : ℕ} {x : K} :
    Halts (A.set? i j x) :=
  .bind .requireIndex fun _ _ => .pure _
theorem Halts.mat {A : Mat K} {i j : ℕ} : Halts (A.at? i j) :=
  .bind .requireIndex fun _ _ => .pure _

end

variable {K : Type} [Field K] [LinearOrder K]

theorem Halts.isInDS {s : Sup K} : Halts s.isInDS := .bind .listAt fun _ _ => .pure _

theorem Halts.kinPolygon {s : Sup K} {i : ℕ} : Halts (s.kinPolygon i) := by
  unfold Sup.kinPolygon
  refine .bind .require fun _ _ => .bind .isInDS fun _ _ => .bind .listAt fun ph _ => ?_
  cases ph.type
  · exact .error (by decide)
  · exact .pure _
  · exact .pure _

theorem Halts.bbox {p : Vec (Pt K)} (k : ℕ) : Halts (bbox p k) := by
  induction k with
  | zero => exact .bind .vat fun _ _ => .pure _
  | succ k ih => exact .bind ih fun ⟨_, _, _, _⟩ _ => .bind .vat fun _ _ => .pure _

theorem Halts.shorten {s : Sup K} {v : Vec K} : Halts (s.shorten v) :=
  .bind .require fun _ _ => .bind .requireIndex fun _ _ => .bind .segment fun _ _ =>
    .bind .segment fun _ _ => .bind .setSegment fun _ _ => .bind .segment fun _ _ => .setSegment

theorem Halts.enlarge {s : Sup K} {v : Vec K} : Halts (s.enlarge v) := by
  unfold Sup.enlarge
  refine .bind .require fun _ _ => .bind .requireIndex fun _ _ => .bind .segment fun _ _ =>
    .bind .setSegment fun _ _ => .bind .kinPolygon fun _ _ => .bind .require fun _ _ =>
    .bind (.bbox _) fun ⟨_, _, _, _⟩ _ => .bind .isInDS fun _ _ => .ite (fun _ => ?_) (fun _ => ?_)
  · exact .bind .vset fun _ _ => .vset
  · exact .bind .vat fun _ _ => .bind .vset fun _ _ => .bind .vat fun _ _ => .vset

theorem Sup.enlarge_size {s : Sup K} {v w : Vec K} (h : s.enlarge v = .ok w) :
    w.size = v.size + 2 := by
  simp only [Sup.enlarge, bind_eq_ok, require_eq_ok, requireIndex_eq_ok] at h
  obtain ⟨_, h1, _, h2, a, -, b, hb, cp, -, _, -, ⟨l, r, bo, t⟩, -, ds, -, h⟩ := h
  simp only [Vec.setSegment?, bind_eq_ok, requireSize_eq_ok, res_pure,
    Vec.conservativeResize] at hb
  obtain ⟨_, -, _, -, hb⟩ := hb
  cases hb
  split at h
  · simp only [Vec.set?, bind_eq_ok, requireIndex_eq_ok, res_pure] at h
    obtain ⟨c, ⟨_, -, hc⟩, _, -, h⟩ := h
    cases hc
    cases h
    simp only
    omega
  · simp only [Vec.set?, Vec.at?, bind_eq_ok, requireIndex_eq_ok, res_pure] at h
    obtain ⟨_, -, c, ⟨_, -, hc⟩, _, -, _, -, h⟩ := h
    cases hc
    cases h
    simp only
    omega

theorem Halts.enlargeLoop {s : Sup K} {v : Vec K} : Halts (s.enlargeLoop v) := by
  refine .whileLoop (fun _ => True) (fun v : Vec K => 2 * s.N + 2 * s.M - v.size) (fun _ _ _ => .enlarge)
    (fun a b _ hc hb => ⟨trivial, ?_⟩) trivial
  have := Sup.enlarge_size hb
  omega

theorem Halts.trim {s : Sup K} {v : Vec K} : Halts (s.trim v) :=
  .ite (fun _ => .bind .vat fun _ _ => .bind .vset fun _ _ => .pure _) (fun _ => .pure _)

theorem Halts.nextPhase {l : TLState K} : Halts l.nextPhase :=
  .ite (fun _ => .bind .listAt fun _ _ => .pure _) (fun _ => .pure _)

theorem Halts.body {l : TLState K} : Halts l.body :=
  .bind .nextPhase fun _ _ => .bind .enlargeLoop fun _ _ => .bind .trim fun _ _ => .pure _

theorem TLState.nextPhase_frame {l l' : TLState K} (h : l.nextPhase = .ok l') :
    l'.sup.T = l.sup.T ∧ l'.horizon = l.horizon := by
  unfold TLState.nextPhase at h
  split at h
  · obtain ⟨last, -, h⟩ := bind_eq_ok.1 h
    cases h
    exact ⟨rfl, rfl⟩
  · cases h; exact ⟨rfl, rfl⟩

theorem TLState.body_frame {l l' : TLState K} (h : l.body = .ok l') :
    l'.sup.T = l.sup.T ∧ l'.horizon = l.horizon - l.sup.T := by
  obtain ⟨a, ha, h⟩ := bind_eq_ok.1 h
  obtain ⟨v, -, h⟩ := bind_eq_ok.1 h
  obtain ⟨w, -, h⟩ := bind_eq_ok.1 h
  cases h
  obtain ⟨h1, h2⟩ := TLState.nextPhase_frame ha
  exact ⟨h1, by simp only; rw [h1, h2]⟩

theorem Halts.popPhase {s : Sup K} {v : Vec K} : Halts (s.popPhase v) := by
  unfold Sup.popPhase
  refine .ite (fun _ => .bind .isInDS fun _ _ => .ite (fun _ => ?_) (fun _ => ?_)) (fun _ => .pure _)
  · exact .bind (.pure _) fun _ _ => .bind .listAt fun _ _ => .pure _
  · exact .bind .shorten fun _ _ => .bind .listAt fun _ _ => .pure _

theorem Halts.selFirst {s : Sup K} {l : SelState K} : Halts (s.selFirst l) :=
  .bind .mset fun _ _ => .pure _

theorem Halts.selInner {s : Sup K} {l : SelState K} : Halts (s.selInner l) :=
  .bind .isInDS fun _ _ => .ite
    (fun _ => .bind .mset fun _ _ => .bind (.pure _) fun _ _ => .bind .vset fun _ _ => .pure _)
    (fun _ => .bind .mset fun _ _ => .bind (.pure _) fun _ _ => .bind .vset fun _ _ => .pure _)

theorem Sup.selInner_frame {s : Sup K} {l l' : SelState K} (h : s.selInner l = .ok l') :
    l'.row = l.row + 1 ∧ l'.phase = l.phase := by
  obtain ⟨ds, -, h⟩ := bind_eq_ok.1 h
  dsimp only at h
  split at h
  all_goals
    obtain ⟨_, -, h⟩ := bind_eq_ok.1 h
    obtain ⟨_, ha, h⟩ := bind_eq_ok.1 h
    obtain ⟨_, -, h⟩ := bind_eq_ok.1 h
    cases ha
    cases h
    exact ⟨rfl, rfl⟩

theorem Halts.selOuter {s : Sup K} {l : SelState K} : Halts (s.selOuter l) := by
  refine .bind .listAt fun _ _ => .bind (.whileLoop (fun _ => True) (fun l : SelState K => s.N - l.row)
    (fun _ _ _ => .selInner) (fun a b _ hc hb => ⟨trivial, ?_⟩) trivial) fun _ _ =>
    .bind .isInDS fun _ _ => .pure _
  have := (Sup.selInner_frame hb).1
  have := hc.2
  omega

theorem Sup.selOuter_frame {s : Sup K} {l l' : SelState K} (h : s.selOuter l = .ok l') :
    l.phase < s.timeline.length ∧ l'.phase = l.phase + 1 := by
  obtain ⟨ph, hp, h⟩ := bind_eq_ok.1 h
  obtain ⟨a, ha, h⟩ := bind_eq_ok.1 h
  obtain ⟨ds, -, h⟩ := bind_eq_ok.1 h
  cases h
  refine ⟨(List.getElem?_eq_some_iff.1 (listAt_eq_ok.1 hp)).1, ?_⟩
  have := (whileLoop_ok (fun x : SelState K => x.phase = l.phase) ha rfl
    (fun a b _ hI hb => by rw [(Sup.selInner_frame hb).2]; exact hI)).1
  simp only
  rw [this]

theorem Halts.selection {s : Sup K} : Halts s.selection := by
  unfold Sup.selection
  refine .bind .require fun _ _ => .bind (.whileLoop (fun _ => True) (fun l : SelState K => s.N - l.row)
    (fun _ _ _ => .selFirst) (fun a b _ hc hb => ⟨trivial, ?_⟩) trivial) fun _ _ =>
    .bind (.whileLoop (fun _ => True) (fun l : SelState K => s.timeline.length - l.phase)
    (fun _ _ _ => .selOuter) (fun a b _ _ hb => ⟨trivial, ?_⟩) trivial) fun _ _ => .pure _
  · obtain ⟨_, -, hb⟩ := bind_eq_ok.1 hb
    cases hb
    have := hc.2
    simp only
    omega
  · obtain ⟨h1, h2⟩ := Sup.selOuter_frame hb
    omega

variable [IsStrictOrderedRing K] [Archimedean K]

theorem Halts.sampleWeight {s : Sup K} (hT : 0 < s.T) : Halts s.sampleWeight := by
  obtain ⟨i, h, -⟩ := timeToSample_ok hT s.ttnp
  unfold Sup.sampleWeight
  refine .bind (by rw [h]; exact .ok _) fun _ _ => .ite (fun _ => .error (by decide)) (fun _ => ?_)
  exact .bind .mset fun _ _ => .bind .requireIndex fun _ _ => .bind .mat fun _ _ => .mset

theorem Sup.popPhase_T {s s' : Sup K} {v v' : Vec K} (h : s.popPhase v = .ok (s', v')) :
    s'.T = s.T := by
  unfold Sup.popPhase at h
  split at h
  · obtain ⟨ds, -, h⟩ := bind_eq_ok.1 h
    dsimp only at h
    split at h
    all_goals
      obtain ⟨w, -, h⟩ := bind_eq_ok.1 h
      obtain ⟨f, -, h⟩ := bind_eq_ok.1 h
      cases h; rfl
  · cases h; rfl

theorem Halts.mainLoop {l : TLState K} (hT : 0 < l.sup.T) :
    Halts (MPC.whileLoop (fun l : TLState K => -EPS < l.horizon) TLState.body l) := by
  obtain ⟨n, hn⟩ := Archimedean.arch (l.horizon + EPS) hT
  rw [nsmul_eq_mul] at hn
  suffices H : ∀ (n : ℕ) (l : TLState K), 0 < l.sup.T → l.horizon + EPS ≤ n * l.sup.T →
      Halts (MPC.whileLoop (fun l : TLState K => -EPS < l.horizon) TLState.body l) from H n l hT hn
  intro n
  induction n with
  | zero =>
    intro l _ h
    rw [whileLoop_done]
    · exact .ok _
    · simp only [Nat.cast_zero, zero_mul] at h
      exact not_lt.2 (by linarith)
  | succ n ih =>
    intro l hT h
    by_cases hc : -EPS < l.horizon
    · cases hb : l.body with
      | error e =>
        rw [whileLoop_fault (cond := fun l : TLState K => -EPS < l.horizon) hc hb]
        have : Halts l.body := .body
        rw [hb] at this
        exact this
      | ok l' =>
        rw [whileLoop_step (cond := fun l : TLState K => -EPS < l.horizon) hc hb]
        obtain ⟨h1, h2⟩ := TLState.body_frame hb
        refine ih l' (by rw [h1]; exact hT) ?_
        rw [h1, h2]
        push_cast at h
        linarith
    · rw [whileLoop_done (cond := fun l : TLState K => -EPS < l.horizon) hc]; exact .ok _

theorem Halts.updateTimeline {s : Sup K} {v : Vec K} {fb : K} (hT : 0 < s.T) :
    Halts (s.updateTimeline v fb) := by
  unfold Sup.updateTimeline
  refine .bind .require fun _ _ => .bind .require fun _ _ => .bind .popPhase fun ⟨s₁, v₁⟩ h1 => ?_
  have hT1 : 0 < s₁.T := by rw [Sup.popPhase_T h1]; exact hT
  refine .bind (.mainLoop hT1) fun l hl => .bind .segment fun _ _ => .bind (.sampleWeight ?_)
    fun _ _ => .bind .selection fun _ _ => .pure _
  have := (whileLoop_ok (fun x : TLState K => x.sup.T = s₁.T) hl rfl
    (fun a b _ hI hb => by rw [(TLState.body_frame hb).1]; exact hI)).1
  simp only
  rw [this]
  exact hT1

end MPC
