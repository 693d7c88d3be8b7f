import Verif.Eigen
import Mathlib.Data.Nat.Find

/-!
# C++ `while` loops

A `while` loop is run with some fuel; its meaning is its result for the smallest sufficient fuel,
and `Fault.nonTermination` when no fuel is sufficient.
-/

namespace MPC

variable {σ : Type}

/-- At most `n - 1` iterations of `while (cond) body`. -/
def whileFuel (cond : σ → Prop) [DecidablePred cond] (body : σ → Res σ) : ℕ → σ → Res σ
  | 0, _ => .error .nonTermination
  | n + 1, s => if cond s then body s >>= whileFuel cond body n else .ok s

open Classical in
/-- `while (cond) body`. -/
noncomputable def whileSpec (cond : σ → Prop) [DecidablePred cond] (body : σ → Res σ) (s : σ) :
    Res σ :=
  if h : ∃ n, whileFuel cond body n s ≠ .error .nonTermination then
    whileFuel cond body (Nat.find h) s
  else .error .nonTermination

/-- `while (cond) body`: equal to `whileSpec` (`whileLoop_eq`). The first 1000 iterations are tried
directly, so that the kernel can evaluate concrete examples. -/
noncomputable def whileLoop (cond : σ → Prop) [DecidablePred cond] (body : σ → Res σ) (s : σ) :
    Res σ :=
  match whileFuel cond body 1000 s with
  | .error .nonTermination => whileSpec cond body s
  | r => r

/-- `l[i]` for a container of runtime size. -/
def listAt {α : Type} (l : List α) (i : ℕ) : Res α :=
  match l[i]? with
  | some a => .ok a
  | none => .error .outOfRange

theorem listAt_ok {α : Type} {l : List α} {i : ℕ} (h : i < l.length) : listAt l i = .ok l[i] := by
  simp [listAt, List.getElem?_eq_getElem h]

theorem listAt_of_get? {α : Type} {l : List α} {i : ℕ} {a : α} (h : l[i]? = some a) :
    listAt l i = .ok a := by simp [listAt, h]

theorem listAt_none {α : Type} {l : List α} {i : ℕ} (h : l.length ≤ i) :
    listAt l i = .error .outOfRange := by
  simp [listAt, List.getElem?_eq_none h]

theorem listAt_eq_ok {α : Type} {l : List α} {i : ℕ} {a : α} :
    listAt l i = .ok a ↔ l[i]? = some a := by
  unfold listAt; split <;> simp_all

section
variable {cond : σ → Prop} [DecidablePred cond] {body : σ → Res σ}

/-- More fuel does not change a result. -/
theorem whileFuel_mono {n m : ℕ} (h : n ≤ m) {s : σ}
    (hs : whileFuel cond body n s ≠ .error .nonTermination) :
    whileFuel cond body m s = whileFuel cond body n s := by
  induction n generalizing m s with
  | zero => exact absurd rfl hs
  | succ n ih =>
    obtain ⟨m, rfl⟩ : ∃ k, m = k + 1 := ⟨m - 1, by omega⟩
    unfold whileFuel at hs ⊢
    by_cases hc : cond s
    · rw [if_pos hc] at hs ⊢
      rw [if_pos hc]
      cases hb : body s with
      | error e => rfl
      | ok t =>
        rw [hb, ok_bind] at hs
        rw [ok_bind, ok_bind]
        exact ih (by omega) hs
    · rw [if_neg hc, if_neg hc]

theorem whileSpec_of_fuel (n : ℕ) {s : σ} {r : Res σ}
    (h : whileFuel cond body n s = r) (hr : r ≠ .error .nonTermination) :
    whileSpec cond body s = r := by
  unfold whileSpec
  have hn : whileFuel cond body n s ≠ .error .nonTermination := by rw [h]; exact hr
  have hex : ∃ n, whileFuel cond body n s ≠ .error .nonTermination := ⟨n, hn⟩
  rw [dif_pos hex]
  have := whileFuel_mono (@Nat.find_min' _ (fun _ => Classical.propDecidable _) hex _ hn)
    (@Nat.find_spec _ (fun _ => Classical.propDecidable _) hex)
  rw [h] at this
  convert this.symm

theorem whileLoop_eq (s : σ) : whileLoop cond body s = whileSpec cond body s := by
  unfold whileLoop
  split
  · rfl
  · rename_i h
    exact (whileSpec_of_fuel 1000 rfl h).symm

/-- A result obtained with some fuel is the result of the loop. -/
theorem whileLoop_of_fuel (n : ℕ) {s : σ} {r : Res σ}
    (h : whileFuel cond body n s = r) (hr : r ≠ .error .nonTermination) :
    whileLoop cond body s = r := by rw [whileLoop_eq]; exact whileSpec_of_fuel n h hr

/-- Unfolding when the condition fails. -/
theorem whileLoop_done {s : σ} (h : ¬ cond s) : whileLoop cond body s = .ok s := by
  exact whileLoop_of_fuel 1 (by simp [whileFuel, h]) (by simp)

/-- Unfolding when the condition holds. -/
theorem whileLoop_step {s t : σ} (h : cond s) (hb : body s = .ok t) :
    whileLoop cond body s = whileLoop cond body t := by
  by_cases hex : ∃ n, whileFuel cond body n t ≠ .error .nonTermination
  · obtain ⟨n, hn⟩ := hex
    rw [whileLoop_of_fuel n rfl hn]
    exact whileLoop_of_fuel (n + 1) (by simp only [whileFuel]; rw [if_pos h, hb, ok_bind]) hn
  · have h2 : ¬ ∃ n, whileFuel cond body n s ≠ .error .nonTermination := by
      rintro ⟨n, hn⟩
      cases n with
      | zero => exact hn rfl
      | succ n =>
        simp only [whileFuel] at hn
        rw [if_pos h, hb, ok_bind] at hn
        exact hex ⟨n, hn⟩
    rw [whileLoop_eq, whileLoop_eq]
    unfold whileSpec
    rw [dif_neg h2, dif_neg hex]

/-- A fault in the body is a fault of the loop. -/
theorem whileLoop_fault {s : σ} {e : Fault} (h : cond s) (hb : body s = .error e) :
    whileLoop cond body s = .error e := by
  by_cases he : e = .nonTermination
  · subst he
    have h2 : ¬ ∃ n, whileFuel cond body n s ≠ .error .nonTermination := by
      rintro ⟨n, hn⟩
      cases n with
      | zero => exact hn rfl
      | succ n =>
        simp only [whileFuel] at hn
        rw [if_pos h, hb, error_bind] at hn
        exact hn rfl
    rw [whileLoop_eq]
    unfold whileSpec
    rw [dif_neg h2]
  · exact whileLoop_of_fuel 1 (by simp only [whileFuel]; rw [if_pos h, hb, error_bind])
      (by simpa using he)

/-- Rule with an invariant indexed by the iteration: the loop runs exactly `n` times. -/
theorem whileLoop_inv (I : ℕ → σ → Prop) (n : ℕ) {s : σ} (h0 : I 0 s)
    (hstep : ∀ i s, i < n → I i s → cond s ∧ ∃ t, body s = .ok t ∧ I (i + 1) t)
    (hend : ∀ s, I n s → ¬ cond s) :
    ∃ t, whileLoop cond body s = .ok t ∧ I n t := by
  suffices H : ∀ k s, k ≤ n → I (n - k) s → ∃ t, whileLoop cond body s = .ok t ∧ I n t by
    exact H n s le_rfl (by simpa using h0)
  intro k
  induction k with
  | zero =>
    intro s _ hs
    exact ⟨s, whileLoop_done (hend s (by simpa using hs)), by simpa using hs⟩
  | succ k ih =>
    intro s hk hs
    obtain ⟨hc, t, hb, ht⟩ := hstep (n - (k + 1)) s (by omega) hs
    rw [whileLoop_step hc hb]
    exact ih t (by omega) (by rwa [show n - (k + 1) + 1 = n - k by omega] at ht)

/-- Rule with a bound: the loop stops after at most `n` iterations if the invariant excludes the
condition at `n`. -/
theorem whileLoop_bound (I : ℕ → σ → Prop) (n : ℕ) {s : σ} (h0 : I 0 s)
    (hstep : ∀ i s, i < n → I i s → cond s → ∃ t, body s = .ok t ∧ I (i + 1) t)
    (hend : ∀ s, I n s → ¬ cond s) :
    ∃ i t, i ≤ n ∧ whileLoop cond body s = .ok t ∧ I i t ∧ ¬ cond t := by
  suffices H : ∀ k s, k ≤ n → I (n - k) s →
      ∃ i t, i ≤ n ∧ whileLoop cond body s = .ok t ∧ I i t ∧ ¬ cond t by
    exact H n s le_rfl (by simpa using h0)
  intro k
  induction k with
  | zero =>
    intro s _ hs
    have hs' : I n s := by simpa using hs
    exact ⟨n, s, le_rfl, whileLoop_done (hend s hs'), hs', hend s hs'⟩
  | succ k ih =>
    intro s hk hs
    by_cases hc : cond s
    · obtain ⟨t, hb, ht⟩ := hstep (n - (k + 1)) s (by omega) hs hc
      rw [whileLoop_step hc hb]
      exact ih t (by omega) (by rwa [show n - (k + 1) + 1 = n - k by omega] at ht)
    · exact ⟨n - (k + 1), s, by omega, whileLoop_done hc, hs, hc⟩

/-- From success of the loop: an invariant kept by the body holds at the end, where the condition
fails. -/
theorem whileLoop_ok (I : σ → Prop) {s t : σ} (h : whileLoop cond body s = .ok t) (h0 : I s)
    (hstep : ∀ a b, cond a → I a → body a = .ok b → I b) : I t ∧ ¬ cond t := by
  classical
  rw [whileLoop_eq] at h
  unfold whileSpec at h
  split at h
  · rename_i hex
    revert h
    generalize Nat.find hex = n
    clear hex
    induction n generalizing s with
    | zero => intro h; simp [whileFuel] at h
    | succ n ih =>
      intro h
      simp only [whileFuel] at h
      by_cases hc : cond s
      · rw [if_pos hc] at h
        obtain ⟨u, hu, h⟩ := bind_eq_ok.1 h
        exact ih (hstep s u hc h0 hu) h
      · rw [if_neg hc] at h
        cases h
        exact ⟨h0, hc⟩
  · cases h

end

end MPC
