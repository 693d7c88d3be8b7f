import Verif.Spec.Swing
import Verif.Lemmas.Glide
import Verif.Props.Phases
import Verif.Lemmas.CopRun

/-! # Foot updates seen from the target -/

set_option linter.unusedSectionVars false

namespace MPC

section
variable {K : Type} [Field K] [LinearOrder K] [IsStrictOrderedRing K]

theorem piece_glide0 (s : State3 K) (g T : K) (hT : T ≠ 0) (t : K) :
    g - (pieceState s ⟨g, 0, 0⟩ T 0 t).p = glideE0 (t / T) (g - s.p) (T * s.v) (T * T * s.a) ∧
    (T - t) * (pieceState s ⟨g, 0, 0⟩ T 0 t).v = glideV0 (t / T) (g - s.p) (T * s.v) (T * T * s.a) ∧
    (T - t) * (T - t) * (pieceState s ⟨g, 0, 0⟩ T 0 t).a = glideA0 (t / T) (g - s.p) (T * s.v) (T * T * s.a) := by
  have ht : t = t / T * T := (div_mul_cancel₀ t hT).symm
  obtain ⟨h0, h1, h2, h3, h4, h5, h6, h7, h8, h9, h10, h11⟩ := factorOf_vals s ⟨g, 0, 0⟩ T
  generalize t / T = r at *
  subst ht
  have hr : r * T / T = r := by field_simp
  simp only [pieceState, piecePos, pieceVel, pieceAcc, hr, Nat.mul_zero, Nat.zero_add, h0, h1, h2, h3, abcRow_eq, glideE0,
    glideV0, glideA0, aInvNorm, interpTable, List.getD_cons_zero, List.getD_cons_succ]
  refine ⟨?_, ?_, ?_⟩ <;> field_simp <;> ring

theorem piece_glide1 (s : State3 K) (g T : K) (hT : T ≠ 0) (t : K) :
    g - (pieceState s ⟨g, 0, 0⟩ T 1 t).p = glideE1 (t / T) (g - s.p) (T * s.v) (T * T * s.a) ∧
    (T - t) * (pieceState s ⟨g, 0, 0⟩ T 1 t).v = glideV1 (t / T) (g - s.p) (T * s.v) (T * T * s.a) ∧
    (T - t) * (T - t) * (pieceState s ⟨g, 0, 0⟩ T 1 t).a = glideA1 (t / T) (g - s.p) (T * s.v) (T * T * s.a) := by
  have ht : t = t / T * T := (div_mul_cancel₀ t hT).symm
  obtain ⟨h0, h1, h2, h3, h4, h5, h6, h7, h8, h9, h10, h11⟩ := factorOf_vals s ⟨g, 0, 0⟩ T
  generalize t / T = r at *
  subst ht
  have hr : r * T / T = r := by field_simp
  simp only [pieceState, piecePos, pieceVel, pieceAcc, hr, Nat.mul_one, Nat.reduceAdd, h4, h5, h6, h7, abcRow_eq, glideE1,
    glideV1, glideA1, aInvNorm, interpTable, List.getD_cons_zero, List.getD_cons_succ]
  refine ⟨?_, ?_, ?_⟩ <;> field_simp <;> ring

theorem piece_glide2 (s : State3 K) (g T : K) (hT : T ≠ 0) (t : K) :
    g - (pieceState s ⟨g, 0, 0⟩ T 2 t).p = glideE2 (t / T) (g - s.p) (T * s.v) (T * T * s.a) ∧
    (T - t) * (pieceState s ⟨g, 0, 0⟩ T 2 t).v = glideV2 (t / T) (g - s.p) (T * s.v) (T * T * s.a) ∧
    (T - t) * (T - t) * (pieceState s ⟨g, 0, 0⟩ T 2 t).a = glideA2 (t / T) (g - s.p) (T * s.v) (T * T * s.a) := by
  have ht : t = t / T * T := (div_mul_cancel₀ t hT).symm
  obtain ⟨h0, h1, h2, h3, h4, h5, h6, h7, h8, h9, h10, h11⟩ := factorOf_vals s ⟨g, 0, 0⟩ T
  generalize t / T = r at *
  subst ht
  have hr : r * T / T = r := by field_simp
  simp only [pieceState, piecePos, pieceVel, pieceAcc, hr, Nat.reduceMul, Nat.reduceAdd, h8, h9, h10, h11, abcRow_eq, glideE2,
    glideV2, glideA2, aInvNorm, interpTable, List.getD_cons_zero, List.getD_cons_succ]
  refine ⟨?_, ?_, ?_⟩ <;> field_simp <;> ring

/-- What the remaining flight does with the distance to the target, the velocity and the acceleration. -/
def glide (r : K) (y : K × K × K) : K × K × K :=
  if r ≤ 1 / 3 then (glideE0 r y.1 y.2.1 y.2.2, glideV0 r y.1 y.2.1 y.2.2, glideA0 r y.1 y.2.1 y.2.2)
  else if r ≤ 2 / 3 then (glideE1 r y.1 y.2.1 y.2.2, glideV1 r y.1 y.2.1 y.2.2, glideA1 r y.1 y.2.1 y.2.2)
  else (glideE2 r y.1 y.2.1 y.2.2, glideV2 r y.1 y.2.1 y.2.2, glideA2 r y.1 y.2.1 y.2.2)

theorem glide_gliding {r : K} (h0 : 0 ≤ r) (h1 : r ≤ 1) {y : K × K × K} (h : Gliding y.1 y.2.1 y.2.2) :
    Gliding (glide r y).1 (glide r y).2.1 (glide r y).2.2 := by
  unfold glide
  split_ifs with c1 c2
  · exact h.step0 h0 c1
  · exact h.step1 (not_le.1 c1).le c2
  · exact h.step2 (not_le.1 c2).le h1

theorem glide_add (r : K) (y z : K × K × K) : glide r (y + z) = glide r y + glide r z := by
  unfold glide
  split_ifs <;> simp only [glideE0, glideV0, glideA0, glideE1, glideV1, glideA1, glideE2, glideV2, glideA2, Prod.fst_add,
    Prod.snd_add, Prod.mk_add_mk, Prod.mk.injEq] <;> refine ⟨?_, ?_, ?_⟩ <;> ring

theorem glide_smul (r c : K) (y : K × K × K) : glide r (c • y) = c • glide r y := by
  unfold glide
  split_ifs <;> simp only [glideE0, glideV0, glideA0, glideE1, glideV1, glideA1, glideE2, glideV2, glideA2, Prod.smul_fst,
    Prod.smul_snd, Prod.smul_mk, smul_eq_mul, Prod.mk.injEq] <;> refine ⟨?_, ?_, ?_⟩ <;> ring

/-- The state of an axis, seen from the target `g` at the time `D` before landing. -/
def fromTarget (g D : K) (s : State3 K) : K × K × K := (g - s.p, D * s.v, D * D * s.a)

/-- One update of an axis. -/
theorem interpolate_glide {f f' : FootAxis K} (hf : f.factor.size = 12) {g D t : K} (hD : 0 < D)
    (h : interpolateTrajectory f ⟨g, 0, 0⟩ D t = .ok f') :
    f'.factor.size = 12 ∧ fromTarget g (D - t) f'.state = glide (t / D) (fromTarget g D f.state) := by
  obtain ⟨f1, e1, e2, e3⟩ := interpolateTrajectory_ok f hf ⟨g, 0, 0⟩ D hD.ne' t
  obtain rfl : f1 = f' := by rw [e1] at h; exact Except.ok.inj h
  refine ⟨e2, ?_⟩
  rw [e3]
  unfold fromTarget glide pieceOf
  have c1 : t ≤ D / 3 ↔ t / D ≤ 1 / 3 := by rw [div_le_iff₀ hD]; constructor <;> intro h <;> linarith
  have c2 : t ≤ 2 * D / 3 ↔ t / D ≤ 2 / 3 := by rw [div_le_iff₀ hD]; constructor <;> intro h <;> linarith
  simp only [c1, c2]
  split_ifs
  · obtain ⟨a, b, c⟩ := piece_glide0 f.state g D hD.ne' t; rw [a, b, c]
  · obtain ⟨a, b, c⟩ := piece_glide1 f.state g D hD.ne' t; rw [a, b, c]
  · obtain ⟨a, b, c⟩ := piece_glide2 f.state g D hD.ne' t; rw [a, b, c]

/-! ### Combinations -/

theorem combine_cons (a b : K) (ω δ : List K) : Spec.combine (a :: ω) (b :: δ) = a * b + Spec.combine ω δ := by
  simp [Spec.combine]

theorem combine_one_sub : ∀ {ω δ : List K}, ω.length = δ.length →
    Spec.combine (ω.map (1 - ·)) δ = δ.sum - Spec.combine ω δ
  | [], [], _ => by simp [Spec.combine]
  | a :: ω, b :: δ, h => by
    rw [List.map_cons, combine_cons, combine_cons, List.sum_cons, combine_one_sub (by simpa using h)]
    ring

/-- Sum of states, weighted. -/
def mix : List (K × K × K) → List K → K × K × K
  | y :: ys, d :: ds => d • y + mix ys ds
  | _, _ => 0

theorem glide_mix (r : K) : ∀ (ys : List (K × K × K)) (ds : List K), glide r (mix ys ds) = mix (ys.map (glide r)) ds
  | [], ds => by
    have := glide_smul r 0 (0 : K × K × K)
    simpa [mix] using this
  | y :: ys, [] => by
    have := glide_smul r 0 (0 : K × K × K)
    simpa [mix] using this
  | y :: ys, d :: ds => by
    rw [mix, glide_add, glide_smul, glide_mix r ys ds, List.map_cons, mix]

theorem mix_append : ∀ {ys : List (K × K × K)} {ds : List K}, ys.length = ds.length → ∀ y d,
    mix (ys ++ [y]) (ds ++ [d]) = mix ys ds + d • y
  | [], [], _, y, d => by simp [mix]
  | z :: ys, c :: ds, h, y, d => by
    rw [List.cons_append, List.cons_append, mix, mix, mix_append (by simpa using h), add_assoc]

theorem mix_fst : ∀ (ys : List (K × K × K)) (ds : List K), (mix ys ds).1 = Spec.combine (ys.map Prod.fst) ds
  | [], ds => by simp [mix, Spec.combine]
  | y :: ys, [] => by simp [mix, Spec.combine]
  | y :: ys, d :: ds => by
    rw [mix, List.map_cons, combine_cons, Prod.fst_add, mix_fst ys ds, Prod.smul_fst, smul_eq_mul, mul_comm]

/-- The last target. -/
def lastTarget (g : K) (hist : List (State3 K × K)) : K := g + (Spec.targetMoves g hist).sum

/-- The position after a flight, when the state before is a combination of states of the polytope. -/
theorem flight_mix : ∀ (hist : List (State3 K × K)) (foot f' : FootAxis K) (g D : K) (ys : List (K × K × K)) (ds : List K),
    foot.factor.size = 12 → 0 ≤ D → (∀ u ∈ hist, u.1.v = 0 ∧ u.1.a = 0 ∧ 0 < u.2) → (hist.map Prod.snd).sum ≤ D →
    ys.length = ds.length → (∀ y ∈ ys, Gliding y.1 y.2.1 y.2.2) → fromTarget g D foot.state = mix ys ds →
    flight D foot hist = .ok f' → ∃ es : List K, es.length = ds.length + hist.length ∧
      (∀ e ∈ es, -(3 / 50) ≤ e ∧ e ≤ 1) ∧
      f'.state.p = lastTarget g hist - Spec.combine es (ds ++ Spec.targetMoves g hist)
  | [], foot, f', g, D, ys, ds, hf, hD, hh, hs, hl, hy, hm, h => by
    cases h
    refine ⟨ys.map Prod.fst, by simp [hl], ?_, ?_⟩
    · intro e he
      obtain ⟨y, h1, rfl⟩ := List.mem_map.1 he
      exact (hy y h1).bounds
    · have := congrArg Prod.fst hm
      rw [mix_fst] at this
      simp only [fromTarget] at this
      simp only [lastTarget, Spec.targetMoves, List.sum_nil, add_zero, List.append_nil, ← this]
      ring
  | (⟨p, v, a⟩, dt) :: rest, foot, f', g, D, ys, ds, hf, hD, hh, hs, hl, hy, hm, h => by
    obtain ⟨hv, ha, hdt⟩ := hh _ List.mem_cons_self
    dsimp only at hv ha hdt
    subst hv ha
    simp only [List.map_cons, List.sum_cons] at hs
    have hrest : 0 ≤ (rest.map Prod.snd).sum := by
      apply List.sum_nonneg
      intro x hx
      obtain ⟨w, hw, rfl⟩ := List.mem_map.1 hx
      exact (hh w (List.mem_cons_of_mem _ hw)).2.2.le
    have hD' : 0 < D := by linarith
    obtain ⟨f1, h1, h2⟩ := bind_eq_ok.1 h
    obtain ⟨k1, k2⟩ := interpolate_glide hf hD' h1
    have hm' : fromTarget p D foot.state = mix (ys ++ [(1, 0, 0)]) (ds ++ [p - g]) := by
      rw [mix_append hl, ← hm]
      simp only [fromTarget, Prod.smul_mk, smul_eq_mul, mul_one, mul_zero, Prod.mk_add_mk, Prod.mk.injEq]
      refine ⟨by ring, by ring, by ring⟩
    rw [hm', glide_mix] at k2
    obtain ⟨es, e1, e2, e3⟩ := flight_mix rest f1 f' p (D - dt) _ (ds ++ [p - g]) k1 (by linarith)
      (fun u hu => hh u (List.mem_cons_of_mem _ hu)) (by linarith) (by simp [hl]) (by
        intro y hy'
        obtain ⟨z, hz, rfl⟩ := List.mem_map.1 hy'
        refine glide_gliding (div_nonneg hdt.le hD'.le) ((div_le_one hD').2 (by linarith)) ?_
        rcases List.mem_append.1 hz with hz | hz
        · exact hy z hz
        · rw [List.mem_singleton.1 hz]; exact Gliding.start) k2 h2
    refine ⟨es, by rw [e1]; simp [Nat.add_comm, Nat.add_left_comm], e2, ?_⟩
    rw [e3, List.append_assoc]
    simp only [lastTarget, Spec.targetMoves, List.sum_cons, List.singleton_append]
    ring

/-! ### The height of a flying foot -/

/-- Height of a flying foot `j` feedback periods before the end of its step, in a flight of `2 * m` periods. -/
structure Swinging (h fb : K) (m j : ℕ) (z : State3 K) : Prop where
  before : 2 * m ≤ j → z = ⟨0, 0, 0⟩
  up : m ≤ j → j ≤ 2 * m → ∃ y : K × K × K, Gliding y.1 y.2.1 y.2.2 ∧ fromTarget h (((j : K) - m) * fb) z = h • y
  top : j = m → z = ⟨h, 0, 0⟩
  down : j ≤ m → ∃ y : K × K × K, Gliding y.1 y.2.1 y.2.2 ∧ fromTarget 0 (j * fb) z = (-h) • y
  landed : j = 0 → z = ⟨0, 0, 0⟩

theorem Swinging.rest {h fb : K} {m j : ℕ} (hm : 0 < m) (hj : 2 * m ≤ j) : Swinging h fb m j ⟨0, 0, 0⟩ where
  before _ := rfl
  up _ _ := ⟨(1, 0, 0), Gliding.start, by simp [fromTarget]⟩
  top e := by omega
  down e := by omega
  landed _ := rfl

theorem Swinging.heights {h fb : K} {m j : ℕ} {z : State3 K} (hh : 0 ≤ h) (s : Swinging h fb m j z) :
    -(3 / 50) * h ≤ z.p ∧ z.p ≤ 53 / 50 * h ∧ (m ≤ j → 0 ≤ z.p) ∧ (j ≤ m → z.p ≤ h) := by
  have key : (m ≤ j → 0 ≤ z.p ∧ z.p ≤ 53 / 50 * h) ∧ (j ≤ m → -(3 / 50) * h ≤ z.p ∧ z.p ≤ h) := by
    constructor
    · intro h1
      by_cases h2 : j ≤ 2 * m
      · obtain ⟨y, hy, e⟩ := s.up h1 h2
        have e := congrArg Prod.fst e
        simp only [fromTarget, Prod.smul_fst, smul_eq_mul] at e
        obtain ⟨b1, b2⟩ := hy.bounds
        have c1 := mul_le_mul_of_nonneg_left b1 hh
        have c2 := mul_le_mul_of_nonneg_left b2 hh
        constructor <;> linarith
      · rw [s.before (by omega)]
        exact ⟨le_rfl, by positivity⟩
    · intro h1
      obtain ⟨y, hy, e⟩ := s.down h1
      have e := congrArg Prod.fst e
      simp only [fromTarget, Prod.smul_fst, smul_eq_mul] at e
      obtain ⟨b1, b2⟩ := hy.bounds
      have c1 := mul_le_mul_of_nonneg_left b1 hh
      have c2 := mul_le_mul_of_nonneg_left b2 hh
      constructor <;> linarith
  refine ⟨?_, ?_, fun h1 => (key.1 h1).1, fun h1 => (key.2 h1).2⟩ <;> rcases le_total m j with h1 | h1
  · have := (key.1 h1).1; linarith
  · exact (key.2 h1).1
  · exact (key.1 h1).2
  · have := (key.2 h1).2; linarith

/-- One cycle of the flight. -/
theorem Swinging.fly {f g : Foot K} (hf : f.HasFactors) {tx ty fb : K} {m j : ℕ} (hE : EPS < fb)
    (hj : 0 < j) (hj2 : j ≤ 2 * m) (s : Swinging f.maxHeight fb m j f.z.state)
    (e : f.fly tx ty (2 * m * fb) (j * fb) fb = .ok g) :
    g.maxHeight = f.maxHeight ∧ Swinging f.maxHeight fb m (j - 1) g.z.state := by
  have hfb : 0 < fb := EPS_pos.trans hE
  have hc : (((j - 1 : ℕ) : K)) = j - 1 := by rw [Nat.cast_sub (by omega)]; simp
  have hcond : ((j : K) * fb < 2 * m * fb / 2 + EPS) ↔ j ≤ m := by
    constructor
    · intro h1
      by_contra h2
      have h3 : ((m : K) + 1) ≤ j := by exact_mod_cast Nat.lt_of_not_le h2
      have h4 := mul_le_mul_of_nonneg_right h3 hfb.le
      linarith
    · intro h1
      have h3 : (j : K) ≤ m := by exact_mod_cast h1
      have h4 := mul_le_mul_of_nonneg_right h3 hfb.le
      have := EPS_pos (K := K)
      linarith
  unfold Foot.fly at e
  obtain ⟨x, -, e⟩ := bind_eq_ok.1 e
  obtain ⟨y, -, e⟩ := bind_eq_ok.1 e
  dsimp only at e
  by_cases hjm : j ≤ m
  · rw [if_pos (hcond.2 hjm)] at e
    obtain ⟨z, ez, e⟩ := bind_eq_ok.1 e
    obtain rfl := Except.ok.inj e
    refine ⟨rfl, ?_⟩
    show Swinging f.maxHeight fb m (j - 1) z.state
    have hD : 0 < (j : K) * fb := mul_pos (by exact_mod_cast hj) hfb
    obtain ⟨u, hu, eu⟩ := s.down hjm
    obtain ⟨-, k⟩ := interpolate_glide hf.2.2 hD ez
    rw [eu, glide_smul] at k
    have hr : fb / (j * fb) ≤ 1 := by
      rw [div_le_one hD]
      have h1 : (1 : K) ≤ j := by exact_mod_cast hj
      have := mul_le_mul_of_nonneg_right h1 hfb.le
      linarith
    have hland : j - 1 = 0 → z.state = ⟨0, 0, 0⟩ := by
      intro h0
      have h1 : j = 1 := by omega
      subst h1
      obtain ⟨z', hz, sz⟩ := (C10_endpoints f.z hf.2.2 ⟨0, 0, 0⟩ fb hfb).2
      rw [Nat.cast_one, one_mul] at ez
      rw [ez] at hz
      rw [Except.ok.inj hz]; exact sz
    refine ⟨fun h1 => by omega, fun h1 => by omega, fun h1 => by omega,
      fun _ => ⟨glide (fb / (j * fb)) u, glide_gliding (div_nonneg hfb.le hD.le) hr hu, ?_⟩, hland⟩
    rw [← k, hc]
    congr 1
    ring
  · rw [if_neg (fun h1 => hjm (hcond.1 h1))] at e
    obtain ⟨z, ez, e⟩ := bind_eq_ok.1 e
    obtain rfl := Except.ok.inj e
    refine ⟨rfl, ?_⟩
    show Swinging f.maxHeight fb m (j - 1) z.state
    have hjm' : ((m : K) + 1) ≤ j := by exact_mod_cast Nat.lt_of_not_le hjm
    have hDe : (j : K) * fb - 2 * m * fb / 2 = ((j : K) - m) * fb := by ring
    rw [hDe] at ez
    have hD : 0 < ((j : K) - m) * fb := mul_pos (by linarith) hfb
    obtain ⟨u, hu, eu⟩ := s.up (by omega) hj2
    obtain ⟨-, k⟩ := interpolate_glide hf.2.2 hD ez
    rw [eu, glide_smul] at k
    have hr : fb / (((j : K) - m) * fb) ≤ 1 := by
      rw [div_le_one hD]
      have := mul_le_mul_of_nonneg_right hjm' hfb.le
      linarith
    have htop : j - 1 = m → z.state = ⟨f.maxHeight, 0, 0⟩ := by
      intro h0
      have h1 : j = m + 1 := by omega
      subst h1
      obtain ⟨z', hz, sz⟩ := (C10_endpoints f.z hf.2.2 ⟨f.maxHeight, 0, 0⟩ fb hfb).2
      rw [show ((m + 1 : ℕ) : K) - m = 1 from by push_cast; ring, one_mul] at ez
      rw [ez] at hz
      rw [Except.ok.inj hz]; exact sz
    refine ⟨fun h1 => by omega, fun _ _ => ⟨glide (fb / (((j : K) - m) * fb)) u,
      glide_gliding (div_nonneg hfb.le hD.le) hr hu, ?_⟩, htop, fun h1 => ?_, fun h1 => by omega⟩
    · rw [← k, hc]
      congr 1
      ring
    · rw [htop (by omega)]
      exact ⟨(1, 0, 0), Gliding.start, by simp [fromTarget]⟩

/-- The feet of a walk whose flights last `2 * m` feedback periods. -/
def Lifted (fb : K) (m : ℕ) (s : Sup K) : Prop :=
  ∀ (f : Phase K) (j : ℕ), s.timeline[0]? = some f → s.ttnp = j * fb →
    (f.type = .rightSS ∨ Spec.OnGround s.left) ∧ (f.type = .leftSS ∨ Spec.OnGround s.right) ∧
    (f.type = .leftSS → Swinging s.right.maxHeight fb m j s.right.z.state) ∧
    (f.type = .rightSS → Swinging s.left.maxHeight fb m j s.left.z.state)

theorem WalksFrom.reach {fb : K} {a₀ a : Sup K × Vec K} (h0 : Ready a₀) (h : WalksFrom fb a₀ a) :
    Reach (· = fb) CanStop a ∧ a.1.T = a₀.1.T ∧ a.1.stepPeriod = a₀.1.stepPeriod ∧ (Grid fb a₀.1 → Grid fb a.1) := by
  induction h with
  | refl => exact ⟨.start h0, rfl, rfl, id⟩
  | setMove _ hm ih =>
    obtain ⟨i1, i2, i3, i4⟩ := ih
    exact ⟨i1.setMove hm, i2, i3, fun hg => ⟨(i4 hg).pos, (i4 hg).T, (i4 hg).step, (i4 hg).ds, (i4 hg).horizon⟩⟩
  | cycle _ hc ih =>
    obtain ⟨i1, i2, i3, i4⟩ := ih
    have hr := i1.cycle rfl hc
    obtain ⟨s', v', hu, -, hf⟩ := hc
    obtain ⟨f, -, -, n1, n2, n3, n4, -⟩ := Sup.updateTimeline_running hu
    obtain ⟨e1, e2, -, -, e3, e4, -⟩ := Sup.updateFeet_frame hf
    refine ⟨hr, by rw [e2, n2, i2], by rw [e3, n3, i3], fun hg => ?_⟩
    have g := i4 hg
    exact ⟨g.pos, by rw [e2, n2]; exact g.T, by rw [e3, n3]; exact g.step, by rw [e4, n4]; exact g.ds,
      by rw [e1, e2, e3, n1, n2, n3]; exact g.horizon⟩

theorem WalksFrom.lifted {fb : K} {a₀ a : Sup K × Vec K} (h0 : Ready a₀) (hl : Spec.OnGround a₀.1.left)
    (hr : Spec.OnGround a₀.1.right) (hg : Grid fb a₀.1) {m : ℕ} (hm : 0 < m)
    (hF : a₀.1.stepPeriod - a₀.1.T = 2 * m * fb) (h : WalksFrom fb a₀ a) : Lifted fb m a.1 := by
  have hE : (0 : K) < EPS := EPS_pos
  have hfb : 0 < fb := hE.trans hg.pos
  induction h with
  | refl =>
    intro f j hf _
    rw [h0.timeline] at hf
    simp only [List.getElem?_cons_zero, Option.some.injEq] at hf
    subst hf
    exact ⟨.inr hl, .inr hr, fun e => by simp at e, fun e => by simp at e⟩
  | setMove _ _ ih => exact ih
  | @cycle a b hw hc ih =>
    obtain ⟨iR, iT, iS, iG⟩ := hw.reach h0
    have g := iG hg
    obtain ⟨f₀, mv, R, hI⟩ := iR.ginv hfb.le g
    obtain ⟨s', v', hu, hb, hf⟩ := hc
    obtain ⟨f, hrun, h1, h2, h3, h4, h5, -, h6, h7, -⟩ := Sup.updateTimeline_running hu
    obtain ⟨e1, e2, e3, e4, e5, e6, e7, e8, e9, -⟩ := Sup.updateFeet_frame hf
    obtain ⟨⟨j, hj, hR⟩, -⟩ := hI.running g hrun
    have hdur : f.type ≠ .DS → f.duration = a.1.stepPeriod := by
      intro hd
      have hp : f.duration = a.1.period f.type := by
        rcases hrun with ⟨-, e, -⟩ | ⟨-, e, -⟩ <;> exact iR.durations _ _ e
      rw [hp]
      cases ht : f.type with
      | DS => exact absurd ht hd
      | leftSS => rfl
      | rightSS => rfl
    -- the feet before the update
    have hpre : (f.type = .rightSS ∨ Spec.OnGround a.1.left) ∧ (f.type = .leftSS ∨ Spec.OnGround a.1.right) ∧
        (f.type = .leftSS → Swinging a.1.right.maxHeight fb m j a.1.right.z.state) ∧
        (f.type = .rightSS → Swinging a.1.left.maxHeight fb m j a.1.left.z.state) := by
      rcases hrun with ⟨-, q1, q2⟩ | ⟨q0, q1, q2⟩
      · exact ih f j q1 (q2 ▸ hR)
      · have hfr := hI.hist.front
        obtain ⟨i, hi⟩ := hI.tick
        rw [hi, grid_lt hg.pos] at q0
        subst q0
        obtain ⟨u1, u2, u3, u4⟩ := ih f₀ 0 hfr hi
        have gl : Spec.OnGround a.1.left := by
          rcases u1 with u1 | u1
          · exact (u4 u1).landed rfl
          · exact u1
        have gr : Spec.OnGround a.1.right := by
          rcases u2 with u2 | u2
          · exact (u3 u2).landed rfl
          · exact u2
        have hbig : f.type ≠ .DS → 2 * m ≤ j := by
          intro hd
          have k1 : (j : K) * fb = a.1.stepPeriod := by rw [← hR, q2]; exact hdur hd
          obtain ⟨n, hn, hT⟩ := g.T
          rw [iS] at k1
          have k2 : (j : K) * fb = (2 * m + n : ℕ) * fb := by
            push_cast
            rw [iT] at hT
            rw [add_mul, ← hT, ← hF, k1]; ring
          have k3 : (j : K) = (2 * m + n : ℕ) := mul_right_cancel₀ hfb.ne' k2
          have : j = 2 * m + n := by exact_mod_cast k3
          omega
        refine ⟨.inr gl, .inr gr, fun e => ?_, fun e => ?_⟩
        · rw [show a.1.right.z.state = ⟨0, 0, 0⟩ from gr]
          exact .rest hm (hbig (by rw [e]; simp))
        · rw [show a.1.left.z.state = ⟨0, 0, 0⟩ from gl]
          exact .rest hm (hbig (by rw [e]; simp))
    obtain ⟨p1, p2, p3, p4⟩ := hpre
    have hc : (((j - 1 : ℕ) : K)) = j - 1 := by rw [Nat.cast_sub (by omega)]; simp
    -- the feet after the update
    intro f' i hf' hi
    obtain rfl : f' = f := by rw [e9, h1] at hf'; exact (Option.some.inj hf').symm
    obtain rfl : i = j - 1 := by
      rw [e7, hR] at hi
      have : (i : K) * fb = ((j - 1 : ℕ) : K) * fb := by rw [hc, ← hi]; ring
      exact_mod_cast mul_right_cancel₀ hfb.ne' this
    have hfly : ∀ t, f'.type = t → t ≠ .DS → f'.duration - s'.T = 2 * m * fb := by
      intro t e ht
      rw [hdur (e ▸ ht), h3, iS, iT, hF]
    have hin : ∀ t, f'.type = t → t ≠ .DS → (InFlight s' f' ↔ j ≤ 2 * m) := by
      intro t e ht
      unfold InFlight
      rw [hfly t e ht, hR]
      constructor
      · rintro ⟨-, c⟩
        by_contra c2
        have c3 : ((2 * m : K) + 1) ≤ j := by exact_mod_cast Nat.lt_of_not_le c2
        have c4 := mul_le_mul_of_nonneg_right c3 hfb.le
        have := hg.pos
        linarith
      · intro c
        refine ⟨e ▸ ht, ?_⟩
        have c3 : (j : K) ≤ 2 * m := by exact_mod_cast c
        have c4 := mul_le_mul_of_nonneg_right c3 hfb.le
        linarith
    have hshift : ∀ {h : K} {z : State3 K}, ¬ j ≤ 2 * m → Swinging h fb m j z → Swinging h fb m (j - 1) z := by
      intro h z c s
      rw [s.before (by omega)]
      exact .rest hm (by omega)
    rcases Sup.updateFeet_cases h1 hf with ⟨n1, q1, q2⟩ | ⟨n1, -, -, ⟨n2, q1, q2⟩ | ⟨n2, q1, q2⟩⟩
    · rw [q1, q2, h6, h7]
      refine ⟨p1, p2, fun e => hshift ?_ (p3 e), fun e => hshift ?_ (p4 e)⟩
      · rw [← hin _ e (by simp)]; exact n1
      · rw [← hin _ e (by simp)]; exact n1
    · rw [q1, h6]
      rw [h7, hfly _ n2 (by simp), hR] at q2
      obtain ⟨w1, w2⟩ := (p3 n2).fly hI.right hg.pos hj ((hin _ n2 (by simp)).1 n1) q2
      refine ⟨p1, .inl n2, fun _ => ?_, fun e => by rw [n2] at e; simp at e⟩
      rw [w1]; exact w2
    · rw [q1, h7]
      rw [h6, hfly _ n2 (by simp), hR] at q2
      obtain ⟨w1, w2⟩ := (p4 n2).fly hI.left hg.pos hj ((hin _ n2 (by simp)).1 n1) q2
      refine ⟨.inl n2, p2, fun e => by rw [n2] at e; simp at e, fun _ => ?_⟩
      rw [w1]; exact w2

end

end MPC
