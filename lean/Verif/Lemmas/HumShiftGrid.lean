import Verif.Lemmas.HumShiftCall
import Verif.Props.HumCycle

/-! # Histories on a grid: the footsteps of the next single support are planned, all samples are supported -/

set_option linter.unusedSectionVars false

namespace MPC

open Finset Spec

variable {K : Type} [Field K] [LinearOrder K] [IsStrictOrderedRing K]

/-- The second phase ends inside of the horizon. -/
theorem sched_two {T : K} {dur : ℕ → K} {N : ℕ} (hT : 0 < T) (h0 : EPS ≤ dur 0) (h1 : dur 0 ≤ T) (h2 : 0 < dur 1)
    (h3 : dur 1 + T ≤ N * T) : 2 ≤ (sched T dur N).1 := by
  have hE : (0 : K) < EPS := EPS_pos
  have hN : (1 : K) < N := by nlinarith
  have hN1 : 1 < N := by exact_mod_cast hN
  have s1 : 1 ≤ (sched T dur N).1 := (sched_pos_iff hT.le h0 N).2 (by nlinarith)
  by_contra hc
  have e : (sched T dur N).1 = 1 := by omega
  have f1 : 1 ≤ (sched T dur 1).1 := (sched_pos_iff hT.le h0 1).2 (by push_cast; linarith)
  have hb : schedStart T dur N 1 ≤ 1 := by
    by_contra hb
    have := (lt_schedStart (T := T) (dur := dur) hN1.le).1 (not_le.1 hb)
    omega
  have h4 := sched_running h0 le_rfl (show schedStart T dur N 1 < N by omega) e
  have h5 : ((N - 1 : ℕ) : K) ≤ ((N - schedStart T dur N 1 : ℕ) : K) := by exact_mod_cast (by omega)
  rw [Nat.cast_sub hN1.le, Nat.cast_one] at h5
  nlinarith

/-- What is planned when the current phase is over and a single support follows. -/
def NextPlanned (s : Sup K) : Prop :=
  ∀ g, s.timeline[1]? = some g → g.type ≠ .DS → s.ttnp < EPS →
    1 ≤ s.M ∧ ((∃ f, s.timeline[0]? = some f ∧ f.type ≠ .DS) → 2 ≤ s.M)

theorem GInv.nextPlanned {fb : K} {a b : Sup K × Vec K} {f : Phase K} {mv : Bool} {R : K} (h : GInv fb a f mv R)
    (hg : Grid fb a.1) (hroom : a.1.stepPeriod + a.1.T ≤ a.1.N * a.1.T) (hc : Cycle fb a b) : NextPlanned b.1 := by
  have hE : (0 : K) < EPS := EPS_pos
  have hfb0 : 0 < fb := hE.trans hg.pos
  obtain ⟨s', v', hu, hb, hf⟩ := hc
  obtain ⟨s₁, v₁, f₁, m, hU⟩ := h.hist.update hu
  obtain ⟨⟨j, hj, hR⟩, hcur⟩ := h.running hg hU.running
  obtain ⟨e1, e2, e3, e4, e5, e6, e7, e8, e9, -⟩ := Sup.updateFeet_frame hf
  have hsame := hU.preview.same
  intro g hg1 hg2 hlt
  have hT : b.1.ttnp = ((j - 1 : ℕ) : K) * fb := by
    rw [e7, hsame.ttnp, hR, Nat.cast_sub hj]; push_cast; ring
  rw [hT, grid_lt hg.pos] at hlt
  have hj1 : j = 1 := by omega
  obtain ⟨n, hn, hTn⟩ := hg.T
  have hn1 : (1 : K) ≤ n := by exact_mod_cast hn
  have hTpos : 0 < a.1.T := lt_of_lt_of_le hE h.hist.T
  rw [e9, hU.preview.tl] at hg1
  rw [List.getElem?_map] at hg1
  have hlen : 1 < (List.range ((s₁.sched f₁.type s₁.N).1 + 1)).length := by
    by_contra hc
    rw [List.getElem?_eq_none (not_lt.1 hc)] at hg1
    cases hg1
  rw [List.getElem?_range (by simpa using hlen)] at hg1
  simp only [Option.map_some, Option.some.injEq] at hg1
  subst hg1
  have hss : s₁.typeAt f₁.type 1 ≠ .DS := hg2
  have hmv : s₁.move = true := by
    by_contra hc
    rw [Bool.not_eq_true] at hc
    apply hss
    show s₁.nextType f₁.type = .DS
    unfold Sup.nextType
    rw [hc]
    cases f₁.type <;> rfl
  have hper : s₁.durAt f₁.type 1 = a.1.stepPeriod := by
    show s₁.period (s₁.typeAt f₁.type 1) = _
    cases ht : s₁.typeAt f₁.type 1 with
    | DS => exact absurd ht hss
    | leftSS => exact hU.step
    | rightSS => exact hU.step
  have h2 : 2 ≤ (s₁.sched f₁.type s₁.N).1 := by
    refine sched_two (dur := s₁.durAt f₁.type) (T := s₁.T) (by rw [hU.T]; exact hTpos) hU.pos ?_ ?_ ?_
    · show s₁.ttnp ≤ _
      rw [hU.T, hR, hj1, hTn]
      push_cast
      nlinarith
    · rw [hper]; exact lt_of_lt_of_le hE h.hist.step
    · rw [hper, hU.T, hU.N]; exact hroom
  obtain ⟨k, hk⟩ : ∃ k, (s₁.sched f₁.type s₁.N).1 = k + 2 := ⟨_, (Nat.sub_add_cancel h2).symm⟩
  have hM : b.1.M = s₁.ssCount f₁.type (k + 2) := by rw [e4, hU.preview.M, hk]
  rw [hM]
  by_cases hd : f₁.type = .DS
  · rw [Sup.ssCount_succ_DS hd, hmv]
    refine ⟨by simp, ?_⟩
    rintro ⟨f2, hf2, hf3⟩
    rw [e9, hU.front'] at hf2
    cases hf2
    exact absurd hd hf3
  · rw [Sup.ssCount_succ_SS hd, hmv]
    exact ⟨by simp, fun _ => by simp⟩

/-- A step and a sampling period fit in the horizon. -/
theorem Reach.planned {fb : K} {a : Sup K × Vec K} (h : Reach (· = fb) CanStop a) (hg : Grid fb a.1)
    (hroom : a.1.stepPeriod + a.1.T ≤ a.1.N * a.1.T) : StepPlanned a.1 a.2 := by
  have hE : (0 : K) < EPS := EPS_pos
  have hfb0 : 0 ≤ fb := (hE.trans hg.pos).le
  have key : NextPlanned a.1 := by
    induction h with
    | start h =>
      intro g hg1
      rw [h.timeline] at hg1
      cases hg1
    | cycle h0 h1 h2 ih =>
      subst h1
      obtain ⟨f, mv, R, hI⟩ := h0.hinv (by rintro x rfl; exact hfb0) (fun _ _ h => h)
      obtain ⟨e1, e2, e3, e4, -⟩ := h2.params hI
      have hg' := hg.congr e1.symm e2.symm e3.symm e4.symm
      obtain ⟨f, mv, R, ih⟩ := h0.ginv hfb0 hg'
      exact ih.nextPlanned hg' (by rw [← e1, ← e2, ← e3]; exact hroom) h2
    | setMove h0 h1 ih => exact ih (hg.congr rfl rfl rfl rfl) hroom
  obtain ⟨f, mv, R, hI⟩ := h.ginv hfb0 hg
  have hv := hI.hist.var
  intro g R' hr hd
  rcases hr with ⟨h1, h2, -⟩ | ⟨h1, h2, -⟩
  · rw [hI.hist.front] at h2
    cases h2
    have := hI.has hd
    exact ⟨by omega, fun hs => absurd hs.1 (not_lt.2 h1)⟩
  · obtain ⟨k1, k2⟩ := key g h2 hd h1
    refine ⟨by omega, fun hs => ?_⟩
    have := k2 hs.2
    omega

theorem RowIsUnit.sum {s : Sup K} {r q : ℕ} (h : RowIsUnit s r q) :
    s.V0.get r 0 + ∑ c ∈ range s.V.cols, s.V.get r c = 1 := by
  obtain ⟨h1, h2, h3⟩ := h
  rw [h2, sum_congr rfl fun c hc => h3 c (mem_range.1 hc)]
  cases q with
  | zero => simp
  | succ q =>
    rw [if_neg (by omega), zero_add, sum_eq_single q]
    · simp
    · intro c _ hc; rw [if_neg (by omega)]
    · intro hq; exact absurd (mem_range.2 (by omega)) hq

theorem Reach.covered [Archimedean K] {fb : K} {a : Sup K × Vec K} (h : Reach (· = fb) CanStop a) (hg : Grid fb a.1)
    {s' : Sup K} {v' : Vec K} (e : a.1.updateTimeline a.2 fb = .ok (s', v')) : Covered s' := by
  obtain ⟨s2, v2, b, f, R, h1, -, -, -, -, -, h5, -, -, h8⟩ := C28_selection_grid fb a h hg
  obtain ⟨rfl, rfl⟩ := Prod.mk.inj (Except.ok.inj (e.symm.trans h1))
  have hN : s'.N = a.1.N := by
    obtain ⟨f, -, -, e1, -⟩ := Sup.updateTimeline_running e
    exact e1
  intro i hi
  obtain ⟨k, -, -, h9⟩ := h8 i (by omega)
  rw [← h5]
  exact h9.sum

variable [FloorRing K]

theorem begin_sup {w w' : HWalkgen K} {fb : K} (hb : w.begin fb = .ok w') :
    ∃ X, w.sup.updateTimeline w.X fb = .ok (w'.sup, X) := by
  unfold HWalkgen.begin at hb
  obtain ⟨⟨s, X⟩, h1, hb⟩ := bind_eq_ok.1 hb
  dsimp only at hb
  have key : ∃ l, HWalkgen.firstGuess { w with sup := s, X := X, lip := l } = .ok w' := by
    split at hb
    · obtain ⟨l, h2, hb⟩ := bind_eq_ok.1 hb
      obtain ⟨_, -, hb⟩ := bind_eq_ok.1 hb
      obtain ⟨_, -, hb⟩ := bind_eq_ok.1 hb
      exact ⟨l, hb⟩
    · obtain ⟨l, h2, hb⟩ := bind_eq_ok.1 hb
      obtain ⟨_, -, hb⟩ := bind_eq_ok.1 hb
      obtain ⟨_, -, hb⟩ := bind_eq_ok.1 hb
      exact ⟨l, hb⟩
  obtain ⟨l, hb⟩ := key
  have hw : w'.sup = s := by
    unfold HWalkgen.firstGuess at hb
    split at hb
    · simp only [bind_eq_ok] at hb
      obtain ⟨_, -, _, -, _, -, _, -, _, -, _, -, _, -, _, -, _, -, _, -, _, -, _, -, hb⟩ := hb
      obtain rfl := Except.ok.inj hb
      rfl
    · obtain rfl := Except.ok.inj hb
      rfl
  exact ⟨X, by rw [h1, hw]⟩

theorem cycle_inv {hull : Vec (Pt K) → Res (Polygon K)} {o : Oracle K} {w w2 : HWalkgen K} {fb : K} {b : Bool}
    (hi : HumInv w) (hs : w.solve hull o fb = .ok (b, w2)) : Cycle fb (w.sup, w.X) (w2.sup, w2.X) := by
  obtain ⟨w', idx, qp, t, lip, hp, -, hz, hz', hX, ht, rfl, -, -, hx, hy, hu⟩ := hsolve_ok hs
  obtain ⟨hI, hsh, -, -⟩ := hi.prepare hp
  obtain ⟨X, h1, h2, -⟩ := hprepare_timeline hp
  refine ⟨w'.sup, X, h1, hz.trans h2, ?_⟩
  obtain ⟨hX', nb, dx, dy, Bx, By, px, py, hD⟩ := convert_data (w := { w' with X := w2.X }) hI.fresh ht
  obtain ⟨t', ht', -, -, -, g3⟩ := convert_ok hD hsh hI.N hX'
  have e := Except.ok.inj (ht.symm.trans ht')
  rw [← hu]
  congr 2
  funext i
  rw [e]
  exact (g3 _ (by show 2 * w'.lip.N ≤ 2 * w'.sup.N + i; rw [hI.N]; omega)).symm

/-- Runs of a generator: invariant, histories of the supervisor and parameters. -/
theorem runs_inv {hull : Vec (Pt K) → Res (Polygon K)} {o : Oracle K} {w w1 : HWalkgen K} {fb : K} (hfb : 0 < fb)
    (hi : HumInv w) (h0 : Ready (w.sup, w.X)) (h : HumRuns hull o (· = fb) CanStop w w1) :
    HumInv w1 ∧ Reach (· = fb) CanStop (w1.sup, w1.X) ∧ w1.sup.N = w.sup.N ∧ w1.sup.T = w.sup.T ∧
      w1.sup.stepPeriod = w.sup.stepPeriod ∧ w1.sup.dsPeriod = w.sup.dsPeriod := by
  induction h with
  | refl => exact ⟨hi, .start h0, rfl, rfl, rfl, rfl⟩
  | call h1 hc e ih =>
    rename_i w₁ w₂ c b
    obtain ⟨hi', hre, i1, i2, i3, i4⟩ := ih
    refine ⟨hi'.step e, ?_⟩
    cases c with
    | solve p =>
      have hp : p = fb := hc
      subst hp
      obtain ⟨f, mv, R, hI⟩ := hre.hinv (by rintro x rfl; exact hfb.le) (fun _ _ h => h)
      have hcy := cycle_inv hi' e
      obtain ⟨e1, e2, e3, e4, -⟩ := hcy.params hI
      exact ⟨.cycle hre rfl hcy, e1.trans i1, e2.trans i2, e3.trans i3, e4.trans i4⟩
    | setMove m =>
      obtain ⟨ds, -, e⟩ := bind_eq_ok.1 e
      obtain ⟨rfl, rfl⟩ := Prod.mk.inj (Except.ok.inj e)
      exact ⟨.setMove hre hc, i1, i2, i3, i4⟩
    | setVelRef v =>
      obtain ⟨_, -, e⟩ := bind_eq_ok.1 e
      obtain ⟨rfl, rfl⟩ := Prod.mk.inj (Except.ok.inj e)
      exact ⟨hre, i1, i2, i3, i4⟩
    | setAngularVelRef v =>
      obtain ⟨_, -, e⟩ := bind_eq_ok.1 e
      obtain ⟨rfl, rfl⟩ := Prod.mk.inj (Except.ok.inj e)
      exact ⟨hre, i1, i2, i3, i4⟩
    | setComState ax v =>
      cases ax
      · obtain ⟨_, -, e⟩ := bind_eq_ok.1 e
        obtain ⟨rfl, rfl⟩ := Prod.mk.inj (Except.ok.inj e)
        exact ⟨hre, i1, i2, i3, i4⟩
      · obtain ⟨_, -, e⟩ := bind_eq_ok.1 e
        obtain ⟨rfl, rfl⟩ := Prod.mk.inj (Except.ok.inj e)
        exact ⟨hre, i1, i2, i3, i4⟩
      · obtain ⟨_, -, e⟩ := bind_eq_ok.1 e
        obtain ⟨_, -, e⟩ := bind_eq_ok.1 e
        obtain ⟨_, -, e⟩ := bind_eq_ok.1 e
        obtain ⟨_, -, e⟩ := bind_eq_ok.1 e
        obtain ⟨rfl, rfl⟩ := Prod.mk.inj (Except.ok.inj e)
        exact ⟨hre, i1, i2, i3, i4⟩
    | setWeightings v =>
      obtain ⟨_, -, e⟩ := bind_eq_ok.1 e
      obtain ⟨_, -, e⟩ := bind_eq_ok.1 e
      obtain ⟨_, -, e⟩ := bind_eq_ok.1 e
      obtain ⟨rfl, rfl⟩ := Prod.mk.inj (Except.ok.inj e)
      exact ⟨hre, i1, i2, i3, i4⟩
    | setConfig c1 c2 =>
      obtain ⟨rfl, rfl⟩ := Prod.mk.inj (Except.ok.inj e)
      exact ⟨hre, i1, i2, i3, i4⟩
    | _ => exact hc.elim

end MPC
