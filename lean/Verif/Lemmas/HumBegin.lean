import Verif.Spec.HumSafe
import Verif.Lemmas.HumSolveTotal
import Verif.Lemmas.ZebModel
import Verif.Props.Phases
import Verif.Props.Dynamics

/-! # Preparation of the QP on a grid: nothing faults -/

set_option linter.unusedSectionVars false

namespace MPC

open Finset

variable {K : Type} [Field K] [LinearOrder K] [IsStrictOrderedRing K] [FloorRing K]

theorem truncInt_grid {fb T : K} {n : ℕ} (hfb : EPS < fb) (hT : T = n * fb) : truncInt ((T + EPS) / fb) = n := by
  have hE : (0 : K) < EPS := EPS_pos
  have h0 : 0 < fb := hE.trans hfb
  have h7 : 0 ≤ (T + EPS) / fb := by rw [hT]; positivity
  unfold truncInt
  rw [if_pos h7, hT, Int.floor_eq_iff]
  constructor
  · rw [le_div_iff₀ h0]; push_cast; linarith
  · rw [div_lt_iff₀ h0]; push_cast; nlinarith

/-- The CoP dynamics have a stored inverse. -/
theorem copDyn_regular {S T : K} {N : ℕ} {h gx gz : K} (hN : 0 < N) (hS : 0 < S) (hT : 0 < T) (hg : EPS < |gz|)
    (h1 : S ^ 2 * gz ≠ 6 * h) (h2 : T ^ 2 * gz ≠ 6 * h) : ∃ B, (copDyn S T N h gx gz ((1 : K) / 1)).Uinv = some B := by
  obtain ⟨-, -, -, hc⟩ := C09_stored_inverse_partial S T hS hT N hN
  have hE : (EPS : K) < 1 := by unfold EPS; norm_num
  obtain ⟨d, hd, B, Bs, -, hB, -⟩ := hc h gx gz 1 1 hg le_rfl hE zero_lt_one h1 h2
  obtain ⟨-, -, -, -, -, -, -, rfl⟩ := computeCopDynamic_eq_ok hd
  exact ⟨Bs, hB⟩

/-- What the preparation needs from the generator after lines 319-356 of `solve`. -/
structure Begun (hull : Vec (Pt K) → Res (Polygon K)) (fb : K) (w w' : HWalkgen K) : Prop where
  inv : HumInv w'
  shaped : w'.sup.Shaped
  X : w'.X.size = 2 * w'.lip.N + 2 * w'.sup.M
  M : w'.sup.M ≤ w'.lip.N
  data : ∃ nb dx dy dv Bx By px py, HumData w'.lip w'.sup nb dx dy Bx By px py ∧
    w'.lip.dyn w'.lip.vel nb = .ok dv ∧ VelDyn w'.lip.N dv ∧ dv.S.rows = w'.lip.N ∧ dv.S.cols = 3
  polygons : HumPolygons hull w'
  feet : ∀ sv : Vec K, sv.size = 2 * w'.sup.M → ∃ s'', w'.sup.updateFeetStates sv fb = .ok s''
  fb : w'.lip.fb = fb
  comHeight : w'.lip.comHeight = w.lip.comHeight
  cops : w'.sup.maxNbCop = w.sup.maxNbCop ∧ w'.sup.maxNbKin = w.sup.maxNbKin
  frame : ∃ s X l b, w' = { w with sup := s, X := X, lip := l, first := b }
  N : w'.lip.N = w.lip.N

theorem lip_period {w : HWalkgen K} {fb : K} (hi : HumInv w) (hu : HumUsable fb w) (n : ℕ) (hn : 0 < n)
    (hT : w.lip.T = n * fb) :
    ∃ l, (if EPS < |fb - w.lip.fb| then w.lip.setFeedbackPeriod fb else pure w.lip) = .ok l ∧ l.fb = fb ∧
      l.comHeight = w.lip.comHeight ∧ l.N = w.lip.N ∧ l.T = w.lip.T := by
  have hE : (0 : K) < EPS := EPS_pos
  have h0 : 0 < fb := hE.trans hu.grid.pos
  have hT0 : 0 < w.lip.T := by
    rw [hT]
    have : (0 : K) < n := by exact_mod_cast hn
    positivity
  have hg : EPS < |w.lip.gz| := by
    rw [hi.gz]; unfold EPS GRAVITY_NORM; rw [abs_of_pos (by norm_num)]; norm_num
  split
  · obtain ⟨l, hl⟩ := Lip.refresh_ok (l := { w.lip with fb := fb }) hi.fresh.auto hi.fresh.N h0 hT0 hg
      (by dsimp only; rw [hi.mass, hi.total]) (by dsimp only; rw [hi.total]; unfold EPS; norm_num)
      (by dsimp only; rw [hi.mass]; exact zero_le_one)
    refine ⟨l, ?_, ?_⟩
    · unfold Lip.setFeedbackPeriod
      rw [require_pos h0.le, ok_bind, hl]
    · obtain ⟨-, p⟩ := Lip.refresh_fresh (l := { w.lip with fb := fb }) hi.fresh.auto hl
      exact ⟨p.2.2.2.1, p.2.2.2.2.2.2.2.1, p.2.1, p.2.2.1⟩
  · rename_i hc
    exact ⟨w.lip, rfl, hu.period.resolve_right hc, rfl, rfl, rfl⟩

theorem begin_ok [Archimedean K] {hull : Vec (Pt K) → Res (Polygon K)} {w : HWalkgen K} {fb : K} (hi : HumInv w)
    (hr : Reach (· = fb) CanStop (w.sup, w.X)) (hu : HumUsable fb w)
    (hh : w.withCop = true → ∀ s X p, w.sup.updateTimeline w.X fb = .ok (s, X) → s.dsCopPoints = .ok p →
      HullWorks hull p) :
    ∃ w', w.begin fb = .ok w' ∧ Begun hull fb w w' := by
  have hE : (0 : K) < EPS := EPS_pos
  have h0 : 0 < fb := hE.trans hu.grid.pos
  obtain ⟨n, hn, hT⟩ := hu.grid.T
  have hT' : w.lip.T = n * fb := by rw [← hi.T]; exact hT
  obtain ⟨f, mv, R, hI⟩ := hr.ginv h0.le hu.grid
  obtain ⟨s, X, b, f₀, R₀, hup, -, hcov, -, -, -, -, -, hidx, hrow⟩ :=
    C28_selection_grid fb (w.sup, w.X) hr hu.grid
  obtain ⟨l, hl, l1, l2, l3, l4⟩ := lip_period hi hu n hn hT'
  obtain ⟨s₁, v₁, f₁, m, hU⟩ := hI.hist.update hup
  have hsame := hU.preview.same
  have hsN : s.N = w.lip.N := by rw [hsame.N, hU.N]; exact hi.N
  have hXs : X.size = 2 * w.lip.N + 2 * s.M := by rw [hU.size, hsN]
  obtain ⟨w', hg, hgX, X', b', hw'⟩ := firstGuessE (w := { w with sup := s, X := X, lip := l })
    (by dsimp only; rw [l3]; exact hsN) (by dsimp only; rw [l3, hXs]; omega)
  have hb : w.begin fb = .ok w' := by
    unfold HWalkgen.begin
    rw [hup, ok_bind]
    split at hl
    all_goals
      rename_i hc
      dsimp only
      first | rw [if_pos hc] | rw [if_neg hc]
      rw [hl, ok_bind, require_pos h0, ok_bind, require_pos (by rw [l3]; exact hsN), ok_bind]
      exact hg
  obtain ⟨hi', hsh, -, -⟩ := hi.begin hb
  have es : w'.sup = s := by rw [hw']
  have el : w'.lip = l := by rw [hw']
  have hM : s.M ≤ w.lip.N := by
    have := (hU.preview.steps hU.pos).2
    rw [hU.N] at this
    exact this.trans hi.N.le
  obtain ⟨i, c, hnc, hc1, hcn, -⟩ := C34_calls_partial (w.sup, w.X) fb hr hu.grid n hT s X hup
  have hnb : s.nb = .ok ((c - 1 : ℕ) : ℤ) := by
    unfold Sup.nb
    rw [hnc, ok_bind]
    show Except.ok _ = _
    congr 1
    omega
  have hfr := hi'.fresh
  rw [el] at hfr
  have hnF : l.nbFb = n := by
    have h1 := hfr.nb
    rw [l1, l4, truncInt_grid hu.grid.pos hT'] at h1
    exact_mod_cast h1
  have hlt : c - 1 < l.nbFb := by omega
  have hdyn : ∀ v : Vec (LinearDynamic K), v.size = l.nbFb → l.dyn v ((c - 1 : ℕ) : ℤ) = .ok (v.get (c - 1)) := by
    intro v hv
    unfold Lip.dyn
    rw [require_pos (by exact_mod_cast hlt), ok_bind, requireIndex_pos (by positivity), ok_bind, Int.toNat_natCast]
    exact vecAtE (by omega)
  obtain ⟨z1, z2, z3, z4, z5⟩ := hfr.sizes
  have hS : ((c - 1 + 1 : ℕ) : K) * l.fb = c * fb := by rw [l1, Nat.sub_add_cancel hc1]
  have hcpos : (0 : K) < c := by exact_mod_cast hc1
  have hcle : (c : K) * fb ≤ w.lip.T := by
    rw [hT']
    have : (c : K) ≤ n := by exact_mod_cast hcn
    nlinarith
  have hn1 : (1 : ℕ) ≤ n := hn
  have hT0 : 0 < w.lip.T := lt_of_lt_of_le (by positivity) hcle
  have hgz : EPS < |l.gz| := by
    have := hi'.gz
    rw [el] at this
    rw [this]; unfold EPS GRAVITY_NORM; rw [abs_of_pos (by norm_num)]; norm_num
  have hgz' : l.gz = GRAVITY_NORM := by have := hi'.gz; rwa [el] at this
  have hm1 : l.mass / l.totalMass = (1 : K) / 1 := by
    have h1 := hi'.mass
    have h2 := hi'.total
    rw [el] at h1 h2
    rw [h1, h2]
  have hdx := hfr.copX (c - 1) hlt
  have hdy := hfr.copY (c - 1) hlt
  have hdv := hfr.vel (c - 1) hlt
  rw [hS, hm1, l4, l2] at hdx hdy
  rw [hS, l4] at hdv
  have reg1 : ((c : K) * fb) ^ 2 * l.gz ≠ 6 * w.lip.comHeight := by rw [hgz']; exact hu.regular c hc1 hcle
  have reg2 : w.lip.T ^ 2 * l.gz ≠ 6 * w.lip.comHeight := by
    have := hu.regular n hn1 hT'.ge
    rw [hgz']; rwa [← hT'] at this
  obtain ⟨Bx, hBx⟩ := copDyn_regular (N := l.N) (gx := l.gx) (S := (c : K) * fb) hfr.N (by positivity) hT0 hgz reg1 reg2
  obtain ⟨By, hBy⟩ := copDyn_regular (N := l.N) (gx := l.gy) (S := (c : K) * fb) hfr.N (by positivity) hT0 hgz reg1 reg2
  have hfront := hU.front'
  obtain ⟨px, py, hpx, hpy⟩ := supportE hfront
  have hleft : s.left = w.sup.left := hsame.left.trans hU.left
  have hright : s.right = w.sup.right := hsame.right.trans hU.right
  have htl := hU.preview.isTL
  refine ⟨w', hb, ⟨by have := (hi.begin hb).1; exact this, hsh, ?_, ?_, ?_, ?_, ?_, ?_, ?_, ?_, ?_, ?_⟩⟩
  · rw [hgX, es, el, l3]; exact hXs
  · rw [es, el, l3]; exact hM
  · rw [es, el]
    refine ⟨((c - 1 : ℕ) : ℤ), _, _, _, Bx, By, px, py, ⟨hnb, hdyn _ z1, hdyn _ z2, ?_, ?_, hpx, hpy⟩, hdyn _ z4, ?_⟩
    · rw [hdx]; exact copDyn_axis hBx
    · rw [hdy]; exact copDyn_axis hBy
    · rw [hdv]; exact ⟨⟨rfl, rfl, rfl⟩, rfl, rfl⟩
  · refine ⟨fun hc => ?_, fun hc => ?_⟩
    · rw [es, el, l3]
      have hc : w.withCop = true := by rw [hw'] at hc; exact hc
      obtain ⟨k1, k2⟩ := hu.cop hc
      have hmax : s.maxNbCop = w.sup.left.cop.vertices.size + w.sup.right.cop.vertices.size := by
        unfold Sup.maxNbCop; rw [hleft, hright, Nat.max_zero]
      refine copPolygonsE hfront (fun hd => ?_) (hidx.trans hi.N) (fun r hrN => ?_) (fun p hp => ?_) ?_ ?_
      · have h1 := (hU.one_le hI.hist.T (((hI.running hu.grid hU.running).2 hd).trans hu.grid.horizon)).2 hd
        have h2 := hU.preview.sv
        have h3 := hU.size
        rw [hsame.N] at h3
        omega
      · obtain ⟨k, hk, hk', -⟩ := hrow r (by rw [hi.N]; exact hrN)
        rw [hk']; exact hk.1
      · obtain ⟨g, hg1, hg2, hg3⟩ := hh hc s X p hup hp
        refine ⟨g, hg1, ⟨hg2.coefX, hg2.coefY⟩, ?_⟩
        obtain ⟨p', hp', hz⟩ := dsCopPointsE (s := s) hfront (fun hd => by
          have h1 := (hU.one_le hI.hist.T (((hI.running hu.grid hU.running).2 hd).trans hu.grid.horizon)).2 hd
          have h2 := hU.preview.sv
          have h3 := hU.size
          rw [hsame.N] at h3
          omega)
        rw [hp] at hp'
        cases hp'
        rw [hmax]
        rw [hleft, hright] at hz
        omega
      · rw [hleft, hmax]
        exact ⟨⟨k1.coefX, k1.coefY⟩, k1.rows.trans (Nat.le_add_right _ _)⟩
      · rw [hright, hmax]
        exact ⟨⟨k2.coefX, k2.coefY⟩, k2.rows.trans (Nat.le_add_left _ _)⟩
    · rw [es]
      have hc : w.withFeet = true := by rw [hw'] at hc; exact hc
      obtain ⟨k1, k2⟩ := hu.kin hc
      refine kinPolygonsE (k := (s.sched f₁.type s.N).1) (f := f₁) ⟨?_, ?_⟩ ?_ ?_ ?_
      · rw [htl.1]; omega
      · exact fun i hi => htl.get i hi
      · exact htl.M
      · refine ⟨⟨by rw [hleft]; exact k1.coefX, by rw [hleft]; exact k1.coefY⟩, ?_⟩
        unfold Sup.maxNbKin
        rw [hleft]
        exact k1.rows.trans (le_max_left _ _)
      · refine ⟨⟨by rw [hright]; exact k2.coefX, by rw [hright]; exact k2.coefY⟩, ?_⟩
        unfold Sup.maxNbKin
        rw [hright]
        exact k2.rows.trans (le_max_right _ _)
  · intro sv hsv
    rw [es] at hsv ⊢
    obtain ⟨s'', h1, -⟩ := hI.cycle_ok hu.grid hup sv hsv
    exact ⟨s'', h1⟩
  · rw [el]; exact l1
  · rw [el]; exact l2
  · rw [es]; unfold Sup.maxNbCop Sup.maxNbKin; rw [hleft, hright]; exact ⟨rfl, rfl⟩
  · exact ⟨s, X', l, b', by rw [hw']⟩
  · rw [el]; exact l3

end MPC
