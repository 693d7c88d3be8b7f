import Verif.Lemmas.LipFresh
import Verif.Lemmas.Eval
import Mathlib.Data.Rat.Floor

/-! # The dynamics served by `LIPModel` (C56) -/

set_option linter.unusedSectionVars false

namespace MPC

open Finset

variable {K : Type} [Field K] [LinearOrder K] [IsStrictOrderedRing K] [FloorRing K]

/-- The model `l` is obtained from a new one that computes its dynamics itself, by the calls `cs`. -/
def LipReaches (N : ℕ) (T : K) (cs : List (LipCall K)) (l : Lip K) : Prop :=
  ∃ l₀, Lip.make N T true = .ok l₀ ∧ l₀.run cs = .ok l

/-- `d` predicts, for every vector `X` of jerks and every state `s`, the values `f (motion) i`. -/
def Predicts (d : LinearDynamic K) (N : ℕ) (S T : K) (f : State3 K → K) : Prop :=
  ∀ (X : Vec K) (s : State3 K), X.size = N → ∃ y, d.predict X s.toVec = .ok y ∧ y.size = N ∧
    ∀ i < N, y.get i = f (Spec.jerkTrajectory S T s X.get i)

theorem pos_predicts (S T : K) (N : ℕ) : Predicts (posDyn S T N) N S T State3.p := by
  intro X s hX
  refine ⟨_, predict_ok hX.symm rfl rfl rfl, rfl, fun i hi => ?_⟩
  rw [← row_pos S T N s X.get hi]
  simp [posDyn, hX, State3.toVec]

theorem vel_predicts (S T : K) (N : ℕ) : Predicts (velDyn S T N) N S T State3.v := by
  intro X s hX
  refine ⟨_, predict_ok hX.symm rfl rfl rfl, rfl, fun i hi => ?_⟩
  rw [← row_vel S T N s X.get hi]
  simp [velDyn, hX, State3.toVec]

theorem acc_predicts (S T : K) (N : ℕ) : Predicts (accDyn S T N) N S T State3.a := by
  intro X s hX
  refine ⟨_, predict_ok hX.symm rfl rfl rfl, rfl, fun i hi => ?_⟩
  rw [← row_acc S T N s X.get hi]
  simp [accDyn, hX, State3.toVec]

theorem cop_predicts (S T h gx gz m : K) (N : ℕ) :
    Predicts (copDyn S T N h gx gz m) N S T (Spec.copOf m h gx gz) := by
  intro X s hX
  refine ⟨_, predict_ok hX.symm rfl rfl rfl, rfl, fun i hi => ?_⟩
  rw [← row_cop S T h gx gz m N s X.get hi]
  simp [copDyn, hX, State3.toVec]

/-- **C56.** Whatever the history of calls, the dynamics number `i` served by the model predict the
position, velocity, acceleration and CoP of the motion for the current number of samples, sampling
period, feedback period, height, gravity and masses: the first interval lasts `i + 1` feedback periods,
the others one sampling period. Every one of the `⌊(T + EPS) / feedback period⌋` first intervals that
fit in a sample is served. -/
theorem C56_served_dynamics (N₀ : ℕ) (T₀ : K) (cs : List (LipCall K)) (l : Lip K)
    (hr : LipReaches N₀ T₀ cs l) (i : ℕ) :
    (∀ d, l.dyn l.copX i = .ok d → Predicts d l.N (((i + 1 : ℕ) : K) * l.fb) l.T
      (Spec.copOf (l.mass / l.totalMass) l.comHeight l.gx l.gz)) ∧
    (∀ d, l.dyn l.copY i = .ok d → Predicts d l.N (((i + 1 : ℕ) : K) * l.fb) l.T
      (Spec.copOf (l.mass / l.totalMass) l.comHeight l.gy l.gz)) ∧
    (∀ d, l.dyn l.pos i = .ok d → Predicts d l.N (((i + 1 : ℕ) : K) * l.fb) l.T State3.p) ∧
    (∀ d, l.dyn l.vel i = .ok d → Predicts d l.N (((i + 1 : ℕ) : K) * l.fb) l.T State3.v) ∧
    (∀ d, l.dyn l.acc i = .ok d → Predicts d l.N (((i + 1 : ℕ) : K) * l.fb) l.T State3.a) ∧
    (0 < l.fb → ((i + 1 : ℕ) : K) * l.fb ≤ l.T + EPS →
      ∀ v, v = l.copX ∨ v = l.copY ∨ v = l.pos ∨ v = l.vel ∨ v = l.acc → ∃ d, l.dyn v i = .ok d) := by
  obtain ⟨l₀, h0, hr⟩ := hr
  have hf := Lip.run_fresh (Lip.make_fresh h0) hr
  refine ⟨fun d hd => ?_, fun d hd => ?_, fun d hd => ?_, fun d hd => ?_, fun d hd => ?_, ?_⟩
  · obtain ⟨k, hk, hk', rfl⟩ := Lip.dyn_ok hd
    obtain rfl : i = k := by exact_mod_cast hk
    rw [hf.copX i hk']
    exact cop_predicts _ _ _ _ _ _ _
  · obtain ⟨k, hk, hk', rfl⟩ := Lip.dyn_ok hd
    obtain rfl : i = k := by exact_mod_cast hk
    rw [hf.copY i hk']
    exact cop_predicts _ _ _ _ _ _ _
  · obtain ⟨k, hk, hk', rfl⟩ := Lip.dyn_ok hd
    obtain rfl : i = k := by exact_mod_cast hk
    rw [hf.posd i hk']
    exact pos_predicts _ _ _
  · obtain ⟨k, hk, hk', rfl⟩ := Lip.dyn_ok hd
    obtain rfl : i = k := by exact_mod_cast hk
    rw [hf.vel i hk']
    exact vel_predicts _ _ _
  · obtain ⟨k, hk, hk', rfl⟩ := Lip.dyn_ok hd
    obtain rfl : i = k := by exact_mod_cast hk
    rw [hf.acc i hk']
    exact acc_predicts _ _ _
  · intro hfb hi v hv
    have hnb : i + 1 ≤ l.nbFb := by
      have e := hf.nb
      have h1 : ((i + 1 : ℕ) : K) ≤ (l.T + EPS) / l.fb := (le_div_iff₀ hfb).2 hi
      have h2 : (0 : K) ≤ (l.T + EPS) / l.fb := le_trans (by positivity) h1
      unfold truncInt at e
      rw [if_pos h2] at e
      have : ((i + 1 : ℕ) : ℤ) ≤ ⌊(l.T + EPS) / l.fb⌋ := Int.le_floor.2 (by exact_mod_cast h1)
      omega
    have hs : v.size = l.nbFb := by
      obtain ⟨a, b, c, d, e⟩ := hf.sizes
      rcases hv with rfl | rfl | rfl | rfl | rfl <;> assumption
    refine ⟨v.get i, ?_⟩
    unfold Lip.dyn Vec.at?
    have h1 : ((i : ℤ) < l.nbFb) := by omega
    simp [require, requireIndex, h1, hs, show i < l.nbFb by omega]

/-- A user changes every parameter; the two dynamics are served for the new ones. -/
example : ∃ l : Lip ℚ, LipReaches 5 (1 / 10) [.setMass (1 / 2), .setSamplingPeriod (1 / 5),
      .setFeedbackPeriod (1 / 10), .setComHeight (4 / 5), .setGravity (1 / 10) 0 10, .setNbSamples 3,
      .setTotalMass 2, .setStateX ⟨3, fun _ => 1⟩, .updateStateX 1 (1 / 10)] l ∧
    0 < l.fb ∧ ((1 + 1 : ℕ) : ℚ) * l.fb ≤ l.T + EPS ∧ l.N = 3 ∧ l.mass / l.totalMass = 1 / 4 := by
  have h : okAnd (fun l => decide (0 < l.fb ∧ ((1 + 1 : ℕ) : ℚ) * l.fb ≤ l.T + EPS ∧ l.N = 3 ∧
      l.mass / l.totalMass = 1 / 4)) ((Lip.make 5 (1 / 10 : ℚ) true) >>= fun l => l.run
      [.setMass (1 / 2), .setSamplingPeriod (1 / 5),
      .setFeedbackPeriod (1 / 10), .setComHeight (4 / 5), .setGravity (1 / 10) 0 10, .setNbSamples 3,
      .setTotalMass 2, .setStateX ⟨3, fun _ => 1⟩, .updateStateX 1 (1 / 10)]) = true := by
    set_option maxRecDepth 100000 in decide +kernel
  obtain ⟨l, h, hc⟩ := okAnd_true h
  obtain ⟨l₀, h0, h⟩ := bind_eq_ok.1 h
  exact ⟨l, ⟨l₀, h0, h⟩, of_decide_eq_true hc⟩

end MPC
