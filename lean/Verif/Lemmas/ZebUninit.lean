import Verif.Lemmas.ZebStep
/-! Construction reads the contact point (C53). -/
namespace MPC
variable {K : Type} [Field K] [LinearOrder K] [IsStrictOrderedRing K]

theorem tiltAssemble_uninit (l : Lip K) (b : Base K) (u p : Mat K) (h : b.dbx = none ∨ b.dby = none) :
    Tilt.assemble l b u p = .error .unspecified := by
  unfold Tilt.assemble
  dsimp only
  rcases h with h | h
  · rw [h]; rfl
  · rw [h]
    cases b.dbx <;> rfl

theorem zMake_uninit [FloorRing K] (tr : Trig K) (mem : Option K × Option K) (hm : mem.1 = none ∨ mem.2 = none) :
    Zeb.make tr mem = .error .unspecified := by
  obtain ⟨w, e, -⟩ := zMake_ok tr (0 : K) 0
  have hg : (EPS : K) < |GRAVITY_NORM| := by
    unfold EPS GRAVITY_NORM; rw [abs_of_pos (by norm_num)]; norm_num
  have h1 : (EPS : K) < 1 := by unfold EPS; norm_num
  unfold Zeb.make at e ⊢
  obtain ⟨l, el, e⟩ := bind_eq_ok.1 e
  obtain ⟨b, eb, e⟩ := bind_eq_ok.1 e
  obtain ⟨b', eb'⟩ : ∃ b', Base.makeDefault mem = .ok b' :=
    Base.refresh_ok rfl one_pos one_pos hg zero_le_one h1 le_rfl
  have hb : b' = { b with dbx := mem.1, dby := mem.2 } := by
    rw [(Base.refresh_eq_ok rfl eb).2, (Base.refresh_eq_ok rfl eb').2]
    rfl
  subst hb
  rw [el, ok_bind, eb', ok_bind]
  dsimp only at e ⊢
  obtain ⟨w1, e1, e⟩ := bind_eq_ok.1 e
  obtain ⟨w2, e2, e⟩ := bind_eq_ok.1 e
  obtain ⟨w3, e3, e⟩ := bind_eq_ok.1 e
  obtain ⟨w4, e4, -⟩ := bind_eq_ok.1 e
  unfold Zeb.refreshVel at e1 ⊢
  obtain ⟨v, f1, e1⟩ := bind_eq_ok.1 e1
  cases e1
  unfold Zeb.refreshPos at e2 ⊢
  obtain ⟨p, f2, e2⟩ := bind_eq_ok.1 e2
  cases e2
  unfold Zeb.refreshJerk at e3 ⊢
  obtain ⟨j, f3, e3⟩ := bind_eq_ok.1 e3
  cases e3
  unfold Zeb.refreshTilt at e4 ⊢
  obtain ⟨t, f4, -⟩ := bind_eq_ok.1 e4
  have g1 : ZTrack.compute (Zeb.raw l { b with dbx := mem.1, dby := mem.2 }).base
      (Zeb.raw l { b with dbx := mem.1, dby := mem.2 }).base.vel = .ok v := f1
  rw [g1]
  simp only [ok_bind, pure_bind]
  have g2 : ZTrack.compute (Zeb.raw l { b with dbx := mem.1, dby := mem.2 }).base
      (Zeb.raw l { b with dbx := mem.1, dby := mem.2 }).base.pos = .ok p := f2
  rw [g2]
  simp only [ok_bind, pure_bind]
  have g3 : zJerkCompute (Zeb.raw l { b with dbx := mem.1, dby := mem.2 }).lip
      (Zeb.raw l { b with dbx := mem.1, dby := mem.2 }).base = .ok j := f3
  rw [g3]
  simp only [ok_bind, pure_bind]
  have g4 : Tilt.compute (Zeb.raw l { b with dbx := mem.1, dby := mem.2 }).lip
      (Zeb.raw l { b with dbx := mem.1, dby := mem.2 }).base = .error .unspecified := by
    have f5 : Tilt.compute l b = .ok t := f4
    show Tilt.compute l { b with dbx := mem.1, dby := mem.2 } = _
    unfold Tilt.compute at f5 ⊢
    obtain ⟨r0, q0, f5⟩ := bind_eq_ok.1 f5
    obtain ⟨r1, q1, f5⟩ := bind_eq_ok.1 f5
    obtain ⟨r2, q2, f5⟩ := bind_eq_ok.1 f5
    obtain ⟨r3, q3, f5⟩ := bind_eq_ok.1 f5
    obtain ⟨r4, q4, f5⟩ := bind_eq_ok.1 f5
    obtain ⟨r5, q5, -⟩ := bind_eq_ok.1 f5
    refine Eq.trans (b := (requireSame l b >>= fun _ => readInv b.tilt.Uinv >>= fun pInv => pInv.neg.mul? b.tilt.S >>=
      fun angS => ((Mat.one b.N).smul (tiltA1 l b)).sub? (pInv.smul (tiltA6 l b)) >>= fun U =>
      readInv (inverseLU U tiltEps) >>= fun uInv => (uInv.smul (tiltA6 l b)).mul? angS >>= fun psiS =>
      Tilt.assemble l { b with dbx := mem.1, dby := mem.2 } uInv psiS)) rfl ?_
    rw [q0, ok_bind, q1, ok_bind, q2, ok_bind, q3, ok_bind, q4, ok_bind, q5, ok_bind]
    exact tiltAssemble_uninit _ _ _ _ hm
  rw [g4]
  rfl
end MPC
