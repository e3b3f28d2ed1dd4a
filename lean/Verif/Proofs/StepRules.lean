import Verif.Proofs.Machine

/-! # The attempt loop of `step`, pass by pass (any scalar type) -/

set_option autoImplicit false
set_option linter.unusedSectionVars false
set_option linter.unusedSimpArgs false
set_option linter.unusedVariables false

namespace Verif

universe u v

section
variable {ν : Type v} {n q : Nat} {K : Type u} [Scalar K]

/-- The history after the coefficients have been recomputed, `phi` not yet scaled. -/
def coefRaw (s : State ν n q K) : Hist n K :=
  if s.c.kk + 1 ≥ nextNs s.c then recompute s.c.kk s.c.hh s.h else s.h

/-- The history after `set_coeffs`. -/
def coefHist (s : State ν n q K) : Hist n K :=
  { coefRaw s with
    phi := if nextNs s.c ≤ s.c.kk then scalePhi (coefRaw s).phi (coefRaw s).beta (nextNs s.c) s.c.kk
      else (coefRaw s).phi }

/-- The error coefficient `ck` returned by `set_coeffs`. -/
def errCoef (s : State ν n q K) : K :=
  Scalar.max (Scalar.abs ((coefRaw s).alpha s.c.kk + (alphaSums (coefRaw s).alpha s.c.kk).1 -
    (alphaSums (coefRaw s).alpha s.c.kk).2)) ((coefRaw s).alpha s.c.kk)

/-- The leading coefficient `cj` set by `set_coeffs`. -/
def leadCoef (s : State ν n q K) : K := -(alphaSums (coefRaw s).alpha s.c.kk).1 / s.c.hh

/-- The state after `set_coeffs`. -/
def coefState (s : State ν n q K) : State ν n q K :=
  { s with h := coefHist s, c := { s.c with ns := nextNs s.c, cjlast := s.e.cj }, e.cj := leadCoef s }

theorem setCoeffs_eq (s : State ν n q K) :
    setCoeffs s = if s.c.kk < mxordp1 then some (coefState s, errCoef s) else none := rfl

/-- The time of the attempt. -/
def newTime (s : State ν n q K) : K := (advanceTime s).e.tn

/-- The predictor of an attempt. -/
def predY (s : State ν n q K) : Vec n K := forUp (s.c.kk + 1) (fun j y => vadd y ((coefHist s).phi j)) vzero
def predYp (s : State ν n q K) : Vec n K :=
  forUp s.c.kk (fun j y => scaledAdd y ((coefHist s).gamma (j + 1)) ((coefHist s).phi (j + 1))) vzero

/-- The state at the beginning of the nonlinear solve. -/
def tried (s : State ν n q K) : State ν n q K :=
  { s with
    h := coefHist s, c := { s.c with ns := nextNs s.c, cjlast := s.e.cj }
    e := { s.e with cj := leadCoef s, tn := newTime s, yypredict := predY s, yppredict := predYp s } }

/-- The state after the nonlinear solve. -/
def solved (s : State ν n q K) (N : ν) (m : Mem n K) (ee : Vec n K) : State ν n q K :=
  { s with
    m := { m with yy := vadd s.e.yypredict ee, yp := scaledAdd s.e.yppredict s.e.cj ee }
    delta := vzero, nls := N, ee := ee }

/-- The call of the nonlinear solver made by an attempt. -/
def nlsCall (cfg : Cfg ν n q K) (s : State ν n q K) : NlOut ν n K :=
  cfg.nls.solve s.nls (tried s).e (nlsPrepare (tried s)).1 vzero s.ee s.e.ewt s.epsNewt (nlsPrepare (tried s)).2

theorem trial_eq (cfg : Cfg ν n q K) (s : State ν n q K) : trial cfg s =
    if s.c.kk < mxordp1 then
      match nlsCall cfg s with
      | .panic => .panic
      | .diverge => .diverge
      | .ret N m ee (.error e) => .nlsFail (solved (tried s) N m ee) (errCoef s) e
      | .ret N m ee (.ok ()) =>
        if cfg.constraintsSet then .panic
        else match testError cfg (solved (tried s) N m ee) (errCoef s) with
          | none => .panic
          | some (s', t) => .tested s' (errCoef s) t
    else .panic := by
  unfold trial
  rw [setCoeffs_eq]
  by_cases hk : s.c.kk < mxordp1
  · rw [if_pos hk, if_pos hk]
    have hp : predict (advanceTime (coefState s)) = some (tried s) := by
      unfold predict
      have : (advanceTime (coefState s)).c.kk = s.c.kk := rfl
      rw [this, if_pos hk]
      rfl
    simp only [hp]
    unfold nonlinearSolve nlsCall
    simp only
    have hx : ∀ (o : NlOut ν n K), cfg.nls.solve (tried s).nls (tried s).e (nlsPrepare (tried s)).1 vzero (tried s).ee (tried s).e.ewt
        (tried s).epsNewt (nlsPrepare (tried s)).2 = o → cfg.nls.solve s.nls (tried s).e (nlsPrepare (tried s)).1 vzero s.ee s.e.ewt s.epsNewt
        (nlsPrepare (tried s)).2 = o := fun o h => h
    cases ho : cfg.nls.solve (tried s).nls (tried s).e (nlsPrepare (tried s)).1 vzero (tried s).ee (tried s).e.ewt
        (tried s).epsNewt (nlsPrepare (tried s)).2 with
    | panic => rw [hx _ ho]
    | diverge => rw [hx _ ho]
    | ret N m ee r =>
      rw [hx _ ho]
      cases r with
      | error e => rfl
      | ok a =>
        simp only
        cases cfg.constraintsSet <;> rfl
  · rw [if_neg hk, if_neg hk]

/-- How the state `s'` after the nonlinear solve (and the error test, if it was made) relates to the state `s` at the
beginning of the attempt; `r` is the result of the nonlinear solver. -/
structure AfterTrial (cfg : Cfg ν n q K) (s s' : State ν n q K) (r : Except Err Unit) : Prop where
  kk : s.c.kk < mxordp1
  solve : ∃ m, nlsCall cfg s = .ret s'.nls m s'.ee r ∧
    s'.m = { m with yy := vadd (predY s) s'.ee, yp := scaledAdd (predYp s) (leadCoef s) s'.ee }
  h : s'.h = coefHist s
  c : s'.c = { s.c with ns := nextNs s.c, cjlast := s.e.cj, knew := s'.c.knew }
  knew : ∀ u, r = .ok u → s'.c.knew = s.c.kk ∨ s'.c.knew = s.c.kk - 1 ∧ 1 < s.c.kk
  e : s'.e = (tried s).e
  cnt : s'.cnt = s.cnt
  r : s'.r = s.r
  perf : s'.perf = s.perf
  tstop : s'.tstop = s.tstop
  h0u : s'.h0u = s.h0u
  tretlast : s'.tretlast = s.tretlast
  epsNewt : s'.epsNewt = s.epsNewt
  tolsf : s'.tolsf = s.tolsf
  tret : s'.tret = s.tret
  g : s'.g = s.g
  setupDone : s'.setupDone = s.setupDone

theorem testError_ok {cfg : Cfg ν n q K} {s s' : State ν n q K} {ck : K} {t : TestRes K}
    (h : testError cfg s ck = some (s', t)) :
    s' = { s with delta := s'.delta, c.knew := s'.c.knew } ∧
    (s'.c.knew = s.c.kk ∨ s'.c.knew = s.c.kk - 1 ∧ 1 < s.c.kk) ∧
    t.errk = s.h.sigma s.c.kk * wrmsNorm cfg.id s.ee s.e.ewt cfg.suppressalg ∧
    t.passed = Scalar.le (ck * wrmsNorm cfg.id s.ee s.e.ewt cfg.suppressalg) 1 := by
  unfold testError at h
  simp only at h
  split at h
  · cases h
    refine ⟨rfl, ?_, rfl, rfl⟩
    show _ = _ ∨ _ = _ ∧ _
    simp only
    split
    · rename_i h1
      split
      · simp only; split <;> simp [h1]
      · simp only; split <;> simp [h1]
    · simp
  · cases h

theorem testError_some {cfg : Cfg ν n q K} {s : State ν n q K} {ck : K} (hk : s.c.kk < mxordp1) :
    ∃ p, testError cfg s ck = some p := by
  unfold testError
  simp only [hk, if_true]
  exact ⟨_, rfl⟩

theorem trial_nlsFail {cfg : Cfg ν n q K} {s s' : State ν n q K} {ck : K} {e : Err}
    (h : trial cfg s = .nlsFail s' ck e) : AfterTrial cfg s s' (.error e) ∧ ck = errCoef s := by
  rw [trial_eq] at h
  split at h
  · rename_i hk
    split at h
    · cases h
    · cases h
    · rename_i ho
      cases h
      refine ⟨⟨hk, ⟨_, ho, rfl⟩, rfl, rfl, by simp, rfl, rfl, rfl, rfl, rfl, rfl, rfl, rfl, rfl, rfl, rfl, rfl⟩, rfl⟩
    · split at h
      · cases h
      · split at h <;> cases h
  · cases h

theorem trial_tested {cfg : Cfg ν n q K} {s s' : State ν n q K} {ck : K} {t : TestRes K}
    (h : trial cfg s = .tested s' ck t) :
    AfterTrial cfg s s' (.ok ()) ∧ ck = errCoef s ∧ cfg.constraintsSet = false ∧
    t.errk = (coefHist s).sigma s.c.kk * wrmsNorm cfg.id s'.ee s.e.ewt cfg.suppressalg ∧
    t.passed = Scalar.le (ck * wrmsNorm cfg.id s'.ee s.e.ewt cfg.suppressalg) 1 := by
  rw [trial_eq] at h
  split at h
  · rename_i hk
    split at h
    · cases h
    · cases h
    · cases h
    · rename_i N m ee ho
      split at h
      · cases h
      · rename_i hcs
        split at h
        · cases h
        · rename_i s1 t1 ht
          cases h
          obtain ⟨hs, hkn, he, hp⟩ := testError_ok ht
          refine ⟨⟨hk, ⟨m, ?_, ?_⟩, ?_, ?_, ?_, ?_, ?_, ?_, ?_, ?_, ?_, ?_, ?_, ?_, ?_, ?_, ?_⟩, rfl, by simpa using hcs, ?_, ?_⟩
          · rw [ho]; rw [hs]; rfl
          · rw [hs]; rfl
          · rw [hs]; rfl
          · conv_lhs => rw [hs]
            rfl
          · intro _ _; exact hkn
          all_goals first | (rw [hs]; rfl) | skip
          · rw [he, hs]; rfl
          · rw [hp, hs]; rfl
  · cases h

/-- The state after `restore`. -/
def restored (s : State ν n q K) (t0 : K) : State ν n q K :=
  { s with
    e.tn := t0
    h.psi := forUp s.c.kk (fun j0 p => upd p j0 (p (j0 + 1) - s.c.hh)) s.h.psi
    h.phi := if s.c.ns ≤ s.c.kk then scalePhi s.h.phi (fun j => Scalar.recip (s.h.beta j)) s.c.ns s.c.kk else s.h.phi }

theorem restore_eq (s : State ν n q K) (t0 : K) :
    restore s t0 = if s.c.kk < mxordp1 then some (restored s t0) else none := rfl

/-- The failure branch in closed form. -/
theorem attemptFailed_eq (cfg : Cfg ν n q K) (t0 : K) (s : State ν n q K) (err : Err) (a b : K) (f : Fails)
    (hk : s.c.kk < mxordp1) : attemptFailed cfg t0 s err a b f =
    match handleNFlag cfg (restored s t0) err a b f with
    | none => .panic
    | some (s, f, .ok ()) => .again (if s.cnt.nst = 0 then reset s else s) f
    | some (s, _, .error e) => .fail s e := by
  unfold attemptFailed
  rw [restore_eq, if_pos hk]
  rfl

/-- The verdict of an attempt that failed: what the nonlinear solver returned, the error handed to `handle_n_flag` with
its error estimates, and the ghost record. -/
def Verdict (r : Except Err Unit) (err : Err) (a b : K) (out : AttOut) : Prop :=
  (r = .error err ∧ a = 0 ∧ b = 0 ∧ out = .nlsFail err) ∨ (r = .ok () ∧ err = .ida .testFail ∧ out = .testFail)

/-- A failed pass. -/
structure PassFailed (cfg : Cfg ν n q K) (t0 : K) (s s4 : State ν n q K) (err : Err) (a b : K) : Prop where
  tried : ∃ s3 r out, AfterTrial cfg s s3 r ∧ Verdict r err a b out ∧
    (r = .ok () → Scalar.le (errCoef s * wrmsNorm cfg.id s3.ee s.e.ewt cfg.suppressalg) 1 = false ∧
      a = (coefHist s).sigma s.c.kk * wrmsNorm cfg.id s3.ee s.e.ewt cfg.suppressalg) ∧
    s4 = s3.note t0 (errCoef s) out

theorem attempt_cases (cfg : Cfg ν n q K) (t0 : K) (s : State ν n q K) (f : Fails) :
    (attempt cfg t0 s f = .panic) ∨ (attempt cfg t0 s f = .diverge) ∨
    (∃ s4 err a b, PassFailed cfg t0 s s4 err a b ∧
      attempt cfg t0 s f = attemptFailed cfg t0 s4 err a b f ∧ s4.c.kk = s.c.kk ∧ s.c.kk < mxordp1) ∨
    (∃ s3 a b, AfterTrial cfg s s3 (.ok ()) ∧ cfg.constraintsSet = false ∧
      Scalar.le (errCoef s * wrmsNorm cfg.id s3.ee s.e.ewt cfg.suppressalg) 1 = true ∧
      a = (coefHist s).sigma s.c.kk * wrmsNorm cfg.id s3.ee s.e.ewt cfg.suppressalg ∧
      attempt cfg t0 s f = .done ((s3.note t0 (errCoef s) .accepted).noteAcc t0) (errCoef s) a b) := by
  unfold attempt
  cases ht : trial cfg s with
  | panic => exact Or.inl rfl
  | diverge => exact Or.inr (Or.inl rfl)
  | nlsFail s3 ck e =>
    obtain ⟨h1, h2⟩ := trial_nlsFail ht
    subst h2
    refine Or.inr (Or.inr (Or.inl ⟨s3.note t0 (errCoef s) (.nlsFail e), e, 0, 0, ⟨s3, .error e, .nlsFail e, h1,
      Or.inl ⟨rfl, rfl, rfl, rfl⟩, by simp, rfl⟩, rfl, ?_, h1.kk⟩))
    show s3.c.kk = _
    rw [h1.c]
  | tested s3 ck t =>
    obtain ⟨h1, h2, h3, h4, h5⟩ := trial_tested ht
    subst h2
    simp only
    split
    · rename_i hp
      refine Or.inr (Or.inr (Or.inr ⟨s3, t.errk, t.errkm1, h1, h3, by rw [← h5, hp], h4, ?_⟩))
      rfl
    · rename_i hp
      refine Or.inr (Or.inr (Or.inl ⟨s3.note t0 (errCoef s) .testFail, .ida .testFail, t.errk, t.errkm1,
        ⟨s3, .ok (), .testFail, h1, Or.inr ⟨rfl, rfl, rfl⟩, ?_, rfl⟩, rfl, ?_, h1.kk⟩))
      · intro _; exact ⟨by rw [← h5]; simpa using hp, h4⟩
      · show s3.c.kk = _
        rw [h1.c]

theorem attempt_done {cfg : Cfg ν n q K} {t0 : K} {s s' : State ν n q K} {f : Fails} {ck a b : K}
    (h : attempt cfg t0 s f = .done s' ck a b) :
    ∃ s3, AfterTrial cfg s s3 (.ok ()) ∧ cfg.constraintsSet = false ∧ ck = errCoef s ∧
      Scalar.le (errCoef s * wrmsNorm cfg.id s3.ee s.e.ewt cfg.suppressalg) 1 = true ∧
      a = (coefHist s).sigma s.c.kk * wrmsNorm cfg.id s3.ee s.e.ewt cfg.suppressalg ∧
      s' = (s3.note t0 (errCoef s) .accepted).noteAcc t0 := by
  rcases attempt_cases cfg t0 s f with h1 | h1 | ⟨s4, err, a', b', hp, h1, h2, h3⟩ | ⟨s3, a', b', h1, h2, h3, h4, h5⟩
  · rw [h1] at h; cases h
  · rw [h1] at h; cases h
  · rw [h1, attemptFailed_eq _ _ _ _ _ _ _ (by rw [h2]; exact h3)] at h
    split at h <;> cases h
  · rw [h5] at h; cases h
    exact ⟨s3, h1, h2, rfl, h3, h4, rfl⟩

theorem attempt_again {cfg : Cfg ν n q K} {t0 : K} {s s' : State ν n q K} {f f' : Fails}
    (h : attempt cfg t0 s f = .again s' f') :
    ∃ s4 err a b s6, PassFailed cfg t0 s s4 err a b ∧ handleNFlag cfg (restored s4 t0) err a b f = some (s6, f', .ok ()) ∧
      s' = if s6.cnt.nst = 0 then reset s6 else s6 := by
  rcases attempt_cases cfg t0 s f with h1 | h1 | ⟨s4, err, a', b', hp, h1, h2, h3⟩ | ⟨s3, a', b', h1, h2, h3, h4, h5⟩
  · rw [h1] at h; cases h
  · rw [h1] at h; cases h
  · rw [h1, attemptFailed_eq _ _ _ _ _ _ _ (by rw [h2]; exact h3)] at h
    split at h
    · cases h
    · rename_i s6 f6 h6
      cases h
      exact ⟨s4, err, a', b', s6, hp, h6, rfl⟩
    · cases h
  · rw [h5] at h; cases h

theorem attempt_fail {cfg : Cfg ν n q K} {t0 : K} {s s' : State ν n q K} {f : Fails} {e : Err}
    (h : attempt cfg t0 s f = .fail s' e) :
    ∃ s4 err a b f', PassFailed cfg t0 s s4 err a b ∧
      handleNFlag cfg (restored s4 t0) err a b f = some (s', f', .error e) := by
  rcases attempt_cases cfg t0 s f with h1 | h1 | ⟨s4, err, a', b', hp, h1, h2, h3⟩ | ⟨s3, a', b', h1, h2, h3, h4, h5⟩
  · rw [h1] at h; cases h
  · rw [h1] at h; cases h
  · rw [h1, attemptFailed_eq _ _ _ _ _ _ _ (by rw [h2]; exact h3)] at h
    split at h
    · cases h
    · cases h
    · rename_i s6 f6 e6 h6
      cases h
      exact ⟨s4, err, a', b', _, hp, h6⟩
  · rw [h5] at h; cases h

/-- Induction rule for the attempt loop: `I` holds before every attempt, `Q` after an accepted step, `R` after a failed
one. -/
theorem stepLoop_rule {cfg : Cfg ν n q K} {t0 : K} (I : State ν n q K → Fails → Prop) (Q : State ν n q K → Prop)
    (R : State ν n q K → Err → Prop)
    (hagain : ∀ s f s' f', I s f → attempt cfg t0 s f = .again s' f' → I s' f')
    (hdone : ∀ s f s1 ck a b s', I s f → attempt cfg t0 s f = .done s1 ck a b → completeStep cfg s1 a b = some s' →
      Q { s' with ee := vscale ck s'.ee })
    (hfail : ∀ s f s' e, I s f → attempt cfg t0 s f = .fail s' e → R s' e) :
    ∀ fuel s f, I s f → ∀ s' r, stepLoop cfg t0 fuel s f = .ret s' r →
      (r = .ok () ∧ Q s') ∨ (∃ e, r = .error e ∧ R s' e) := by
  intro fuel
  induction fuel with
  | zero => intro s f _ s' r h; cases h
  | succ fuel ih =>
    intro s f hI s' r h
    unfold stepLoop at h
    split at h
    · cases h
    · cases h
    · rename_i s1 e h1
      cases h
      exact Or.inr ⟨e, rfl, hfail _ _ _ _ hI h1⟩
    · rename_i s1 f1 h1
      exact ih _ _ (hagain _ _ _ _ hI h1) _ _ h
    · rename_i s1 ck a b h1
      split at h
      · cases h
      · rename_i s2 h2
        cases h
        exact Or.inl ⟨rfl, hdone _ _ _ _ _ _ _ hI h1 h2⟩

/-- What `handle_n_flag` does, case by case. -/
inductive Handled (cfg : Cfg ν n q K) (s : State ν n q K) (a b : K) (f : Fails) :
    Err → State ν n q K → Fails → Except Err Unit → Prop
  | test1 (rr : K) : f.nef = 0 →
      rr = Scalar.max Scalar.quarter (Scalar.min Scalar.pt9 (Scalar.pt9 * Scalar.powf
        (Scalar.two * (if s.c.kk = s.c.knew then a else b) + Scalar.pt0001)
        (-(Scalar.recip (Scalar.ofNat (s.c.knew + 1)))))) →
      Handled cfg s a b f (.ida .testFail)
        { s with c := { s.c with phase := 1, kk := s.c.knew, rr := rr, hh := s.c.hh * rr }, cnt.netf := s.cnt.netf + 1 }
        { f with nef := f.nef + 1 } (.ok ())
  | test2 : f.nef = 1 → Handled cfg s a b f (.ida .testFail)
        { s with c := { s.c with phase := 1, kk := s.c.knew, rr := Scalar.quarter, hh := s.c.hh * Scalar.quarter }
                 cnt.netf := s.cnt.netf + 1 }
        { f with nef := f.nef + 1 } (.ok ())
  | test3 : 2 ≤ f.nef → f.nef + 1 < cfg.maxnef → Handled cfg s a b f (.ida .testFail)
        { s with c := { s.c with phase := 1, kk := 1, rr := Scalar.quarter, hh := s.c.hh * Scalar.quarter }
                 cnt.netf := s.cnt.netf + 1 }
        { f with nef := f.nef + 1 } (.ok ())
  | testGiveUp : 2 ≤ f.nef → cfg.maxnef ≤ f.nef + 1 → Handled cfg s a b f (.ida .testFail)
        { s with c := { s.c with phase := 1 }, cnt.netf := s.cnt.netf + 1 }
        { f with nef := f.nef + 1 } (.error (.other "IDA_ERR_FAIL"))
  | conv (rec : Rec) : f.ncf + 1 < cfg.maxncf → Handled cfg s a b f (.ida (.recoverableFail rec))
        { s with c := { s.c with phase := 1, rr := if rec = Rec.constraint then s.c.rr else Scalar.quarter
                                 hh := s.c.hh * (if rec = Rec.constraint then s.c.rr else Scalar.quarter) }
                 cnt.ncfn := s.cnt.ncfn + 1 }
        { f with ncf := f.ncf + 1 } (.ok ())
  | convGiveUp (rec : Rec) : cfg.maxncf ≤ f.ncf + 1 → Handled cfg s a b f (.ida (.recoverableFail rec))
        { s with c := { s.c with phase := 1, rr := if rec = Rec.constraint then s.c.rr else Scalar.quarter
                                 hh := s.c.hh * (if rec = Rec.constraint then s.c.rr else Scalar.quarter) }
                 cnt.ncfn := s.cnt.ncfn + 1 }
        { f with ncf := f.ncf + 1 } (.error (match rec with
          | .residual => .ida .residualFail
          | .constraint => .ida .constraintFail
          | _ => .ida .convergenceFail))
  | hard (e : Err) : (∀ x, e ≠ .ida x) → Handled cfg s a b f e
        { s with c := { s.c with phase := 1 }, cnt.ncfn := s.cnt.ncfn + 1 }
        { f with ncf := f.ncf + 1 } (.error e)

theorem handleNFlag_handled {cfg : Cfg ν n q K} {s s' : State ν n q K} {err : Err} {a b : K} {f f' : Fails}
    {r : Except Err Unit} (h : handleNFlag cfg s err a b f = some (s', f', r)) : Handled cfg s a b f err s' f' r := by
  unfold handleNFlag at h
  simp only at h
  split at h
  · split at h
    · rename_i h1
      cases h
      exact .test1 _ (by omega) rfl
    · split at h
      · cases h
        exact .test2 (by omega)
      · split at h
        · cases h
          exact .test3 (by omega) (by omega)
        · cases h
          exact .testGiveUp (by omega) (by omega)
  · rename_i rec
    split at h
    · cases h
      exact .conv rec (by omega)
    · cases h
      exact .convGiveUp rec (by omega)
  · cases h
  · rename_i h1 h2 h3
    cases h
    exact .hard _ (fun x hx => h3 x hx)

/-- The errors returned by a failed step. -/
theorem Handled.error_isStepFailure {cfg : Cfg ν n q K} {s s' : State ν n q K} {err e : Err} {a b : K} {f f' : Fails}
    (h : Handled cfg s a b f err s' f' (.error e)) : e.isStepFailure = true := by
  cases h with
  | testGiveUp => rfl
  | convGiveUp rec _ => cases rec <;> rfl
  | hard _ h =>
    cases err with
    | ida x => exact absurd rfl (h x)
    | nl x => rfl
    | other x => rfl

theorem step_error_isStepFailure {cfg : Cfg ν n q K} {s s' : State ν n q K} {e : Err}
    (h : step cfg s = .ret s' (.error e)) : e.isStepFailure = true := by
  have := stepLoop_rule (cfg := cfg) (t0 := s.e.tn) (fun _ _ => True) (fun _ => True)
    (fun _ e => e.isStepFailure = true) (fun _ _ _ _ _ _ => trivial) (fun _ _ _ _ _ _ _ _ _ _ => trivial)
    (fun s f s' e _ h => by
      obtain ⟨s4, err, a, b, f', -, h⟩ := attempt_fail h
      exact (handleNFlag_handled h).error_isStepFailure) _ _ _ trivial _ _ h
  rcases this with ⟨h, -⟩ | ⟨e', h, h'⟩
  · cases h
  · cases h; exact h'

end

end Verif
