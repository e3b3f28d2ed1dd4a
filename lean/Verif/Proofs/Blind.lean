import Verif.Proofs.Machine
import Verif.Model.Nls
import Verif.Spec.Later

/-! # What an internal step does not depend on (any scalar type) -/

set_option autoImplicit false
set_option linter.unusedSectionVars false
set_option linter.unusedSimpArgs false
set_option linter.unusedVariables false

namespace Verif

universe u v w

/-! ## Newton's method -/

section
variable {σ : Type u} {V : Type v} {K : Type w} [Add V] [Neg V]

/-- The same outcome, with problem memories in the relation `R`. -/
inductive NOut.Rel (R : σ → σ → Prop) : NOut σ V → NOut σ V → Prop
  | done (N : Newton V) (s s' : σ) (y : V) (r : Except Err Unit) : R s s' → NOut.Rel R (.done N s y r) (.done N s' y r)
  | panic : NOut.Rel R .panic .panic
  | diverge : NOut.Rel R .diverge .diverge

/-- After a residual evaluation memories in the relation `R` are in the relation `R'`, which all callbacks keep. -/
structure NLProblem.Blind (P : NLProblem σ V K) (R R' : σ → σ → Prop) : Prop where
  weak : ∀ s s', R' s s' → R s s'
  sys : ∀ s s' y b, R s s' → R' (P.sys s y b).1 (P.sys s' y b).1 ∧ (P.sys s y b).2 = (P.sys s' y b).2
  setup : ∀ s s' y f j, R' s s' → R' (P.setup s y f j).1 (P.setup s' y f j).1 ∧ (P.setup s y f j).2 = (P.setup s' y f j).2
  solve : ∀ s s' y b, R' s s' → R' (P.solve s y b).1 (P.solve s' y b).1 ∧ (P.solve s y b).2 = (P.solve s' y b).2
  ctest : ∀ s s' v y d t e, R' s s' → R' (P.ctest s v y d t e).1 (P.ctest s' v y d t e).1 ∧
    (P.ctest s v y d t e).2 = (P.ctest s' v y d t e).2

variable {P : NLProblem σ V K} {R R' : σ → σ → Prop}

theorem newtonInner_blind (hP : P.Blind R R') (tol : K) (w : V) (fuel : Nat) :
    ∀ (N : Newton V) (s s' : σ) (y : V), R' s s' →
      NOut.Rel R' (newtonInner P tol w fuel N s y) (newtonInner P tol w fuel N s' y) := by
  induction fuel with
  | zero => intro N s s' y h; exact .diverge
  | succ fuel ih =>
    intro N s s' y h
    unfold newtonInner
    simp only
    obtain ⟨h1, h2⟩ := hP.solve s s' y (-N.delta) h
    generalize P.solve s y (-N.delta) = a at h1 h2
    generalize P.solve s' y (-N.delta) = a' at h1 h2
    obtain ⟨m, d, c⟩ := a
    obtain ⟨m', d', c'⟩ := a'
    cases h2
    cases c with
    | panic => exact .panic
    | err e => exact .done _ _ _ _ _ h1
    | ok u =>
      simp only
      obtain ⟨h3, h4⟩ := hP.ctest m m' (Newton.view { N with niters := N.niters + 1, delta := d }) (y + d) d tol w h1
      generalize P.ctest m (Newton.view { N with niters := N.niters + 1, delta := d }) (y + d) d tol w = a at h3 h4 ⊢
      generalize P.ctest m' (Newton.view { N with niters := N.niters + 1, delta := d }) (y + d) d tol w = a' at h3 h4 ⊢
      obtain ⟨m, c⟩ := a
      obtain ⟨m', c'⟩ := a'
      cases h4
      cases c with
      | panic => exact .panic
      | err e => exact .done _ _ _ _ _ h3
      | ok b =>
        cases b with
        | true => exact .done _ _ _ _ _ h3
        | false =>
          simp only
          split
          · exact .done _ _ _ _ _ h3
          · obtain ⟨h5, h6⟩ := hP.sys m m' (y + d) d (hP.weak _ _ h3)
            generalize P.sys m (y + d) d = a at h5 h6 ⊢
            generalize P.sys m' (y + d) d = a' at h5 h6 ⊢
            obtain ⟨m, d, c⟩ := a
            obtain ⟨m', d', c'⟩ := a'
            cases h6
            cases c with
            | panic => exact .panic
            | err e => exact .done _ _ _ _ _ h5
            | ok u => exact ih _ _ _ _ h5

theorem newtonAttempt_blind (hP : P.Blind R R') (y0 : V) (tol : K) (w : V) (call jbad : Bool) (N : Newton V) (s s' : σ) (y : V)
    (h : R s s') : NOut.Rel R' (newtonAttempt P y0 tol w call jbad N s y) (newtonAttempt P y0 tol w call jbad N s' y) := by
  unfold newtonAttempt
  obtain ⟨h5, h6⟩ := hP.sys s s' y0 N.delta h
  generalize P.sys s y0 N.delta = a at h5 h6 ⊢
  generalize P.sys s' y0 N.delta = a' at h5 h6 ⊢
  obtain ⟨m, d, c⟩ := a
  obtain ⟨m', d', c'⟩ := a'
  cases h6
  cases c with
  | panic => exact .panic
  | err e => exact .done _ _ _ _ _ h5
  | ok u =>
    simp only
    split
    · obtain ⟨h3, h4⟩ := hP.setup m m' y0 d jbad h5
      generalize P.setup m y0 d jbad = a at h3 h4 ⊢
      generalize P.setup m' y0 d jbad = a' at h3 h4 ⊢
      obtain ⟨m, c⟩ := a
      obtain ⟨m', c'⟩ := a'
      cases h4
      cases c with
      | panic => exact .panic
      | err e => exact .done _ _ _ _ _ h3
      | ok b => exact newtonInner_blind hP tol w _ _ _ _ _ h3
    · exact newtonInner_blind hP tol w _ _ _ _ _ h5

theorem newtonOuter_blind (hP : P.Blind R R') (y0 : V) (tol : K) (w : V) (fuel : Nat) :
    ∀ (call jbad : Bool) (N : Newton V) (s s' : σ) (y : V), R s s' →
      NOut.Rel R' (newtonOuter P y0 tol w fuel call jbad N s y) (newtonOuter P y0 tol w fuel call jbad N s' y) := by
  induction fuel with
  | zero => intro call jbad N s s' y h; exact .diverge
  | succ fuel ih =>
    intro call jbad N s s' y h
    unfold newtonOuter
    have h1 := newtonAttempt_blind hP y0 tol w call jbad N s s' y h
    generalize newtonAttempt P y0 tol w call jbad N s y = a at h1 ⊢
    generalize newtonAttempt P y0 tol w call jbad N s' y = a' at h1 ⊢
    cases h1 with
    | panic => exact .panic
    | diverge => exact .diverge
    | done N s s' y r hr =>
      cases r with
      | ok u => exact .done _ _ _ _ _ hr
      | error e =>
        simp only
        split
        · split
          · exact ih _ _ _ _ _ _ (hP.weak _ _ hr)
          · exact ih _ _ _ _ _ _ (hP.weak _ _ hr)
        · exact .done _ _ _ _ _ hr

end

/-! ## The nonlinear problem of the integrator -/

section
variable {n q : Nat} {K : Type u} [Scalar K]

/-- The problem memories differ in the ghost log only. -/
def Mem.Same (m m' : Mem n K) : Prop := ∃ log, m' = m.wear m.yy m.yp log

theorem ida_blind (P : Problem n q K) (e : Env n K) : (idaNLProblem P e).Blind Mem.Alike Mem.Same := by
  refine ⟨?_, ?_, ?_, ?_, ?_⟩
  · rintro s s' ⟨l, rfl⟩; exact ⟨_, _, _, rfl⟩
  · rintro s s' y b ⟨yy, yp, l, rfl⟩
    exact ⟨⟨_, rfl⟩, rfl⟩
  · rintro s s' y f j ⟨l, rfl⟩
    simp only [idaNLProblem, idaSetup, lsSetup, Mem.wear]
    by_cases hn : n = 0
    · simp only [if_pos hn]
      cases denseSetup n s.matJ s.piv with
      | ok a p => exact ⟨⟨_, rfl⟩, rfl⟩
      | err c a p => exact ⟨⟨_, rfl⟩, rfl⟩
      | panic => exact ⟨⟨_, rfl⟩, rfl⟩
    · simp only [if_neg hn]
      cases denseSetup n (P.jac 0 e.cj s.yy s.yp f fun _ _ => 0) s.piv with
      | ok a p => exact ⟨⟨_, rfl⟩, rfl⟩
      | err c a p => exact ⟨⟨_, rfl⟩, rfl⟩
      | panic => exact ⟨⟨_, rfl⟩, rfl⟩
  · rintro s s' y b ⟨l, rfl⟩
    simp only [idaNLProblem, lsSolve, Mem.wear]
    cases denseSolve n s.matJ s.piv b.toFun with
    | none => exact ⟨⟨_, rfl⟩, rfl⟩
    | some x => exact ⟨⟨_, rfl⟩, rfl⟩
  · rintro s s' vw y d t w ⟨l, rfl⟩
    simp only [idaNLProblem, idaCtest, Mem.wear]
    by_cases h0 : vw.curIter = 0
    · simp only [if_pos h0]
      by_cases h1 : Scalar.le (normWrms d w) (Scalar.pt0001 * e.toldel) = true
      · simp only [if_pos h1]; exact ⟨⟨_, rfl⟩, trivial⟩
      · simp only [if_neg h1]; exact ⟨⟨_, rfl⟩, trivial⟩
    · simp only [if_neg h0]
      by_cases h1 : Scalar.gt (Scalar.powf (normWrms d w / s.oldnrm) (Scalar.recip (Scalar.ofNat vw.curIter))) Scalar.pt9 = true
      · simp only [if_pos h1]; exact ⟨⟨_, rfl⟩, trivial⟩
      · simp only [if_neg h1]; exact ⟨⟨_, rfl⟩, trivial⟩

end

/-! ## Steps -/

section
variable {ν : Type v} {n q : Nat} {K : Type u} [Scalar K]

theorem newton_nlsBlind (P : Problem n q K) (tol : TolControl n K) (fuel : Nat) : NlsBlind (Cfg.newton P tol fuel) := by
  intro N e m m' y0 y w t call h
  show NlOut.Alike (newtonNls P fuel |>.solve N e m y0 y w t call) (newtonNls P fuel |>.solve N e m' y0 y w t call)
  simp only [newtonNls, newtonSolve]
  have h1 := newtonOuter_blind (ida_blind P e) y0 t w fuel call false N m m' y h
  generalize newtonOuter (idaNLProblem P e) y0 t w fuel call false N m y = a at h1 ⊢
  generalize newtonOuter (idaNLProblem P e) y0 t w fuel call false N m' y = a' at h1 ⊢
  cases h1 with
  | panic => exact .panic
  | diverge => exact .diverge
  | done N s s' y r hr => exact .ret _ _ _ _ _ ((ida_blind P e).weak _ _ hr)

/-- The parts of the state an internal step does not read. -/
structure Skin (n q : Nat) (K : Type u) where
  yy : Vec n K
  yp : Vec n K
  log : List (UCall n K)
  r : RootSt q K
  perf : Perf
  tretlast : K
  tolsf : K
  tret : K

/-- The state with other such parts. -/
def State.wear (s : State ν n q K) (k : Skin n q K) : State ν n q K :=
  { s with m := s.m.wear k.yy k.yp k.log, r := k.r, perf := k.perf, tretlast := k.tretlast, tolsf := k.tolsf
           tret := k.tret }

/-- The parts of a state. -/
def State.skin (s : State ν n q K) : Skin n q K :=
  ⟨s.m.yy, s.m.yp, s.m.log, s.r, s.perf, s.tretlast, s.tolsf, s.tret⟩

theorem wear_skin (s : State ν n q K) : s.wear s.skin = s := rfl
theorem wear_wear (s : State ν n q K) (k k' : Skin n q K) : (s.wear k).wear k' = s.wear k' := rfl

theorem firstStepInit_wear (s : State ν n q K) (k : Skin n q K) : firstStepInit (s.wear k) = (firstStepInit s).wear k := by
  unfold firstStepInit
  by_cases h : s.cnt.nst = 0
  · rw [if_pos h, if_pos (show (s.wear k).cnt.nst = 0 from h)]; rfl
  · rw [if_neg h, if_neg (show ¬ (s.wear k).cnt.nst = 0 from h)]

theorem setCoeffs_wear (s : State ν n q K) (k : Skin n q K) :
    setCoeffs (s.wear k) = (setCoeffs s).map fun p => (p.1.wear k, p.2) := by
  unfold setCoeffs
  by_cases hk : s.c.kk < mxordp1
  · rw [if_pos hk, if_pos (show (s.wear k).c.kk < mxordp1 from hk)]; rfl
  · rw [if_neg hk, if_neg (show ¬ (s.wear k).c.kk < mxordp1 from hk)]; rfl

theorem advanceTime_wear (s : State ν n q K) (k : Skin n q K) : advanceTime (s.wear k) = (advanceTime s).wear k := rfl

theorem predict_wear (s : State ν n q K) (k : Skin n q K) : predict (s.wear k) = (predict s).map (·.wear k) := by
  unfold predict
  by_cases hk : s.c.kk < mxordp1
  · rw [if_pos hk, if_pos (show (s.wear k).c.kk < mxordp1 from hk)]; rfl
  · rw [if_neg hk, if_neg (show ¬ (s.wear k).c.kk < mxordp1 from hk)]; rfl

theorem nlsPrepare_wear (s : State ν n q K) (k : Skin n q K) :
    nlsPrepare (s.wear k) = ((nlsPrepare s).1.wear k.yy k.yp k.log, (nlsPrepare s).2) := by
  unfold nlsPrepare
  by_cases h0 : s.cnt.nst = 0
  · by_cases h1 : Scalar.neb s.e.cj s.c.cjlast = true
    · simp [State.wear, Mem.wear, h0, h1]
    · simp [State.wear, Mem.wear, h0, h1]
  · by_cases h1 : Scalar.neb s.e.cj s.c.cjlast = true
    · simp [State.wear, Mem.wear, h0, h1]
    · simp [State.wear, Mem.wear, h0, h1]

/-- The states differ in the parts a step does not read, but not in the output vectors. -/
def Near (s s' : State ν n q K) : Prop := ∃ k : Skin n q K, s' = s.wear k ∧ k.yy = s.m.yy ∧ k.yp = s.m.yp

/-- Outcomes of a computation on states in the relation `R`. -/
inductive Out.Rel {S : Type u} {α : Type v} (R : S → S → Prop) : Out S α → Out S α → Prop
  | ret (s s' : S) (r : Except Err α) : R s s' → Out.Rel R (.ret s r) (.ret s' r)
  | panic : Out.Rel R .panic .panic
  | diverge : Out.Rel R .diverge .diverge

theorem nonlinearSolve_wear {cfg : Cfg ν n q K} (hb : NlsBlind cfg) (s : State ν n q K) (k : Skin n q K) :
    Out.Rel Near (nonlinearSolve cfg s) (nonlinearSolve cfg (s.wear k)) := by
  unfold nonlinearSolve
  simp only [nlsPrepare_wear]
  have h1 := hb s.nls s.e (nlsPrepare s).1 ((nlsPrepare s).1.wear k.yy k.yp k.log) vzero s.ee s.e.ewt s.epsNewt
    (nlsPrepare s).2 ⟨_, _, _, rfl⟩
  show Out.Rel Near _ (match cfg.nls.solve s.nls s.e ((nlsPrepare s).1.wear k.yy k.yp k.log) vzero s.ee s.e.ewt s.epsNewt
    (nlsPrepare s).2 with
    | .panic => _ | .diverge => _ | .ret N m ee r => _)
  generalize cfg.nls.solve s.nls s.e (nlsPrepare s).1 vzero s.ee s.e.ewt s.epsNewt (nlsPrepare s).2 = a at h1 ⊢
  generalize cfg.nls.solve s.nls s.e ((nlsPrepare s).1.wear k.yy k.yp k.log) vzero s.ee s.e.ewt s.epsNewt
    (nlsPrepare s).2 = a' at h1 ⊢
  cases h1 with
  | panic => exact .panic
  | diverge => exact .diverge
  | ret N m m' y r hr =>
    obtain ⟨yy, yp, l, rfl⟩ := hr
    cases r with
    | error e => exact .ret _ _ _ ⟨⟨_, _, l, k.r, k.perf, k.tretlast, k.tolsf, k.tret⟩, rfl, rfl, rfl⟩
    | ok u =>
      simp only
      split
      · exact .panic
      · exact .ret _ _ _ ⟨⟨_, _, l, k.r, k.perf, k.tretlast, k.tolsf, k.tret⟩, rfl, rfl, rfl⟩

theorem testError_wear (cfg : Cfg ν n q K) (s : State ν n q K) (ck : K) (k : Skin n q K) :
    testError cfg (s.wear k) ck = (testError cfg s ck).map fun p => (p.1.wear k, p.2) := by
  unfold testError
  by_cases hk : s.c.kk < mxordp1
  · rw [if_pos hk, if_pos (show (s.wear k).c.kk < mxordp1 from hk)]; rfl
  · rw [if_neg hk, if_neg (show ¬ (s.wear k).c.kk < mxordp1 from hk)]; rfl

theorem testError_yy {cfg : Cfg ν n q K} {s s' : State ν n q K} {ck : K} {t : TestRes K} (h : testError cfg s ck = some (s', t)) :
    s'.m = s.m := by
  unfold testError at h
  by_cases hk : s.c.kk < mxordp1
  · rw [if_pos hk] at h; cases h; rfl
  · rw [if_neg hk] at h; cases h

/-- The same outcome of a trial, on states that differ in the unread parts. -/
inductive Trial.Alike : Trial (State ν n q K) K → Trial (State ν n q K) K → Prop
  | nlsFail (s s' : State ν n q K) (ck : K) (e : Err) : Near s s' → Trial.Alike (.nlsFail s ck e) (.nlsFail s' ck e)
  | tested (s s' : State ν n q K) (ck : K) (t : TestRes K) : Near s s' → Trial.Alike (.tested s ck t) (.tested s' ck t)
  | panic : Trial.Alike .panic .panic
  | diverge : Trial.Alike .diverge .diverge

theorem trial_wear {cfg : Cfg ν n q K} (hb : NlsBlind cfg) (s : State ν n q K) (k : Skin n q K) :
    Trial.Alike (trial cfg s) (trial cfg (s.wear k)) := by
  unfold trial
  rw [setCoeffs_wear]
  cases setCoeffs s with
  | none => exact .panic
  | some p =>
    obtain ⟨s, ck⟩ := p
    simp only [Option.map_some]
    rw [advanceTime_wear, predict_wear]
    cases predict (advanceTime s) with
    | none => exact .panic
    | some s =>
      simp only [Option.map_some]
      have h1 := nonlinearSolve_wear hb s k
      generalize nonlinearSolve cfg s = a at h1 ⊢
      generalize nonlinearSolve cfg (s.wear k) = a' at h1 ⊢
      cases h1 with
      | panic => exact .panic
      | diverge => exact .diverge
      | ret s s' r hr =>
        cases r with
        | error e => exact .nlsFail _ _ _ _ hr
        | ok u =>
          obtain ⟨k, rfl, h1, h2⟩ := hr
          simp only
          rw [testError_wear]
          cases ht : testError cfg s ck with
          | none => exact .panic
          | some p =>
            obtain ⟨s', t⟩ := p
            have := testError_yy ht
            exact .tested _ _ _ _ ⟨k, rfl, by rw [this]; exact h1, by rw [this]; exact h2⟩

theorem restore_wear (s : State ν n q K) (t : K) (k : Skin n q K) :
    restore (s.wear k) t = (restore s t).map (·.wear k) := by
  unfold restore
  by_cases hk : s.c.kk < mxordp1
  · rw [if_pos hk, if_pos (show (s.wear k).c.kk < mxordp1 from hk)]; rfl
  · rw [if_neg hk, if_neg (show ¬ (s.wear k).c.kk < mxordp1 from hk)]; rfl

theorem handleNFlag_wear (cfg : Cfg ν n q K) (s : State ν n q K) (e : Err) (a b : K) (f : Fails) (k : Skin n q K) :
    handleNFlag cfg (s.wear k) e a b f = (handleNFlag cfg s e a b f).map fun p => (p.1.wear k, p.2) := by
  unfold handleNFlag
  cases e with
  | other m => rfl
  | nl e => rfl
  | ida e =>
    cases e with
    | testFail =>
      by_cases h1 : f.nef + 1 = 1
      · simp only [if_pos h1]; rfl
      · simp only [if_neg h1]
        by_cases h2 : f.nef + 1 = 2
        · simp only [if_pos h2]; rfl
        · simp only [if_neg h2]
          by_cases h3 : f.nef + 1 < cfg.maxnef
          · simp only [if_pos h3]; rfl
          · simp only [if_neg h3]; rfl
    | recoverableFail rec =>
      by_cases h1 : f.ncf + 1 < cfg.maxncf
      · simp only [if_pos h1]; rfl
      · simp only [if_neg h1]; rfl
    | _ => rfl

theorem reset_wear (s : State ν n q K) (k : Skin n q K) : reset (s.wear k) = (reset s).wear k := rfl

/-- The same outcome of a pass of the attempt loop, on states that differ in the unread parts. -/
inductive Attempt.Alike : Attempt (State ν n q K) K → Attempt (State ν n q K) K → Prop
  | done (s : State ν n q K) (k : Skin n q K) (a b c : K) : Attempt.Alike (.done s a b c) (.done (s.wear k) a b c)
  | again (s : State ν n q K) (k : Skin n q K) (f : Fails) : Attempt.Alike (.again s f) (.again (s.wear k) f)
  | fail (s : State ν n q K) (k : Skin n q K) (e : Err) : Attempt.Alike (.fail s e) (.fail (s.wear k) e)
  | panic : Attempt.Alike .panic .panic
  | diverge : Attempt.Alike .diverge .diverge

theorem attemptFailed_wear (cfg : Cfg ν n q K) (t : K) (s : State ν n q K) (e : Err) (a b : K) (f : Fails) (k : Skin n q K) :
    Attempt.Alike (attemptFailed cfg t s e a b f) (attemptFailed cfg t (s.wear k) e a b f) := by
  unfold attemptFailed
  rw [restore_wear]
  cases restore s t with
  | none => exact .panic
  | some s =>
    simp only [Option.map_some]
    rw [handleNFlag_wear]
    cases handleNFlag cfg s e a b f with
    | none => exact .panic
    | some p =>
      obtain ⟨s, f, r⟩ := p
      cases r with
      | error e => exact .fail _ _ _
      | ok u =>
        simp only [Option.map_some]
        by_cases h : s.cnt.nst = 0
        · rw [if_pos h, if_pos (show (s.wear k).cnt.nst = 0 from h), reset_wear]; exact .again _ _ _
        · rw [if_neg h, if_neg (show ¬ (s.wear k).cnt.nst = 0 from h)]; exact .again _ _ _

theorem note_near {s : State ν n q K} {k : Skin n q K} (h1 : k.yy = s.m.yy) (h2 : k.yp = s.m.yp) (t ck : K) (o : AttOut) :
    (s.wear k).note t ck o = (s.note t ck o).wear k := by
  unfold State.note State.points
  simp only [State.wear, Mem.wear, h1, h2]

theorem noteAcc_near {s : State ν n q K} {k : Skin n q K} (h1 : k.yy = s.m.yy) (t : K) :
    (s.wear k).noteAcc t = (s.noteAcc t).wear k := by
  unfold State.noteAcc State.points
  simp only [State.wear, Mem.wear, h1]

theorem attempt_wear {cfg : Cfg ν n q K} (hb : NlsBlind cfg) (t : K) (s : State ν n q K) (f : Fails) (k : Skin n q K) :
    Attempt.Alike (attempt cfg t s f) (attempt cfg t (s.wear k) f) := by
  unfold attempt
  have h1 := trial_wear hb s k
  generalize trial cfg s = a at h1 ⊢
  generalize trial cfg (s.wear k) = a' at h1 ⊢
  cases h1 with
  | panic => exact .panic
  | diverge => exact .diverge
  | nlsFail s s' ck e hr =>
    obtain ⟨k, rfl, h1, h2⟩ := hr
    simp only
    rw [note_near h1 h2]
    exact attemptFailed_wear _ _ _ _ _ _ _ _
  | tested s s' ck r hr =>
    obtain ⟨k, rfl, h1, h2⟩ := hr
    simp only
    by_cases h : r.passed = true
    · rw [if_pos h, if_pos h, note_near h1 h2, noteAcc_near (s := s.note t ck .accepted) h1]; exact .done _ _ _ _ _
    · rw [if_neg h, if_neg h, note_near h1 h2]; exact attemptFailed_wear _ _ _ _ _ _ _ _

theorem orderAction_wear (cfg : Cfg ν n q K) (s : State ν n q K) (d : Bool) (a b : K) (k : Skin n q K) :
    orderAction cfg (s.wear k) d a b = orderAction cfg s d a b := rfl

theorem markPhase_wear (cfg : Cfg ν n q K) (s : State ν n q K) (k : Skin n q K) :
    markPhase cfg (s.wear k) = (markPhase cfg s).wear k := by
  unfold markPhase
  by_cases h : s.c.knew = s.c.kk - 1 ∨ s.c.kk = cfg.maxord
  · rw [if_pos h, if_pos (show (s.wear k).c.knew = (s.wear k).c.kk - 1 ∨ (s.wear k).c.kk = cfg.maxord from h)]; rfl
  · rw [if_neg h, if_neg (show ¬ ((s.wear k).c.knew = (s.wear k).c.kk - 1 ∨ (s.wear k).c.kk = cfg.maxord) from h)]

theorem chooseNext_wear (cfg : Cfg ν n q K) (s : State ν n q K) (d : Bool) (a b : K) (k : Skin n q K) :
    chooseNext cfg (s.wear k) d a b = (chooseNext cfg s d a b).map (·.wear k) := by
  unfold chooseNext
  rw [orderAction_wear]
  by_cases h : s.c.phase = 0
  · rw [if_pos h, if_pos (show (s.wear k).c.phase = 0 from h)]
    by_cases h' : s.cnt.nst > 1
    · rw [if_pos h', if_pos (show (s.wear k).cnt.nst > 1 from h')]; rfl
    · rw [if_neg h', if_neg (show ¬ (s.wear k).cnt.nst > 1 from h')]; rfl
  · rw [if_neg h, if_neg (show ¬ (s.wear k).c.phase = 0 from h)]
    cases orderAction cfg s d a b with
    | none => rfl
    | some p => rfl

theorem completeStep_wear (cfg : Cfg ν n q K) (s : State ν n q K) (a b : K) (k : Skin n q K) :
    completeStep cfg (s.wear k) a b = (completeStep cfg s a b).map (·.wear k) := by
  unfold completeStep
  show (if s.c.kk = 0 then none else
    match chooseNext cfg (markPhase cfg (State.wear { s with cnt.nst := s.cnt.nst + 1, c.kused := s.c.kk, c.hused := s.c.hh } k))
      (decide (s.c.kk = s.c.kused + 1)) a b with
    | none => none
    | some t =>
      if s.c.kk < mxordp1 ∧ (s.c.kk < cfg.maxord → s.c.kk + 1 < mxordp1) then
        some { t with h.phi := updatePhi cfg.maxord s.c.kk t.ee t.h.phi }
      else none) = _
  rw [markPhase_wear, chooseNext_wear]
  by_cases h : s.c.kk = 0
  · simp only [if_pos h]; rfl
  · simp only [if_neg h]
    cases chooseNext cfg (markPhase cfg { s with cnt.nst := s.cnt.nst + 1, c.kused := s.c.kk, c.hused := s.c.hh })
      (decide (s.c.kk = s.c.kused + 1)) a b with
    | none => rfl
    | some t =>
      simp only [Option.map_some]
      by_cases h : s.c.kk < mxordp1 ∧ (s.c.kk < cfg.maxord → s.c.kk + 1 < mxordp1)
      · simp only [if_pos h]; rfl
      · simp only [if_neg h]; rfl

/-- The states differ in the parts a step does not read. -/
def Sim (s s' : State ν n q K) : Prop := ∃ k : Skin n q K, s' = s.wear k

theorem stepLoop_wear {cfg : Cfg ν n q K} (hb : NlsBlind cfg) (t : K) (fuel : Nat) : ∀ (s : State ν n q K) (k : Skin n q K) (f : Fails),
    Out.Rel Sim (stepLoop cfg t fuel s f) (stepLoop cfg t fuel (s.wear k) f) := by
  induction fuel with
  | zero => intro s k f; exact .diverge
  | succ fuel ih =>
    intro s k f
    unfold stepLoop
    have h1 := attempt_wear hb t s f k
    generalize attempt cfg t s f = a at h1 ⊢
    generalize attempt cfg t (s.wear k) f = a' at h1 ⊢
    cases h1 with
    | panic => exact .panic
    | diverge => exact .diverge
    | again s k f => exact ih _ _ _
    | fail s k e => exact .ret _ _ _ ⟨k, rfl⟩
    | done s k a b c =>
      simp only
      rw [completeStep_wear]
      cases completeStep cfg s b c with
      | none => exact .panic
      | some s => exact .ret _ _ _ ⟨k, rfl⟩

/-- An internal step does not depend on the parts of the state that output requests change. -/
theorem step_wear {cfg : Cfg ν n q K} (hb : NlsBlind cfg) (s : State ν n q K) (k : Skin n q K) :
    Out.Rel Sim (step cfg s) (step cfg (s.wear k)) := by
  unfold step
  rw [firstStepInit_wear]
  exact stepLoop_wear hb _ _ _ _ _

end

end Verif
