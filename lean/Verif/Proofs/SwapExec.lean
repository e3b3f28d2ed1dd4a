import Verif.Proofs.Swap

/-!
# Two solvers that give the same corrections give the same integration (any scalar type)
-/

set_option autoImplicit false
set_option linter.unusedSectionVars false
set_option linter.unusedSimpArgs false
set_option linter.unusedVariables false

namespace Verif

universe u v w

section
variable {ν : Type v} {ν' : Type w} {n q : Nat} {K : Type u} [Scalar K]

/-- The same outcome of a nonlinear solve up to the solver. -/
inductive NlOut.Both (R : Gear ν n K → Gear ν' n K → Prop) : NlOut ν n K → NlOut ν' n K → Prop
  | ret (N : ν) (m : Mem n K) (k : Gear ν' n K) (ee : Vec n K) (r : Except Err Unit) : R (m.gear N) k →
      NlOut.Both R (.ret N m ee r) (.ret k.nls (m.swap k) ee r)
  | panic : NlOut.Both R .panic .panic
  | diverge : NlOut.Both R .diverge .diverge

/-- The solvers give the same results from corresponding objects: `R0` at any time, `R` once the linear solver has been
set up. -/
structure NlsSim (nls : NlSolver ν n K) (nls' : NlSolver ν' n K) (R0 R : Gear ν n K → Gear ν' n K → Prop) : Prop where
  weak : ∀ g k, R g k → R0 g k
  solve : ∀ N e m y0 y w tol call k, R0 (m.gear N) k → (call = false → R (m.gear N) k) →
    NlOut.Both R (nls.solve N e m y0 y w tol call) (nls'.solve k.nls e (m.swap k) y0 y w tol call)

/-- The same state up to the solver. -/
def FitSim (R0 R : Gear ν n K → Gear ν' n K → Prop) (s : State ν n q K) (s' : State ν' n q K) : Prop :=
  ∃ k, s' = s.fit k ∧ R0 s.gear k ∧ (s.cnt.nst ≠ 0 → R s.gear k)

/-- The same outcome, with related states. -/
inductive Out.Both {S : Type u} {S' : Type v} {α : Type w} (R : S → S' → Prop) : Out S α → Out S' α → Prop
  | ret (s : S) (s' : S') (r : Except Err α) : R s s' → Out.Both R (.ret s r) (.ret s' r)
  | panic : Out.Both R .panic .panic
  | diverge : Out.Both R .diverge .diverge

inductive Flow.Both {S : Type u} {S' : Type v} (R : S → S' → Prop) : Flow S → Flow S' → Prop
  | go (s : S) (s' : S') : R s s' → Flow.Both R (.go s) (.go s')
  | ret (s : S) (s' : S') (r : Except Err Status) : R s s' → Flow.Both R (.ret s r) (.ret s' r)
  | panic : Flow.Both R .panic .panic
  | diverge : Flow.Both R .diverge .diverge

theorem swap_inj {s s1 : State ν n q K} {k : Gear ν n K} {c : Counters} (h : s1 = s1.swap k c) : s1.gear = k ∧ s1.cnt = c :=
  ⟨by have := congrArg State.gear h; exact this, by have := congrArg State.cnt h; exact this⟩

variable {R0 R : Gear ν n K → Gear ν' n K → Prop}

theorem FitSim.out {α : Type} {s : State ν n q K} {s' : State ν' n q K} (f : State ν n q K → Out (State ν n q K) α)
    (f' : State ν' n q K → Out (State ν' n q K) α)
    (hf : ∀ k c, f (s.swap k c) = (f s).mapS (·.swap k c)) (hf' : ∀ k c, f' (s.swap k c) = (f s).mapS (·.swap k c))
    (h : FitSim R0 R s s') : Out.Both (FitSim R0 R) (f s) (f' s') := by
  obtain ⟨k, rfl, h0, h1⟩ := h
  have e1 := hf s.gear s.cnt
  have e2 := hf' k s.cnt
  rw [swap_self] at e1
  show Out.Both _ _ (f' (s.swap k s.cnt))
  rw [e2]
  cases h : f s with
  | panic => exact .panic
  | diverge => exact .diverge
  | ret s1 r =>
    rw [h] at e1
    have e3 : s1 = s1.swap s.gear s.cnt := by injection e1
    obtain ⟨e4, e5⟩ := swap_inj (s := s) e3
    refine .ret _ _ _ ⟨k, ?_, by rw [e4]; exact h0, by rw [e4, e5]; exact h1⟩
    unfold State.fit
    rw [e5]

theorem FitSim.opt {s : State ν n q K} {s' : State ν' n q K} (f : State ν n q K → Option (State ν n q K))
    (f' : State ν' n q K → Option (State ν' n q K))
    (hf : ∀ k c, f (s.swap k c) = (f s).map (·.swap k c)) (hf' : ∀ k c, f' (s.swap k c) = (f s).map (·.swap k c))
    (h : FitSim R0 R s s') : (f s = none ∧ f' s' = none) ∨ ∃ s1 s1', f s = some s1 ∧ f' s' = some s1' ∧ FitSim R0 R s1 s1' := by
  obtain ⟨k, rfl, h0, h1⟩ := h
  have e1 := hf s.gear s.cnt
  have e2 := hf' k s.cnt
  rw [swap_self] at e1
  cases h : f s with
  | none => rw [h] at e2; exact .inl ⟨rfl, e2⟩
  | some s1 =>
    rw [h] at e1 e2
    have e3 : s1 = s1.swap s.gear s.cnt := by injection e1
    obtain ⟨e4, e5⟩ := swap_inj (s := s) e3
    refine .inr ⟨s1, _, rfl, e2, ⟨k, ?_, by rw [e4]; exact h0, by rw [e4, e5]; exact h1⟩⟩
    unfold State.fit
    rw [e5]

/-! ## A step -/

theorem setCoeffs_swap (s : State ν n q K) (k : Gear ν' n K) (c : Counters) :
    setCoeffs (s.swap k c) = (setCoeffs s).map fun p => (p.1.swap k c, p.2) := by
  unfold setCoeffs
  by_cases hk : s.c.kk < mxordp1
  · rw [if_pos hk, if_pos (show (s.swap k c).c.kk < mxordp1 from hk)]; rfl
  · rw [if_neg hk, if_neg (show ¬ (s.swap k c).c.kk < mxordp1 from hk)]; rfl

theorem advanceTime_swap (s : State ν n q K) (k : Gear ν' n K) (c : Counters) :
    advanceTime (s.swap k c) = (advanceTime s).swap k c := rfl

theorem predict_swap (s : State ν n q K) (k : Gear ν' n K) (c : Counters) :
    predict (s.swap k c) = (predict s).map (·.swap k c) := by
  unfold predict
  by_cases hk : s.c.kk < mxordp1
  · rw [if_pos hk, if_pos (show (s.swap k c).c.kk < mxordp1 from hk)]; rfl
  · rw [if_neg hk, if_neg (show ¬ (s.swap k c).c.kk < mxordp1 from hk)]; rfl

variable (cfg : Cfg ν n q K) (nls' : NlSolver ν' n K)

theorem testError_swap (s : State ν n q K) (ck : K) (k : Gear ν' n K) (c : Counters) :
    testError (cfg.withNls nls') (s.swap k c) ck = (testError cfg s ck).map fun p => (p.1.swap k c, p.2) := by
  unfold testError
  by_cases hk : s.c.kk < mxordp1
  · rw [if_pos hk, if_pos (show (s.swap k c).c.kk < mxordp1 from hk)]; rfl
  · rw [if_neg hk, if_neg (show ¬ (s.swap k c).c.kk < mxordp1 from hk)]; rfl

theorem restore_swap (s : State ν n q K) (t : K) (k : Gear ν' n K) (c : Counters) :
    restore (s.swap k c) t = (restore s t).map (·.swap k c) := by
  unfold restore
  by_cases hk : s.c.kk < mxordp1
  · rw [if_pos hk, if_pos (show (s.swap k c).c.kk < mxordp1 from hk)]; rfl
  · rw [if_neg hk, if_neg (show ¬ (s.swap k c).c.kk < mxordp1 from hk)]; rfl

theorem nlsPrepare_fit (s : State ν n q K) (k : Gear ν' n K) :
    nlsPrepare (s.fit k) = ((nlsPrepare s).1.swap k, (nlsPrepare s).2) := by
  unfold nlsPrepare
  by_cases h0 : s.cnt.nst = 0
  · by_cases h1 : Scalar.neb s.e.cj s.c.cjlast = true
    · simp [State.fit, State.swap, Mem.swap, h0, h1]
    · simp [State.fit, State.swap, Mem.swap, h0, h1]
  · by_cases h1 : Scalar.neb s.e.cj s.c.cjlast = true
    · simp [State.fit, State.swap, Mem.swap, h0, h1]
    · simp [State.fit, State.swap, Mem.swap, h0, h1]

theorem nlsPrepare_gear (s : State ν n q K) : (nlsPrepare s).1.gear s.nls = s.gear := by
  have h := nlsPrepare_fit s s.gear
  rw [fit_self] at h
  have h1 := congrArg (fun p => p.1.gear s.nls) h
  exact h1

theorem nlsPrepare_call {s : State ν n q K} (h : (nlsPrepare s).2 = false) : s.cnt.nst ≠ 0 := by
  intro h0
  have : (nlsPrepare s).2 = true := by
    unfold nlsPrepare
    simp [h0]
  rw [this] at h
  cases h

/-- After the nonlinear solve the linear solver has been set up. -/
def FitReady (R : Gear ν n K → Gear ν' n K → Prop) (s : State ν n q K) (s' : State ν' n q K) : Prop :=
  ∃ k, s' = s.fit k ∧ R s.gear k

theorem FitReady.sim {s : State ν n q K} {s' : State ν' n q K} (hw : ∀ g k, R g k → R0 g k) (h : FitReady R s s') :
    FitSim R0 R s s' := by
  obtain ⟨k, h1, h2⟩ := h
  exact ⟨k, h1, hw _ _ h2, fun _ => h2⟩

variable {cfg nls'}

theorem nonlinearSolve_fit (hN : NlsSim cfg.nls nls' R0 R) {s : State ν n q K} {s' : State ν' n q K}
    (h : FitSim R0 R s s') : Out.Both (FitReady R) (nonlinearSolve cfg s) (nonlinearSolve (cfg.withNls nls') s') := by
  obtain ⟨k, rfl, h0, h1⟩ := h
  unfold nonlinearSolve
  simp only [nlsPrepare_fit]
  have hs := hN.solve s.nls s.e (nlsPrepare s).1 vzero s.ee s.e.ewt s.epsNewt (nlsPrepare s).2 k
    (by rw [nlsPrepare_gear]; exact h0) (fun hc => by rw [nlsPrepare_gear]; exact h1 (nlsPrepare_call hc))
  show Out.Both _ _ (match nls'.solve k.nls s.e ((nlsPrepare s).1.swap k) vzero s.ee s.e.ewt s.epsNewt
    (nlsPrepare s).2 with
    | .panic => _ | .diverge => _ | .ret N m ee r => _)
  generalize cfg.nls.solve s.nls s.e (nlsPrepare s).1 vzero s.ee s.e.ewt s.epsNewt (nlsPrepare s).2 = a at hs ⊢
  generalize nls'.solve k.nls s.e ((nlsPrepare s).1.swap k) vzero s.ee s.e.ewt s.epsNewt
    (nlsPrepare s).2 = a' at hs ⊢
  cases hs with
  | panic => exact .panic
  | diverge => exact .diverge
  | ret N m k' y r hr =>
    cases r with
    | error e => exact .ret _ _ _ ⟨k', rfl, hr⟩
    | ok u =>
      simp only
      show Out.Both _ _ (if cfg.constraintsSet = true then _ else _)
      split
      · exact .panic
      · exact .ret _ _ _ ⟨k', rfl, hr⟩

inductive Trial.Both (Q : State ν n q K → State ν' n q K → Prop) :
    Trial (State ν n q K) K → Trial (State ν' n q K) K → Prop
  | nlsFail (s : State ν n q K) (s' : State ν' n q K) (ck : K) (e : Err) : Q s s' →
      Trial.Both Q (.nlsFail s ck e) (.nlsFail s' ck e)
  | tested (s : State ν n q K) (s' : State ν' n q K) (ck : K) (t : TestRes K) : Q s s' →
      Trial.Both Q (.tested s ck t) (.tested s' ck t)
  | panic : Trial.Both Q .panic .panic
  | diverge : Trial.Both Q .diverge .diverge

theorem testError_keeps {s s1 : State ν n q K} {ck : K} {t : TestRes K} (h : testError cfg s ck = some (s1, t)) :
    s1.gear = s.gear ∧ s1.cnt = s.cnt := by
  unfold testError at h
  by_cases hk : s.c.kk < mxordp1
  · rw [if_pos hk] at h; cases h; exact ⟨rfl, rfl⟩
  · rw [if_neg hk] at h; cases h

theorem setCoeffs_keeps {s s1 : State ν n q K} {ck : K} (h : setCoeffs s = some (s1, ck)) :
    s1.gear = s.gear ∧ s1.cnt = s.cnt := by
  unfold setCoeffs at h
  by_cases hk : s.c.kk < mxordp1
  · rw [if_pos hk] at h; cases h; exact ⟨rfl, rfl⟩
  · rw [if_neg hk] at h; cases h

theorem predict_keeps {s s1 : State ν n q K} (h : predict s = some s1) : s1.gear = s.gear ∧ s1.cnt = s.cnt := by
  unfold predict at h
  by_cases hk : s.c.kk < mxordp1
  · rw [if_pos hk] at h; cases h; exact ⟨rfl, rfl⟩
  · rw [if_neg hk] at h; cases h

theorem restore_keeps {s s1 : State ν n q K} {t : K} (h : restore s t = some s1) : s1.gear = s.gear ∧ s1.cnt = s.cnt := by
  unfold restore at h
  by_cases hk : s.c.kk < mxordp1
  · rw [if_pos hk] at h; cases h; exact ⟨rfl, rfl⟩
  · rw [if_neg hk] at h; cases h

theorem trial_fit (hN : NlsSim cfg.nls nls' R0 R) {s : State ν n q K} {s' : State ν' n q K} (h : FitSim R0 R s s') :
    Trial.Both (FitReady R) (trial cfg s) (trial (cfg.withNls nls') s') := by
  obtain ⟨k, rfl, h0, h1⟩ := h
  unfold trial State.fit
  rw [setCoeffs_swap]
  cases hsc : setCoeffs s with
  | none => exact .panic
  | some p =>
    obtain ⟨s1, ck⟩ := p
    obtain ⟨g1, c1⟩ := setCoeffs_keeps hsc
    simp only [Option.map_some]
    rw [advanceTime_swap, predict_swap]
    cases hp : predict (advanceTime s1) with
    | none => exact .panic
    | some s2 =>
      obtain ⟨g2, c2⟩ := predict_keeps hp
      replace g2 : s2.gear = s.gear := g2.trans g1
      replace c2 : s2.cnt = s.cnt := c2.trans c1
      simp only [Option.map_some]
      have h2 : FitSim R0 R s2 (s2.swap k s.cnt) :=
        ⟨k, by unfold State.fit; rw [c2], by rw [g2]; exact h0, by rw [g2, c2]; exact h1⟩
      have h3 := nonlinearSolve_fit hN h2
      generalize nonlinearSolve cfg s2 = a at h3 ⊢
      generalize nonlinearSolve (cfg.withNls nls') (s2.swap k s.cnt) = a' at h3 ⊢
      cases h3 with
      | panic => exact .panic
      | diverge => exact .diverge
      | ret s s' r hr =>
        cases r with
        | error e => exact .nlsFail _ _ _ _ hr
        | ok u =>
          obtain ⟨k, rfl, h1⟩ := hr
          simp only [State.fit]
          rw [testError_swap]
          cases ht : testError cfg s ck with
          | none => exact .panic
          | some p =>
            obtain ⟨s3, t⟩ := p
            obtain ⟨g3, c3⟩ := testError_keeps ht
            exact .tested _ _ _ _ ⟨k, by unfold State.fit; rw [c3], by rw [g3]; exact h1⟩

theorem handleNFlag_fit (s : State ν n q K) (e : Err) (a b : K) (f : Fails) (k : Gear ν' n K) :
    handleNFlag (cfg.withNls nls') (s.fit k) e a b f = (handleNFlag cfg s e a b f).map fun p => (p.1.fit k, p.2) := by
  unfold handleNFlag
  cases e with
  | other m => rfl
  | nl e => rfl
  | ida e =>
    cases e with
    | testFail =>
      show (if f.nef + 1 = 1 then _ else if f.nef + 1 = 2 then _ else if f.nef + 1 < cfg.maxnef then _ else _) = _
      by_cases h1 : f.nef + 1 = 1
      · simp only [if_pos h1]; rfl
      · simp only [if_neg h1]
        by_cases h2 : f.nef + 1 = 2
        · simp only [if_pos h2]; rfl
        · simp only [if_neg h2]
          by_cases h3 : f.nef + 1 < cfg.maxnef
          · simp only [if_pos h3]; rfl
          · simp only [if_neg h3]; rfl
    | recoverableFail rec =>
      show (if f.ncf + 1 < cfg.maxncf then _ else _) = _
      by_cases h1 : f.ncf + 1 < cfg.maxncf
      · simp only [if_pos h1]; rfl
      · simp only [if_neg h1]; rfl
    | _ => rfl

theorem handleNFlag_gear {s s1 : State ν n q K} {e : Err} {a b : K} {f f' : Fails} {r : Except Err Unit}
    (h : handleNFlag cfg s e a b f = some (s1, f', r)) : s1.gear = s.gear := by
  have h1 := handleNFlag_fit (cfg := cfg) (nls' := cfg.nls) s e a b f s.gear
  rw [fit_self, show cfg.withNls cfg.nls = cfg from rfl, h] at h1
  simp only [Option.map_some, Option.some.injEq, Prod.mk.injEq] at h1
  have := congrArg State.gear h1.1
  exact this

inductive Attempt.Both (Q : State ν n q K → State ν' n q K → Prop) :
    Attempt (State ν n q K) K → Attempt (State ν' n q K) K → Prop
  | done (s : State ν n q K) (s' : State ν' n q K) (a b c : K) : Q s s' → Attempt.Both Q (.done s a b c) (.done s' a b c)
  | again (s : State ν n q K) (s' : State ν' n q K) (f : Fails) : Q s s' → Attempt.Both Q (.again s f) (.again s' f)
  | fail (s : State ν n q K) (s' : State ν' n q K) (e : Err) : Q s s' → Attempt.Both Q (.fail s e) (.fail s' e)
  | panic : Attempt.Both Q .panic .panic
  | diverge : Attempt.Both Q .diverge .diverge

theorem attemptFailed_fit (t : K) {s : State ν n q K} {s' : State ν' n q K} (e : Err) (a b : K) (f : Fails)
    (h : FitReady R s s') :
    Attempt.Both (FitReady R) (attemptFailed cfg t s e a b f) (attemptFailed (cfg.withNls nls') t s' e a b f) := by
  obtain ⟨k, rfl, h1⟩ := h
  unfold attemptFailed
  rw [State.fit, restore_swap]
  cases hr : restore s t with
  | none => exact .panic
  | some s1 =>
    obtain ⟨g1, c1⟩ := restore_keeps hr
    simp only [Option.map_some]
    rw [← c1, show s1.swap k s1.cnt = s1.fit k from rfl, handleNFlag_fit]
    cases hh : handleNFlag cfg s1 e a b f with
    | none => exact .panic
    | some p =>
      obtain ⟨s2, f, r⟩ := p
      have g2 := (handleNFlag_gear hh).trans g1
      cases r with
      | error e => exact .fail _ _ _ ⟨k, rfl, by rw [g2]; exact h1⟩
      | ok u =>
        simp only [Option.map_some]
        by_cases h : s2.cnt.nst = 0
        · rw [if_pos h, if_pos (show (s2.fit k).cnt.nst = 0 from h)]
          exact .again _ _ _ ⟨k, rfl, by rw [show (reset s2).gear = s2.gear from rfl, g2]; exact h1⟩
        · rw [if_neg h, if_neg (show ¬ (s2.fit k).cnt.nst = 0 from h)]
          exact .again _ _ _ ⟨k, rfl, by rw [g2]; exact h1⟩

theorem attempt_fit (hN : NlsSim cfg.nls nls' R0 R) (t : K) {s : State ν n q K} {s' : State ν' n q K} (f : Fails)
    (h : FitSim R0 R s s') : Attempt.Both (FitReady R) (attempt cfg t s f) (attempt (cfg.withNls nls') t s' f) := by
  unfold attempt
  have h1 := trial_fit hN h
  generalize trial cfg s = a at h1 ⊢
  generalize trial (cfg.withNls nls') s' = a' at h1 ⊢
  cases h1 with
  | panic => exact .panic
  | diverge => exact .diverge
  | nlsFail s s' ck e hr =>
    obtain ⟨k, rfl, h1⟩ := hr
    exact attemptFailed_fit _ _ _ _ _ ⟨k, rfl, h1⟩
  | tested s s' ck r hr =>
    obtain ⟨k, rfl, h1⟩ := hr
    simp only
    by_cases h : r.passed = true
    · rw [if_pos h, if_pos h]; exact .done _ _ _ _ _ ⟨k, rfl, h1⟩
    · rw [if_neg h, if_neg h]; exact attemptFailed_fit _ _ _ _ _ ⟨k, rfl, h1⟩

theorem markPhase_fit (s : State ν n q K) (k : Gear ν' n K) :
    markPhase (cfg.withNls nls') (s.fit k) = (markPhase cfg s).fit k := by
  unfold markPhase
  rw [apply_ite (fun s : State ν n q K => s.fit k)]
  rfl

theorem chooseNext_fit (s : State ν n q K) (d : Bool) (a b : K) (k : Gear ν' n K) :
    chooseNext (cfg.withNls nls') (s.fit k) d a b = (chooseNext cfg s d a b).map (·.fit k) := by
  unfold chooseNext
  rw [show orderAction (cfg.withNls nls') (s.fit k) d a b = orderAction cfg s d a b from rfl]
  by_cases h : s.c.phase = 0
  · rw [if_pos h, if_pos (show (s.fit k).c.phase = 0 from h)]
    by_cases h' : s.cnt.nst > 1
    · rw [if_pos h', if_pos (show (s.fit k).cnt.nst > 1 from h')]; rfl
    · rw [if_neg h', if_neg (show ¬ (s.fit k).cnt.nst > 1 from h')]; rfl
  · rw [if_neg h, if_neg (show ¬ (s.fit k).c.phase = 0 from h)]
    cases orderAction cfg s d a b with
    | none => rfl
    | some p => rfl

theorem completeStep_fit (s : State ν n q K) (a b : K) (k : Gear ν' n K) :
    completeStep (cfg.withNls nls') (s.fit k) a b = (completeStep cfg s a b).map (·.fit k) := by
  unfold completeStep
  show (if s.c.kk = 0 then none else
    match chooseNext (cfg.withNls nls') (markPhase (cfg.withNls nls')
      (State.fit { s with cnt.nst := s.cnt.nst + 1, c.kused := s.c.kk, c.hused := s.c.hh } k))
      (decide (s.c.kk = s.c.kused + 1)) a b with
    | none => none
    | some t =>
      if s.c.kk < mxordp1 ∧ (s.c.kk < cfg.maxord → s.c.kk + 1 < mxordp1) then
        some { t with h.phi := updatePhi cfg.maxord s.c.kk t.ee t.h.phi }
      else none) = _
  rw [markPhase_fit, chooseNext_fit]
  by_cases h : s.c.kk = 0
  · simp only [if_pos h]; rfl
  · simp only [if_neg h]
    cases chooseNext cfg (markPhase cfg { s with cnt.nst := s.cnt.nst + 1, c.kused := s.c.kk, c.hused := s.c.hh })
      (decide (s.c.kk = s.c.kused + 1)) a b with
    | none => rfl
    | some t =>
      simp only [Option.map_some]
      by_cases h : s.c.kk < mxordp1 ∧ (s.c.kk < cfg.maxord → s.c.kk + 1 < mxordp1)
      · simp only [if_pos h]; rfl
      · simp only [if_neg h]; rfl

theorem completeStep_gear {s s1 : State ν n q K} {a b : K} (h : completeStep cfg s a b = some s1) : s1.gear = s.gear := by
  have h1 := completeStep_fit (cfg := cfg) (nls' := cfg.nls) s a b s.gear
  rw [fit_self, show cfg.withNls cfg.nls = cfg from rfl, h] at h1
  simp only [Option.map_some, Option.some.injEq] at h1
  have := congrArg State.gear h1
  exact this

theorem stepLoop_fit (hN : NlsSim cfg.nls nls' R0 R) (t : K) (fuel : Nat) :
    ∀ (s : State ν n q K) (s' : State ν' n q K) (f : Fails), FitSim R0 R s s' →
    Out.Both (FitReady R) (stepLoop cfg t fuel s f) (stepLoop (cfg.withNls nls') t fuel s' f) := by
  induction fuel with
  | zero => intro s s' f h; exact .diverge
  | succ fuel ih =>
    intro s s' f h
    unfold stepLoop
    have h1 := attempt_fit hN t f h
    generalize attempt cfg t s f = a at h1 ⊢
    generalize attempt (cfg.withNls nls') t s' f = a' at h1 ⊢
    cases h1 with
    | panic => exact .panic
    | diverge => exact .diverge
    | again s s' f hr => exact ih _ _ _ (hr.sim hN.weak)
    | fail s s' e hr => exact .ret _ _ _ hr
    | done s s' a b c hr =>
      obtain ⟨k, rfl, h2⟩ := hr
      simp only
      rw [completeStep_fit]
      cases hc : completeStep cfg s b c with
      | none => exact .panic
      | some s1 => exact .ret _ _ _ ⟨k, rfl, by
          show R (State.gear s1) k
          rw [completeStep_gear hc]; exact h2⟩

theorem step_fit (hN : NlsSim cfg.nls nls' R0 R) {s : State ν n q K} {s' : State ν' n q K} (h : FitSim R0 R s s') :
    Out.Both (FitSim R0 R) (step cfg s) (step (cfg.withNls nls') s') := by
  obtain ⟨k, rfl, h0, h1⟩ := h
  have h2 : FitSim R0 R (firstStepInit s) (firstStepInit (s.fit k)) := by
    unfold firstStepInit
    by_cases h : s.cnt.nst = 0
    · rw [if_pos h, if_pos (show (s.fit k).cnt.nst = 0 from h)]
      exact ⟨k, rfl, h0, h1⟩
    · rw [if_neg h, if_neg (show ¬ (s.fit k).cnt.nst = 0 from h)]
      exact ⟨k, rfl, h0, h1⟩
  have h3 := stepLoop_fit hN s.e.tn (max cfg.maxnef 3 + cfg.maxncf + 1) _ _ { ncf := 0, nef := 0 } h2
  unfold step
  show Out.Both _ (stepLoop cfg s.e.tn (max cfg.maxnef 3 + cfg.maxncf + 1) (firstStepInit s) { ncf := 0, nef := 0 })
    (stepLoop (cfg.withNls nls') s.e.tn (max cfg.maxnef 3 + cfg.maxncf + 1) (firstStepInit (s.fit k)) { ncf := 0, nef := 0 })
  generalize stepLoop cfg s.e.tn (max cfg.maxnef 3 + cfg.maxncf + 1) (firstStepInit s) { ncf := 0, nef := 0 } = a at h3 ⊢
  generalize stepLoop (cfg.withNls nls') s.e.tn (max cfg.maxnef 3 + cfg.maxncf + 1) (firstStepInit (s.fit k))
    { ncf := 0, nef := 0 } = a' at h3 ⊢
  cases h3 with
  | panic => exact .panic
  | diverge => exact .diverge
  | ret s s' r hr => exact .ret _ _ _ (hr.sim hN.weak)

/-! ## A call of `solve` -/

theorem stopTest1_fit {s : State ν n q K} {s' : State ν' n q K} (h : FitSim R0 R s s') (tout : K) (task : Task) :
    Out.Both (FitSim R0 R) (stopTest1 s tout task) (stopTest1 s' tout task) :=
  h.out (fun s => stopTest1 s tout task) (fun s => stopTest1 s tout task) (fun k c => stopTest1_swap k c s tout task) (fun k c => stopTest1_swap k c s tout task)

theorem stopTest2_fit {s : State ν n q K} {s' : State ν' n q K} (h : FitSim R0 R s s') (tout : K) (task : Task) :
    Out.Both (FitSim R0 R) (stopTest2 s tout task) (stopTest2 s' tout task) :=
  h.out (fun s => stopTest2 s tout task) (fun s => stopTest2 s tout task) (fun k c => stopTest2_swap k c s tout task) (fun k c => stopTest2_swap k c s tout task)

theorem getSolution_fit {s : State ν n q K} {s' : State ν' n q K} (h : FitSim R0 R s s') (t : K) :
    Out.Both (FitSim R0 R) (getSolution s t) (getSolution s' t) :=
  h.out (fun s => getSolution s t) (fun s => getSolution s t) (fun k c => getSolution_swap k c s t) (fun k c => getSolution_swap k c s t)

theorem rCheck2_fit {s : State ν n q K} {s' : State ν' n q K} (h : FitSim R0 R s s') :
    Out.Both (FitSim R0 R) (rCheck2 cfg s) (rCheck2 (cfg.withNls nls') s') :=
  h.out _ _ (fun k c => rCheck2_swap k c cfg cfg.nls s) (fun k c => rCheck2_swap k c cfg nls' s)

theorem rCheck3_fit {s : State ν n q K} {s' : State ν' n q K} (rf : Nat) (h : FitSim R0 R s s') :
    Out.Both (FitSim R0 R) (rCheck3 cfg rf s) (rCheck3 (cfg.withNls nls') rf s') :=
  h.out _ _ (fun k c => rCheck3_swap k c cfg cfg.nls rf s) (fun k c => rCheck3_swap k c cfg nls' rf s)

theorem getSolution'_fit {s : State ν n q K} {s' : State ν' n q K} (h : FitSim R0 R s s') (t : K) :
    (getSolution' s t = none ∧ getSolution' s' t = none) ∨
    ∃ s1 s1', getSolution' s t = some s1 ∧ getSolution' s' t = some s1' ∧ FitSim R0 R s1 s1' :=
  h.opt (fun s => getSolution' s t) (fun s => getSolution' s t) (fun k c => getSolution'_swap k c s t)
    (fun k c => getSolution'_swap k c s t)

theorem ofStop_both {Q : State ν n q K → State ν' n q K → Prop} {a : Out (State ν n q K) Status}
    {a' : Out (State ν' n q K) Status} (h : Out.Both Q a a') : Flow.Both Q (Flow.ofStop a) (Flow.ofStop a') := by
  cases h with
  | panic => exact .panic
  | diverge => exact .diverge
  | ret s s' r hr =>
    cases r with
    | error e => exact .ret _ _ _ hr
    | ok st => cases st with
      | continueSteps => exact .go _ _ hr
      | success => exact .ret _ _ _ hr
      | tstop => exact .ret _ _ _ hr
      | root => exact .ret _ _ _ hr

theorem stepFailed_fit {s : State ν n q K} {s' : State ν' n q K} (h : FitSim R0 R s s') (e : Err) :
    Flow.Both (FitSim R0 R) (stepFailed s e) (stepFailed s' e) := by
  unfold stepFailed
  have he : s'.e.tn = s.e.tn := by obtain ⟨k, rfl, -⟩ := h; rfl
  rw [he]
  have h1 := getSolution_fit h s.e.tn
  generalize getSolution s s.e.tn = a at h1 ⊢
  generalize getSolution s' s.e.tn = a' at h1 ⊢
  cases h1 with
  | panic => exact .panic
  | diverge => exact .diverge
  | ret s s' r hr =>
    cases r with
    | error e => exact .ret _ _ _ hr
    | ok st =>
      obtain ⟨k, rfl, h0, h1⟩ := hr
      exact .ret _ _ _ ⟨k, rfl, h0, h1⟩

theorem postStep_fit {s : State ν n q K} {s' : State ν' n q K} (rf : Nat) (h : FitSim R0 R s s') (tout : K) (task : Task) :
    Flow.Both (FitSim R0 R) (postStep cfg rf s tout task) (postStep (cfg.withNls nls') rf s' tout task) := by
  unfold postStep
  by_cases hq : q > 0
  · rw [if_pos hq, if_pos hq]
    have h1 := rCheck3_fit (cfg := cfg) (nls' := nls') rf h
    generalize rCheck3 cfg rf s = a at h1 ⊢
    generalize rCheck3 (cfg.withNls nls') rf s' = a' at h1 ⊢
    cases h1 with
    | panic => exact .panic
    | diverge => exact .diverge
    | ret s s' r hr =>
      cases r with
      | error e => exact .ret _ _ _ hr
      | ok st => cases st with
        | rootFound =>
          obtain ⟨k, rfl, h0, h1⟩ := hr
          exact .ret _ _ _ ⟨k, rfl, h0, h1⟩
        | continue_ => exact ofStop_both (stopTest2_fit hr tout task)
  · rw [if_neg hq, if_neg hq]
    exact ofStop_both (stopTest2_fit h tout task)

theorem perfCheck_fit (s : State ν n q K) (k : Gear ν' n K) : perfCheck (s.fit k) = (perfCheck s).map (·.fit k) := by
  unfold perfCheck
  show (if s.cnt.nst < s.perf.nst0 ∨ s.cnt.nni < s.perf.nni0 then _ else _) = _
  by_cases h1 : s.cnt.nst < s.perf.nst0 ∨ s.cnt.nni < s.perf.nni0
  · rw [if_pos h1, if_pos h1]; rfl
  · rw [if_neg h1, if_neg h1]
    show (if s.cnt.nst - s.perf.nst0 = 0 ∨ s.cnt.nni - s.perf.nni0 = 0 then _ else _) =
      Option.map _ (if s.cnt.nst - s.perf.nst0 = 0 ∨ s.cnt.nni - s.perf.nni0 = 0 then _ else _)
    by_cases h2 : s.cnt.nst - s.perf.nst0 = 0 ∨ s.cnt.nni - s.perf.nni0 = 0
    · rw [if_pos h2, if_pos h2]; rfl
    · rw [if_neg h2, if_neg h2]
      show (if s.cnt.ncfn < s.perf.ncfn0 ∨ s.m.ncfl < s.perf.ncfl0 then _ else _) = _
      by_cases h3 : s.cnt.ncfn < s.perf.ncfn0 ∨ s.m.ncfl < s.perf.ncfl0
      · rw [if_pos h3, if_pos h3]; rfl
      · rw [if_neg h3, if_neg h3]
        show (if 10 * (s.cnt.ncfn - s.perf.ncfn0) > 9 * (s.cnt.nst - s.perf.nst0) ∨
            10 * (s.m.ncfl - s.perf.ncfl0) > 9 * (s.cnt.nni - s.perf.nni0) then _ else _) = _
        by_cases h4 : 10 * (s.cnt.ncfn - s.perf.ncfn0) > 9 * (s.cnt.nst - s.perf.nst0) ∨
            10 * (s.m.ncfl - s.perf.ncfl0) > 9 * (s.cnt.nni - s.perf.nni0)
        · rw [if_pos h4, if_pos h4]; rfl
        · rw [if_neg h4, if_neg h4]; rfl

theorem perfCheck_keeps {s s1 : State ν n q K} (h : perfCheck s = some s1) : s1.gear = s.gear ∧ s1.cnt = s.cnt := by
  unfold perfCheck at h
  simp only at h
  repeat' split at h
  all_goals first
    | cases h; exact ⟨rfl, rfl⟩
    | cases h

/-- The part of `preStep` after the performance check. -/
def preRest (cfg : Cfg ν n q K) (s : State ν n q K) : Flow (State ν n q K) :=
  let s := if s.cnt.nst > 0 then { s with e.ewt := cfg.ewtSet (s.h.phi 0) s.e.ewt } else s
  let bad := decide (s.cnt.nst > 0) && Fin.foldl n (fun b i => b || Scalar.le (s.e.ewt i) 0) false
  if bad then
    match getSolution' s s.e.tn with
    | none => .panic
    | some s => .ret (s.setTret s.e.tn) (.error (.ida .illegalInput))
  else
    let nrm := wrmsNorm cfg.id (s.h.phi 0) s.e.ewt cfg.suppressalg
    let tolsf := Scalar.eps * nrm
    let s := { s with tolsf := tolsf }
    if Scalar.gt tolsf 1 then
      let s := ({ s with tolsf := tolsf * Scalar.ten }).setTret s.e.tn
      match (if s.cnt.nst > 0 then getSolution' s s.e.tn else some s) with
      | none => .panic
      | some s => .ret s (.error (.ida .tooMuchAccuracy))
    else .go s

theorem preStep_parts (cfg : Cfg ν n q K) (s : State ν n q K) (j : Nat) : preStep cfg s j =
    if cfg.mxstep > 0 ∧ j ≥ cfg.mxstep then .ret (s.setTret s.e.tn) (.error (.ida .illegalInput)) else
      match perfCheck s with
      | none => .panic
      | some s => preRest cfg s := rfl

theorem preRest_fit {s : State ν n q K} {s' : State ν' n q K} (h : FitSim R0 R s s') :
    Flow.Both (FitSim R0 R) (preRest cfg s) (preRest (cfg.withNls nls') s') := by
  obtain ⟨k, rfl, h0, h1⟩ := h
  unfold preRest
  have e1 : (if (s.fit k).cnt.nst > 0 then { s.fit k with e.ewt := (cfg.withNls nls').ewtSet ((s.fit k).h.phi 0) (s.fit k).e.ewt }
      else s.fit k) = State.fit (if s.cnt.nst > 0 then { s with e.ewt := cfg.ewtSet (s.h.phi 0) s.e.ewt } else s) k := by
    rw [apply_ite (fun s : State ν n q K => s.fit k)]
    rfl
  rw [e1]
  have e2 : FitSim R0 R (if s.cnt.nst > 0 then { s with e.ewt := cfg.ewtSet (s.h.phi 0) s.e.ewt } else s)
      (State.fit (if s.cnt.nst > 0 then { s with e.ewt := cfg.ewtSet (s.h.phi 0) s.e.ewt } else s) k) := by
    refine ⟨k, rfl, ?_, ?_⟩ <;> split <;> first | exact h0 | exact h1
  clear e1 h0 h1
  generalize (if s.cnt.nst > 0 then { s with e.ewt := cfg.ewtSet (s.h.phi 0) s.e.ewt } else s) = s1 at e2 ⊢
  simp only
  show Flow.Both _ _ (if (decide (s1.cnt.nst > 0) && Fin.foldl n (fun b i => b || Scalar.le (s1.e.ewt i) 0) false) = true
    then _ else _)
  by_cases hb : (decide (s1.cnt.nst > 0) && Fin.foldl n (fun b i => b || Scalar.le (s1.e.ewt i) 0) false) = true
  · rw [if_pos hb, if_pos hb]
    rcases getSolution'_fit e2 s1.e.tn with ⟨h3, h4⟩ | ⟨s2, s2', h3, h4, h5⟩
    · rw [h3]
      show Flow.Both _ _ (match getSolution' (s1.fit k) s1.e.tn with | none => _ | some s => _)
      rw [h4]; exact .panic
    · rw [h3]
      show Flow.Both _ _ (match getSolution' (s1.fit k) s1.e.tn with | none => _ | some s => _)
      rw [h4]
      obtain ⟨k, rfl, h0, h1⟩ := h5
      exact .ret _ _ _ ⟨k, rfl, h0, h1⟩
  · rw [if_neg hb, if_neg hb]
    show Flow.Both _ _ (if Scalar.gt (Scalar.eps * wrmsNorm cfg.id (s1.h.phi 0) s1.e.ewt cfg.suppressalg) 1 = true then _ else _)
    obtain ⟨k', he, h0, h1⟩ := e2
    by_cases ht : Scalar.gt (Scalar.eps * wrmsNorm cfg.id (s1.h.phi 0) s1.e.ewt cfg.suppressalg) 1 = true
    · rw [if_pos ht, if_pos ht, he]
      generalize hs2 : State.setTret ({ ({ s1 with tolsf := Scalar.eps * wrmsNorm cfg.id (s1.h.phi 0) s1.e.ewt cfg.suppressalg } :
        State ν n q K) with tolsf := Scalar.eps * wrmsNorm cfg.id (s1.h.phi 0) s1.e.ewt cfg.suppressalg * Scalar.ten } :
        State ν n q K) s1.e.tn = s2
      have e2 : FitSim R0 R s2 (s2.fit k') := by rw [← hs2]; exact ⟨k', rfl, h0, h1⟩
      show Flow.Both _ _ (match (if (State.fit (State.setTret ({ s1 with
          tolsf := Scalar.eps * wrmsNorm cfg.id (s1.h.phi 0) s1.e.ewt cfg.suppressalg * Scalar.ten } :
        State ν n q K) s1.e.tn) k').cnt.nst > 0 then getSolution' (State.fit (State.setTret ({ s1 with
          tolsf := Scalar.eps * wrmsNorm cfg.id (s1.h.phi 0) s1.e.ewt cfg.suppressalg * Scalar.ten } :
        State ν n q K) s1.e.tn) k') (State.fit (State.setTret ({ s1 with
          tolsf := Scalar.eps * wrmsNorm cfg.id (s1.h.phi 0) s1.e.ewt cfg.suppressalg * Scalar.ten } :
        State ν n q K) s1.e.tn) k').e.tn else some (State.fit (State.setTret ({ s1 with
          tolsf := Scalar.eps * wrmsNorm cfg.id (s1.h.phi 0) s1.e.ewt cfg.suppressalg * Scalar.ten } :
        State ν n q K) s1.e.tn) k')) with | none => _ | some s => _)
      rw [hs2]
      show Flow.Both _ _ (match (if s2.cnt.nst > 0 then getSolution' (s2.fit k') s2.e.tn else some (s2.fit k')) with
        | none => _ | some s => _)
      by_cases hn : s2.cnt.nst > 0
      · rw [if_pos hn, if_pos hn]
        rcases getSolution'_fit e2 s2.e.tn with ⟨h3, h4⟩ | ⟨s3, s3', h3, h4, h5⟩
        · rw [h3, h4]; exact .panic
        · rw [h3, h4]; exact .ret _ _ _ h5
      · rw [if_neg hn, if_neg hn]; exact .ret _ _ _ e2
    · rw [if_neg ht, if_neg ht, he]
      exact .go _ _ ⟨k', rfl, h0, h1⟩

theorem preStep_fit {s : State ν n q K} {s' : State ν' n q K} (j : Nat) (h : FitSim R0 R s s') :
    Flow.Both (FitSim R0 R) (preStep cfg s j) (preStep (cfg.withNls nls') s' j) := by
  rw [preStep_parts, preStep_parts]
  obtain ⟨k, rfl, h0, h1⟩ := h
  show Flow.Both _ _ (if cfg.mxstep > 0 ∧ j ≥ cfg.mxstep then _ else _)
  by_cases hm : cfg.mxstep > 0 ∧ j ≥ cfg.mxstep
  · rw [if_pos hm, if_pos hm]; exact .ret _ _ _ ⟨k, rfl, h0, h1⟩
  · rw [if_neg hm, if_neg hm, perfCheck_fit]
    cases hp : perfCheck s with
    | none => exact .panic
    | some s1 =>
      obtain ⟨g1, c1⟩ := perfCheck_keeps hp
      simp only [Option.map_some]
      exact preRest_fit ⟨k, rfl, by rw [g1]; exact h0, by rw [g1, c1]; exact h1⟩

theorem solvePass_fit (hN : NlsSim cfg.nls nls' R0 R) {s : State ν n q K} {s' : State ν' n q K} (rf : Nat) (tout : K)
    (task : Task) (j : Nat) (h : FitSim R0 R s s') :
    Flow.Both (FitSim R0 R) (solvePass cfg rf s tout task j) (solvePass (cfg.withNls nls') rf s' tout task j) := by
  unfold solvePass
  have h1 := preStep_fit (cfg := cfg) (nls' := nls') j h
  generalize preStep cfg s j = a at h1 ⊢
  generalize preStep (cfg.withNls nls') s' j = a' at h1 ⊢
  cases h1 with
  | panic => exact .panic
  | diverge => exact .diverge
  | ret s s' r hr => exact .ret _ _ _ hr
  | go s s' hr =>
    simp only
    have h2 := step_fit hN hr
    generalize step cfg s = a at h2 ⊢
    generalize step (cfg.withNls nls') s' = a' at h2 ⊢
    cases h2 with
    | panic => exact .panic
    | diverge => exact .diverge
    | ret s s' r hr =>
      cases r with
      | error e => exact stepFailed_fit hr e
      | ok u => exact postStep_fit rf hr tout task

theorem andThen_both {Q : State ν n q K → State ν' n q K → Prop} {a : Flow (State ν n q K)} {a' : Flow (State ν' n q K)}
    (h : Flow.Both Q a a') {f : State ν n q K → Out (State ν n q K) Status} {f' : State ν' n q K → Out (State ν' n q K) Status}
    (hf : ∀ s s', Q s s' → Out.Both Q (f s) (f' s')) : Out.Both Q (a.andThen f) (a'.andThen f') := by
  cases h with
  | panic => exact .panic
  | diverge => exact .diverge
  | ret s s' r hr => exact .ret _ _ _ hr
  | go s s' hr => exact hf _ _ hr

theorem solveLoop_fit (hN : NlsSim cfg.nls nls' R0 R) (rf : Nat) (tout : K) (task : Task) (sf : Nat) :
    ∀ (s : State ν n q K) (s' : State ν' n q K) (j : Nat), FitSim R0 R s s' →
    Out.Both (FitSim R0 R) (solveLoop cfg rf tout task sf s j) (solveLoop (cfg.withNls nls') rf tout task sf s' j) := by
  induction sf with
  | zero => intro s s' j h; exact .diverge
  | succ sf ih =>
    intro s s' j h
    unfold solveLoop
    exact andThen_both (solvePass_fit hN rf tout task j h) fun s s' hs => ih s s' (j + 1) hs

theorem rootChecks_fit {s : State ν n q K} {s' : State ν' n q K} (rf : Nat) (task : Task) (h : FitSim R0 R s s') :
    Flow.Both (FitSim R0 R) (rootChecks cfg rf s task) (rootChecks (cfg.withNls nls') rf s' task) := by
  unfold rootChecks
  have hi : s'.r.irfnd = s.r.irfnd := by obtain ⟨k, rfl, -⟩ := h; rfl
  rw [hi]
  generalize s.r.irfnd = irf
  have h1 := rCheck2_fit (cfg := cfg) (nls' := nls') h
  generalize rCheck2 cfg s = a at h1 ⊢
  generalize rCheck2 (cfg.withNls nls') s' = a' at h1 ⊢
  cases h1 with
  | panic => exact .panic
  | diverge => exact .diverge
  | ret s s' r hr =>
    cases r with
    | error e => exact .ret _ _ _ hr
    | ok st => cases st with
      | rootFound =>
        obtain ⟨k, rfl, h0, h1⟩ := hr
        exact .ret _ _ _ ⟨k, rfl, h0, h1⟩
      | continue_ =>
        simp only
        have he : s'.e = s.e := by obtain ⟨k, rfl, -⟩ := hr; rfl
        have hc : s'.c = s.c := by obtain ⟨k, rfl, -⟩ := hr; rfl
        have ht : s'.tretlast = s.tretlast := by obtain ⟨k, rfl, -⟩ := hr; rfl
        rw [he, hc, ht]
        by_cases hg : Scalar.gt (Scalar.abs (s.e.tn - s.tretlast))
          ((Scalar.abs s.e.tn + Scalar.abs s.c.hh) * Scalar.eps * Scalar.hundred) = true
        · rw [if_pos hg, if_pos hg]
          have h1 := rCheck3_fit (cfg := cfg) (nls' := nls') rf hr
          generalize rCheck3 cfg rf s = a at h1 ⊢
          generalize rCheck3 (cfg.withNls nls') rf s' = a' at h1 ⊢
          cases h1 with
          | panic => exact .panic
          | diverge => exact .diverge
          | ret s s' r hr =>
            cases r with
            | error e => exact .ret _ _ _ hr
            | ok st => cases st with
              | rootFound =>
                obtain ⟨k, rfl, h0, h1⟩ := hr
                exact .ret _ _ _ ⟨k, rfl, h0, h1⟩
              | continue_ =>
                obtain ⟨k, rfl, h0, h1⟩ := hr
                simp only
                by_cases hk : task = .oneStep ∧ irf = true
                · rw [if_pos hk, if_pos hk]
                  have h2 : FitSim R0 R (State.setTret { s with r.irfnd := false } s.e.tn)
                    (State.fit (State.setTret { s with r.irfnd := false } s.e.tn) k) := ⟨k, rfl, h0, h1⟩
                  show Flow.Both _ _ (match getSolution' (State.fit (State.setTret { s with r.irfnd := false } s.e.tn) k)
                    s.e.tn with | none => _ | some s => _)
                  rcases getSolution'_fit h2 s.e.tn with ⟨h3, h4⟩ | ⟨s3, s3', h3, h4, h5⟩
                  · rw [h3, h4]; exact .panic
                  · rw [h3, h4]; exact .ret _ _ _ h5
                · rw [if_neg hk, if_neg hk]
                  exact .go _ _ ⟨k, rfl, h0, h1⟩
        · rw [if_neg hg, if_neg hg]
          exact .go _ _ hr

theorem laterCall_fit {s : State ν n q K} {s' : State ν' n q K} (rf : Nat) (tout : K) (task : Task) (h : FitSim R0 R s s') :
    Flow.Both (FitSim R0 R) (laterCall cfg rf s tout task) (laterCall (cfg.withNls nls') rf s' tout task) := by
  unfold laterCall
  have h1 : Flow.Both (FitSim R0 R) (if q > 0 then rootChecks cfg rf s task else Flow.go s)
      (if q > 0 then rootChecks (cfg.withNls nls') rf s' task else Flow.go s') := by
    by_cases hq : q > 0
    · rw [if_pos hq, if_pos hq]; exact rootChecks_fit rf task h
    · rw [if_neg hq, if_neg hq]; exact .go _ _ h
  generalize (if q > 0 then rootChecks cfg rf s task else Flow.go s) = a at h1 ⊢
  generalize (if q > 0 then rootChecks (cfg.withNls nls') rf s' task else Flow.go s') = a' at h1 ⊢
  cases h1 with
  | panic => exact .panic
  | diverge => exact .diverge
  | ret s s' r hr => exact .ret _ _ _ hr
  | go s s' hr => exact ofStop_both (stopTest1_fit hr tout task)

theorem firstReady_fit (s : State ν n q K) (k : Gear ν' n K) :
    firstReady (cfg.withNls nls') (s.fit k) = (firstReady cfg s).fit k := by
  unfold firstReady
  by_cases hq : q > 0
  · simp only [if_pos hq]
    have h1 := rCheck1_swap k s.cnt cfg nls' { s with h0u := s.c.hh, c.kk := 0, c.kused := 0 }
    have h2 := rCheck1_swap s.gear s.cnt cfg cfg.nls { s with h0u := s.c.hh, c.kk := 0, c.kused := 0 }
    have h3 : (rCheck1 cfg { s with h0u := s.c.hh, c.kk := 0, c.kused := 0 }).cnt = s.cnt := by
      have := congrArg State.cnt h2
      exact this
    rw [show ({ s.fit k with h0u := (s.fit k).c.hh, c.kk := 0, c.kused := 0 } : State ν' n q K) =
      State.swap { s with h0u := s.c.hh, c.kk := 0, c.kused := 0 } k s.cnt from rfl, h1]
    generalize rCheck1 cfg { s with h0u := s.c.hh, c.kk := 0, c.kused := 0 } = s1 at h3 ⊢
    show _ = State.swap _ k s1.cnt
    rw [h3]
    rfl
  · simp only [if_neg hq]; rfl

theorem firstReady_keeps (s : State ν n q K) : (firstReady cfg s).gear = s.gear ∧ (firstReady cfg s).cnt = s.cnt := by
  have h2 := rCheck1_swap s.gear s.cnt cfg cfg.nls { s with h0u := s.c.hh, c.kk := 0, c.kused := 0 }
  unfold firstReady
  by_cases hq : q > 0
  · simp only [if_pos hq]
    obtain ⟨h3, h4⟩ := swap_inj (s := s) (s1 := rCheck1 cfg { s with h0u := s.c.hh, c.kk := 0, c.kused := 0 }) h2
    exact ⟨h3, h4⟩
  · simp only [if_neg hq]
    exact ⟨rfl, trivial⟩

theorem firstStop_swap (s : State ν n q K) (k : Gear ν' n K) (c : Counters) :
    firstStop (s.swap k c) = (firstStop s).map (·.swap k c) := by
  unfold firstStop
  show (match s.tstop with | some tstop => _ | none => _) = _
  cases s.tstop with
  | none => rfl
  | some t =>
    simp only
    show (if Scalar.le ((t - s.e.tn) * s.c.hh) 0 = true then _ else _) = _
    by_cases h : Scalar.le ((t - s.e.tn) * s.c.hh) 0 = true
    · rw [if_pos h, if_pos h]; rfl
    · rw [if_neg h, if_neg h, clampToStop_swap]; rfl

theorem initialSetup_fit (s : State ν n q K) (k : Gear ν' n K) :
    initialSetup (cfg.withNls nls') (s.fit k) = (initialSetup cfg s).fit k := by
  unfold initialSetup
  rw [apply_ite (fun s : State ν n q K => s.fit k)]
  rfl

theorem firstCall_fit {s : State ν n q K} {s' : State ν' n q K} (tout : K) (h : FitSim R0 R s s') :
    Out.Both (FitSim R0 R) (firstCall cfg s tout) (firstCall (cfg.withNls nls') s' tout) := by
  obtain ⟨k, rfl, h0, h1⟩ := h
  unfold firstCall
  rw [initialSetup_fit]
  have hg : (initialSetup cfg s).gear = s.gear ∧ (initialSetup cfg s).cnt = s.cnt := by
    unfold initialSetup; split <;> exact ⟨rfl, rfl⟩
  rw [← hg.1] at h0 h1
  rw [← hg.2] at h1
  generalize initialSetup cfg s = s1 at h0 h1 ⊢
  clear hg
  simp only
  rw [show tooClose (s1.fit k) tout = tooClose s1 tout from rfl]
  by_cases ht : tooClose s1 tout = true
  · rw [if_pos ht, if_pos ht]; exact .ret _ _ _ ⟨k, rfl, h0, h1⟩
  · rw [if_neg ht, if_neg ht]
    show Out.Both _ _ (if wrongWay cfg { s1 with c.hh := cfg.hin } tout = true then _ else _)
    by_cases hw : wrongWay cfg { s1 with c.hh := cfg.hin } tout = true
    · rw [if_pos hw, if_pos hw]; exact .ret _ _ _ ⟨k, rfl, h0, h1⟩
    · rw [if_neg hw, if_neg hw]
      generalize hs2 : ({ s1 with c.hh := firstStepSize cfg { s1 with c.hh := cfg.hin } tout (Scalar.abs (tout - s1.e.tn)) } :
        State ν n q K) = s2
      have e2 : s2.gear = s1.gear ∧ s2.cnt = s1.cnt := by rw [← hs2]; exact ⟨rfl, rfl⟩
      show Out.Both _ _ (match firstStop (State.fit { s1 with
        c.hh := firstStepSize cfg { s1 with c.hh := cfg.hin } tout (Scalar.abs (tout - s1.e.tn)) } k) with
        | none => Out.ret (State.fit { s1 with
          c.hh := firstStepSize cfg { s1 with c.hh := cfg.hin } tout (Scalar.abs (tout - s1.e.tn)) } k) _
        | some s => _)
      rw [hs2]
      rw [← e2.1] at h0 h1
      rw [← e2.2] at h1
      rcases FitSim.opt firstStop firstStop (s := s2) (fun k c => firstStop_swap s2 k c) (fun k c => firstStop_swap s2 k c)
        (show FitSim R0 R s2 (s2.fit k) from ⟨k, rfl, h0, h1⟩) with ⟨h3, h4⟩ | ⟨s3, s3', h3, h4, h5⟩
      · rw [h3, h4]; exact .ret _ _ _ ⟨k, rfl, h0, h1⟩
      · rw [h3, h4]
        obtain ⟨k', rfl, h6, h7⟩ := h5
        simp only
        rw [firstReady_fit]
        obtain ⟨g, c⟩ := firstReady_keeps (cfg := cfg) s3
        exact .ret _ _ _ ⟨k', rfl, by rw [g]; exact h6, by rw [g, c]; exact h7⟩

theorem bind_both {α : Type} {Q : State ν n q K → State ν' n q K → Prop} {a : Out (State ν n q K) α} {a' : Out (State ν' n q K) α}
    (h : Out.Both Q a a') {f : State ν n q K → α → Out (State ν n q K) Status}
    {f' : State ν' n q K → α → Out (State ν' n q K) Status}
    (hf : ∀ s s' r, Q s s' → Out.Both Q (f s r) (f' s' r)) : Out.Both Q (a.bind f) (a'.bind f') := by
  cases h with
  | panic => exact .panic
  | diverge => exact .diverge
  | ret s s' r hr =>
    cases r with
    | error e => exact .ret _ _ _ hr
    | ok u => exact hf _ _ _ hr

/-- `solve` after it has recorded its arguments. -/
def solveRest (cfg : Cfg ν n q K) (rf sf : Nat) (s : State ν n q K) (tout : K) (task : Task) : Out (State ν n q K) Status :=
  (if s.cnt.nst = 0 then firstCall cfg s tout else .ret s (.ok ())).bind fun s _ =>
    let s := perfReset s
    (if s.cnt.nst > 0 then laterCall cfg rf s tout task else Flow.go s).andThen fun s =>
      solveLoop cfg rf tout task sf s 0

theorem solve_parts (cfg : Cfg ν n q K) (rf sf : Nat) (s : State ν n q K) (tout : K) (task : Task) :
    solve cfg rf sf s tout task =
      solveRest cfg rf sf { (if task = .normal then { s with r.toutc := tout } else s) with r.taskc := task } tout task := rfl

theorem solve_fit (hN : NlsSim cfg.nls nls' R0 R) (rf sf : Nat) {s : State ν n q K} {s' : State ν' n q K} (tout : K)
    (task : Task) (h : FitSim R0 R s s') :
    Out.Both (FitSim R0 R) (solve cfg rf sf s tout task) (solve (cfg.withNls nls') rf sf s' tout task) := by
  rw [solve_parts, solve_parts]
  have e1 : FitSim R0 R ({ (if task = .normal then { s with r.toutc := tout } else s) with r.taskc := task } : State ν n q K)
      ({ (if task = .normal then { s' with r.toutc := tout } else s') with r.taskc := task } : State ν' n q K) := by
    obtain ⟨k, rfl, h0, h1⟩ := h
    by_cases ht : task = .normal
    · simp only [if_pos ht]; exact ⟨k, rfl, h0, h1⟩
    · simp only [if_neg ht]; exact ⟨k, rfl, h0, h1⟩
  generalize ({ (if task = .normal then { s with r.toutc := tout } else s) with r.taskc := task } : State ν n q K) = s1 at e1 ⊢
  generalize ({ (if task = .normal then { s' with r.toutc := tout } else s') with r.taskc := task } : State ν' n q K) = s1'
    at e1 ⊢
  unfold solveRest
  have hc : s1'.cnt = s1.cnt := by obtain ⟨k, rfl, -⟩ := e1; rfl
  refine bind_both (α := Unit) ?_ ?_
  · rw [hc]
    by_cases h0 : s1.cnt.nst = 0
    · rw [if_pos h0, if_pos h0]; exact firstCall_fit tout e1
    · rw [if_neg h0, if_neg h0]; exact .ret _ _ _ e1
  · intro s s' u hs
    have e2 : FitSim R0 R (perfReset s) (perfReset s') := by
      obtain ⟨k, rfl, h0, h1⟩ := hs
      exact ⟨k, rfl, h0, h1⟩
    have hc : (perfReset s').cnt = (perfReset s).cnt := by obtain ⟨k, h1, -⟩ := e2; rw [h1]; rfl
    refine andThen_both ?_ fun s s' hs => solveLoop_fit hN rf tout task sf s s' 0 hs
    show Flow.Both _ (if (perfReset s).cnt.nst > 0 then _ else _) (if (perfReset s').cnt.nst > 0 then _ else _)
    rw [hc]
    by_cases h0 : (perfReset s).cnt.nst > 0
    · rw [if_pos h0, if_pos h0]; exact laterCall_fit rf tout task e2
    · rw [if_neg h0, if_neg h0]; exact .go _ _ e2

/-- A public call on corresponding objects: the same result, and the objects correspond again. -/
theorem exec_fit (hN : NlsSim cfg.nls nls' R0 R) (rf sf : Nat) {s : State ν n q K} {s' : State ν' n q K} (op : Op K)
    (h : FitSim R0 R s s') :
    (exec cfg rf sf s op = none ∧ exec (cfg.withNls nls') rf sf s' op = none) ∨
    ∃ s1 s1' r, exec cfg rf sf s op = some (s1, r) ∧ exec (cfg.withNls nls') rf sf s' op = some (s1', r) ∧
      FitSim R0 R s1 s1' := by
  cases op with
  | solve tout tret task =>
    unfold exec
    have e1 : FitSim R0 R ({ s with tret := tret } : State ν n q K) ({ s' with tret := tret } : State ν' n q K) := by
      obtain ⟨k, rfl, h0, h1⟩ := h
      exact ⟨k, rfl, h0, h1⟩
    have h1 := solve_fit hN rf sf tout task e1
    simp only
    generalize solve cfg rf sf { s with tret := tret } tout task = a at h1 ⊢
    generalize solve (cfg.withNls nls') rf sf { s' with tret := tret } tout task = a' at h1 ⊢
    cases h1 with
    | panic => exact .inl ⟨rfl, rfl⟩
    | diverge => exact .inl ⟨rfl, rfl⟩
    | ret s s' r hr => exact .inr ⟨s, s', _, rfl, rfl, hr⟩
  | getSolution t =>
    unfold exec
    have h1 := getSolution_fit h t
    simp only
    generalize getSolution s t = a at h1 ⊢
    generalize getSolution s' t = a' at h1 ⊢
    cases h1 with
    | panic => exact .inl ⟨rfl, rfl⟩
    | diverge => exact .inl ⟨rfl, rfl⟩
    | ret s s' r hr => exact .inr ⟨s, s', _, rfl, rfl, hr⟩
  | getDky t j =>
    unfold exec
    have h1 : Out.Both (FitSim R0 R) (getDky s t j) (getDky s' t j) := by
      obtain ⟨k, rfl, h0, h1⟩ := h
      rw [State.fit, getDky_swap]
      have h2 := getDky_swap s.gear s.cnt s t j
      rw [swap_self] at h2
      cases h3 : getDky s t j with
      | panic => exact .panic
      | diverge => exact .diverge
      | ret s1 r =>
        rw [h3] at h2
        have e3 : s1 = s1.swap s.gear s.cnt := by injection h2
        obtain ⟨e4, e5⟩ := swap_inj (s := s) e3
        exact .ret _ _ _ ⟨k, by unfold State.fit; rw [e5], by rw [e4]; exact h0, by rw [e4, e5]; exact h1⟩
    simp only
    generalize getDky s t j = a at h1 ⊢
    generalize getDky s' t j = a' at h1 ⊢
    cases h1 with
    | panic => exact .inl ⟨rfl, rfl⟩
    | diverge => exact .inl ⟨rfl, rfl⟩
    | ret s s' r hr => exact .inr ⟨s, s', _, rfl, rfl, hr⟩

end

end Verif
