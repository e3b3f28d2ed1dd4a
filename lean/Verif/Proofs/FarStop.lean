import Verif.Spec.FarStop
import Verif.Proofs.WithRoots

/-!
# Internal steps do not depend on the stop time (any scalar type)
-/

set_option autoImplicit false
set_option linter.unusedSectionVars false
set_option linter.unusedSimpArgs false
set_option linter.unusedVariables false

namespace Verif

open Verif.Spec Relation

universe u v w x

section
variable {ν : Type v} {n q : Nat} {K : Type u} [Scalar K]

section
variable (cfg : Cfg ν n q K) (s : State ν n q K)

theorem firstStepInit_forget : firstStepInit s.forget = (firstStepInit s).forget := by
  unfold firstStepInit
  by_cases h : s.cnt.nst = 0
  · rw [if_pos h, if_pos (show s.forget.cnt.nst = 0 from h)]; rfl
  · rw [if_neg h, if_neg (show ¬ s.forget.cnt.nst = 0 from h)]

theorem setCoeffs_forget : setCoeffs s.forget = (setCoeffs s).map fun p => (p.1.forget, p.2) := by
  unfold setCoeffs
  by_cases hk : s.c.kk < mxordp1
  · rw [if_pos hk, if_pos (show s.forget.c.kk < mxordp1 from hk)]; rfl
  · rw [if_neg hk, if_neg (show ¬ s.forget.c.kk < mxordp1 from hk)]; rfl

/-- The attempt is not limited by the stop time. -/
def Clear (s : State ν n q K) : Prop := ∀ T, s.tstop = some T → Scalar.gt ((s.e.tn + s.c.hh - T) * s.c.hh) 1 = false

theorem setCoeffs_clear {s s' : State ν n q K} {ck : K} (h : setCoeffs s = some (s', ck)) (hc : Clear s) : Clear s' := by
  unfold setCoeffs at h
  simp only at h
  split at h
  · cases h; exact hc
  · cases h

theorem advanceTime_forget (hc : Clear s) : advanceTime s.forget = (advanceTime s).forget := by
  unfold advanceTime
  cases hT : s.tstop with
  | none =>
    simp only [hT]
    rfl
  | some T =>
    simp only [hT]
    rw [if_neg (by rw [hc T hT]; exact Bool.false_ne_true)]
    rfl

theorem predict_forget : predict s.forget = (predict s).map State.forget := by
  unfold predict
  by_cases hk : s.c.kk < mxordp1
  · rw [if_pos hk, if_pos (show s.forget.c.kk < mxordp1 from hk)]; rfl
  · rw [if_neg hk, if_neg (show ¬ s.forget.c.kk < mxordp1 from hk)]; rfl

theorem nlsPrepare_forget : nlsPrepare s.forget = nlsPrepare s := rfl

theorem nonlinearSolve_forget : nonlinearSolve cfg s.forget = (nonlinearSolve cfg s).onS State.forget := by
  unfold nonlinearSolve
  simp only [nlsPrepare_forget]
  show (match cfg.nls.solve s.nls s.e (nlsPrepare s).1 vzero s.ee s.e.ewt s.epsNewt (nlsPrepare s).2 with
    | .panic => _ | .diverge => _ | .ret N m ee r => _) = _
  cases cfg.nls.solve s.nls s.e (nlsPrepare s).1 vzero s.ee s.e.ewt s.epsNewt (nlsPrepare s).2 with
  | panic => rfl
  | diverge => rfl
  | ret N m ee r' =>
    cases r' with
    | error e => rfl
    | ok u =>
      simp only
      by_cases h : cfg.constraintsSet = true
      · rw [if_pos h, if_pos (show cfg.constraintsSet = true from h)]; rfl
      · rw [if_neg h, if_neg (show ¬ cfg.constraintsSet = true from h)]; rfl

theorem testError_forget (ck : K) : testError cfg s.forget ck = (testError cfg s ck).map fun p => (p.1.forget, p.2) := by
  unfold testError
  by_cases hk : s.c.kk < mxordp1
  · rw [if_pos hk, if_pos (show s.forget.c.kk < mxordp1 from hk)]; rfl
  · rw [if_neg hk, if_neg (show ¬ s.forget.c.kk < mxordp1 from hk)]; rfl

theorem trial_forget (hc : Clear s) : trial cfg s.forget = (trial cfg s).onS State.forget := by
  unfold trial
  rw [setCoeffs_forget]
  cases hsc : setCoeffs s with
  | none => rfl
  | some p =>
    obtain ⟨s, ck⟩ := p
    simp only [Option.map_some]
    rw [advanceTime_forget s (setCoeffs_clear hsc hc), predict_forget]
    cases predict (advanceTime s) with
    | none => rfl
    | some s =>
      simp only [Option.map_some]
      rw [nonlinearSolve_forget]
      cases nonlinearSolve cfg s with
      | panic => rfl
      | diverge => rfl
      | ret s r' =>
        cases r' with
        | error e => rfl
        | ok u =>
          simp only [Out.onS]
          rw [testError_forget]
          cases testError cfg s ck with
          | none => rfl
          | some p => rfl

theorem restore_forget (t : K) : restore s.forget t = (restore s t).map State.forget := by
  unfold restore
  by_cases hk : s.c.kk < mxordp1
  · rw [if_pos hk, if_pos (show s.forget.c.kk < mxordp1 from hk)]; rfl
  · rw [if_neg hk, if_neg (show ¬ s.forget.c.kk < mxordp1 from hk)]; rfl

theorem handleNFlag_forget (e : Err) (a b : K) (f : Fails) :
    handleNFlag cfg s.forget e a b f = (handleNFlag cfg s e a b f).map fun p => (p.1.forget, p.2) := by
  unfold handleNFlag
  cases e with
  | other m => rfl
  | nl e => rfl
  | ida e =>
    cases e with
    | testFail =>
      by_cases h1 : f.nef + 1 = 1
      · simp only [if_pos h1]; rfl
      · simp only [if_neg h1]
        by_cases h2 : f.nef + 1 = 2
        · simp only [if_pos h2]; rfl
        · simp only [if_neg h2]
          by_cases h3 : f.nef + 1 < cfg.maxnef
          · simp only [if_pos h3, if_pos (show f.nef + 1 < cfg.maxnef from h3)]; rfl
          · simp only [if_neg h3, if_neg (show ¬ f.nef + 1 < cfg.maxnef from h3)]; rfl
    | recoverableFail rec =>
      by_cases h1 : f.ncf + 1 < cfg.maxncf
      · simp only [if_pos h1, if_pos (show f.ncf + 1 < cfg.maxncf from h1)]; rfl
      · simp only [if_neg h1, if_neg (show ¬ f.ncf + 1 < cfg.maxncf from h1)]; rfl
    | _ => rfl

theorem reset_forget : reset s.forget = (reset s).forget := rfl

theorem attemptFailed_forget (t : K) (e : Err) (a b : K) (f : Fails) :
    attemptFailed cfg t s.forget e a b f = (attemptFailed cfg t s e a b f).onS State.forget := by
  unfold attemptFailed
  rw [restore_forget]
  cases restore s t with
  | none => rfl
  | some s =>
    simp only [Option.map_some]
    rw [handleNFlag_forget]
    cases handleNFlag cfg s e a b f with
    | none => rfl
    | some p =>
      obtain ⟨s, f, r'⟩ := p
      cases r' with
      | error e => rfl
      | ok u =>
        simp only [Option.map_some]
        by_cases h : s.cnt.nst = 0
        · rw [if_pos h, if_pos (show s.forget.cnt.nst = 0 from h), reset_forget]; rfl
        · rw [if_neg h, if_neg (show ¬ s.forget.cnt.nst = 0 from h)]; rfl

theorem attempt_forget (t : K) (f : Fails) (hc : Clear s) :
    attempt cfg t s.forget f = (attempt cfg t s f).onS State.forget := by
  unfold attempt
  rw [trial_forget cfg s hc]
  cases trial cfg s with
  | panic => rfl
  | diverge => rfl
  | nlsFail s ck e => exact attemptFailed_forget cfg (s.note t ck (.nlsFail e)) t e _ _ f
  | tested s ck p =>
    simp only [Trial.onS]
    by_cases h : p.passed = true
    · rw [if_pos h, if_pos h]; rfl
    · rw [if_neg h, if_neg h]; exact attemptFailed_forget cfg (s.note t ck .testFail) t _ _ _ f

theorem markPhase_forget : markPhase cfg s.forget = (markPhase cfg s).forget := by
  unfold markPhase
  by_cases h : s.c.knew = s.c.kk - 1 ∨ s.c.kk = cfg.maxord
  · rw [if_pos h, if_pos (show s.forget.c.knew = s.forget.c.kk - 1 ∨ s.forget.c.kk = cfg.maxord from h)]
    rfl
  · rw [if_neg h, if_neg (show ¬ (s.forget.c.knew = s.forget.c.kk - 1 ∨
      s.forget.c.kk = cfg.maxord) from h)]

theorem chooseNext_forget (d : Bool) (a b : K) : chooseNext cfg s.forget d a b = (chooseNext cfg s d a b).map State.forget := by
  unfold chooseNext
  rw [show orderAction cfg s.forget d a b = orderAction cfg s d a b from rfl]
  by_cases h : s.c.phase = 0
  · rw [if_pos h, if_pos (show s.forget.c.phase = 0 from h)]
    by_cases h' : s.cnt.nst > 1
    · rw [if_pos h', if_pos (show s.forget.cnt.nst > 1 from h')]; rfl
    · rw [if_neg h', if_neg (show ¬ s.forget.cnt.nst > 1 from h')]; rfl
  · rw [if_neg h, if_neg (show ¬ s.forget.c.phase = 0 from h)]
    cases orderAction cfg s d a b with
    | none => rfl
    | some p => rfl

theorem completeStep_forget (a b : K) : completeStep cfg s.forget a b = (completeStep cfg s a b).map State.forget := by
  unfold completeStep
  show (if s.c.kk = 0 then none else
    match chooseNext cfg (markPhase cfg
      (State.forget { s with cnt.nst := s.cnt.nst + 1, c.kused := s.c.kk, c.hused := s.c.hh }))
      (decide (s.c.kk = s.c.kused + 1)) a b with
    | none => none
    | some t =>
      if s.c.kk < mxordp1 ∧ (s.c.kk < cfg.maxord → s.c.kk + 1 < mxordp1) then
        some { t with h.phi := updatePhi cfg.maxord s.c.kk t.ee t.h.phi }
      else none) = _
  rw [markPhase_forget, chooseNext_forget]
  by_cases h : s.c.kk = 0
  · simp only [if_pos h]; rfl
  · simp only [if_neg h]
    cases chooseNext cfg (markPhase cfg { s with cnt.nst := s.cnt.nst + 1, c.kused := s.c.kk, c.hused := s.c.hh })
      (decide (s.c.kk = s.c.kused + 1)) a b with
    | none => rfl
    | some t =>
      simp only [Option.map_some]
      by_cases h : s.c.kk < mxordp1 ∧ (s.c.kk < cfg.maxord → s.c.kk + 1 < mxordp1)
      · simp only [if_pos h]; rfl
      · simp only [if_neg h]; rfl

end

theorem passFailed_atts {cfg : Cfg ν n q K} {t0 t1 : K} {s1 s4 s5 : State ν n q K} {err : Err} {a b : K} {f f' : Fails}
    {r : Except Err Unit} (h1 : PassFailed cfg t0 s1 s4 err a b)
    (h2 : handleNFlag cfg (restored s4 t1) err a b f = some (s5, f', r)) :
    ∃ x, s5.g.atts = x :: s1.g.atts ∧ x.t0 = t0 ∧ x.hh = s1.c.hh := by
  obtain ⟨-, -, e3, -⟩ := handleNFlag_same h2
  obtain ⟨s3, r, out, h3, -, -, h4⟩ := h1.tried
  refine ⟨attRec s1 t0 s3.ee out, ?_, rfl, rfl⟩
  rw [e3]
  show s4.g.atts = _
  rw [h4]
  show (s3.note t0 _ out).g.atts = _
  rw [h3.note_g]

/-- The record of an attempt. -/
theorem again_atts {cfg : Cfg ν n q K} {t0 : K} {s s' : State ν n q K} {f f' : Fails} (h : attempt cfg t0 s f = .again s' f') :
    ∃ x, s'.g.atts = x :: s.g.atts ∧ x.t0 = t0 ∧ x.hh = s.c.hh := by
  obtain ⟨s4, err, a, b, s6, h1, h2, rfl⟩ := attempt_again h
  obtain ⟨x, e1, e2⟩ := passFailed_atts h1 h2
  refine ⟨x, ?_, e2⟩
  split
  · exact e1
  · exact e1

theorem again_tn {cfg : Cfg ν n q K} {t0 : K} {s s' : State ν n q K} {f f' : Fails} (h : attempt cfg t0 s f = .again s' f') :
    s'.e.tn = t0 := by
  obtain ⟨s4, err, a, b, s6, h1, h2, rfl⟩ := attempt_again h
  have : s6.e.tn = t0 := by
    have := handleNFlag_handled h2
    cases this <;> rfl
  split
  · exact this
  · exact this

theorem fail_atts {cfg : Cfg ν n q K} {t0 : K} {s s' : State ν n q K} {f : Fails} {e : Err} (h : attempt cfg t0 s f = .fail s' e) :
    ∃ x, s'.g.atts = x :: s.g.atts ∧ x.t0 = t0 ∧ x.hh = s.c.hh := by
  obtain ⟨s4, err, a, b, f', h1, h2⟩ := attempt_fail h
  exact passFailed_atts h1 h2

theorem done_atts {cfg : Cfg ν n q K} {t0 : K} {s s' : State ν n q K} {f : Fails} {ck a b : K}
    (h : attempt cfg t0 s f = .done s' ck a b) : ∃ x, s'.g.atts = x :: s.g.atts ∧ x.t0 = t0 ∧ x.hh = s.c.hh := by
  obtain ⟨s4, h4, -, -, -, -, rfl⟩ := attempt_done h
  rw [done_ghost h4]
  exact ⟨_, rfl, rfl, rfl⟩

/-- The attempts of a step: the first one starts with the planned step size. -/
theorem stepLoop_atts {cfg : Cfg ν n q K} {t0 : K} (fuel : Nat) : ∀ (s : State ν n q K) (f : Fails) (s' : State ν n q K)
    (r : Except Err Unit), stepLoop cfg t0 fuel s f = .ret s' r →
    ∃ x l, s'.g.atts = l ++ x :: s.g.atts ∧ x.t0 = t0 ∧ x.hh = s.c.hh := by
  induction fuel with
  | zero => intro s f s' r h; cases h
  | succ fuel ih =>
    intro s f s' r h
    unfold stepLoop at h
    cases ha : attempt cfg t0 s f with
    | panic => rw [ha] at h; cases h
    | diverge => rw [ha] at h; cases h
    | again s1 f1 =>
      rw [ha] at h
      obtain ⟨x, e1, e2⟩ := again_atts ha
      obtain ⟨y, l, e3, -⟩ := ih _ _ _ _ h
      exact ⟨x, l ++ [y], by rw [e3, e1]; simp, e2⟩
    | fail s1 e =>
      rw [ha] at h
      cases h
      obtain ⟨x, e1, e2⟩ := fail_atts ha
      exact ⟨x, [], e1, e2⟩
    | done s1 ck a b =>
      rw [ha] at h
      simp only at h
      obtain ⟨x, e1, e2⟩ := done_atts ha
      cases hc : completeStep cfg s1 a b with
      | none => rw [hc] at h; cases h
      | some s2 =>
        rw [hc] at h
        cases h
        refine ⟨x, [], ?_, e2⟩
        show s2.g.atts = _
        rw [(completeStep_eq hc).g]; exact e1

theorem step_atts {cfg : Cfg ν n q K} {s s' : State ν n q K} {r : Except Err Unit} (h : step cfg s = .ret s' r) :
    ∃ x l, s'.g.atts = l ++ x :: s.g.atts ∧ x.t0 = s.e.tn ∧ x.hh = s.c.hh := by
  have h1 := stepLoop_atts _ _ _ _ _ h
  have h2 : (firstStepInit s).g = s.g ∧ (firstStepInit s).c.hh = s.c.hh := by unfold firstStepInit; split <;> exact ⟨rfl, rfl⟩
  rw [h2.1, h2.2] at h1
  exact h1

theorem beyond_zero {T t h : K} (hb : beyond T t h = false) : Scalar.gt ((t + h - T) * h) 0 = false := by
  unfold beyond at hb
  exact (Bool.or_eq_false_iff.1 hb).1

theorem beyond_one {T t h : K} (hb : beyond T t h = false) : Scalar.gt ((t + h - T) * h) 1 = false := by
  unfold beyond at hb
  exact (Bool.or_eq_false_iff.1 hb).2

/-- A step none of whose attempts ends beyond the stop time does not depend on the stop time. -/
theorem stepLoop_forget {cfg : Cfg ν n q K} {t0 : K} (fuel : Nat) : ∀ (s : State ν n q K) (f : Fails) (t : State ν n q K)
    (r : Except Err Unit), s.e.tn = t0 → stepLoop cfg t0 fuel s.forget f = .ret t r →
    (∀ T, s.tstop = some T → ∀ x ∈ t.g.atts, beyond T x.t0 x.hh = false) →
    ∃ t', stepLoop cfg t0 fuel s f = .ret t' r ∧ t'.forget = t := by
  induction fuel with
  | zero => intro s f t r _ h; cases h
  | succ fuel ih =>
    intro s f t r ht h hT
    obtain ⟨x, l, e1, e2, e3⟩ := stepLoop_atts _ _ _ _ _ h
    have hc : Clear s := by
      intro T hs
      have := beyond_one (hT T hs x (by rw [e1]; simp))
      rw [e2, e3] at this
      rw [ht]; exact this
    unfold stepLoop at h ⊢
    rw [attempt_forget cfg s t0 f hc] at h
    cases ha : attempt cfg t0 s f with
    | panic => rw [ha] at h; cases h
    | diverge => rw [ha] at h; cases h
    | again s1 f1 =>
      rw [ha] at h
      refine ih s1 f1 t r (again_tn ha) h ?_
      have : s1.tstop = s.tstop := by
        obtain ⟨s4, err, a, b, s6, h1, h2, rfl⟩ := attempt_again ha
        obtain ⟨s3, r, out, h3, -, -, h4⟩ := h1.tried
        have h5 : s6.tstop = s4.tstop := by
          have := handleNFlag_handled h2
          cases this <;> rfl
        have h6 : s4.tstop = s.tstop := by rw [h4]; exact h3.tstop
        split
        · exact h5.trans h6
        · exact h5.trans h6
      rw [this]; exact hT
    | fail s1 e =>
      rw [ha] at h
      cases h
      exact ⟨s1, rfl, rfl⟩
    | done s1 ck a b =>
      rw [ha] at h
      simp only [Attempt.onS] at h
      rw [completeStep_forget] at h
      cases hcs : completeStep cfg s1 a b with
      | none => rw [hcs] at h; cases h
      | some s2 =>
        rw [hcs] at h
        cases h
        refine ⟨{ s2 with ee := vscale ck s2.ee }, ?_, rfl⟩
        simp only [hcs]

theorem step_forget {cfg : Cfg ν n q K} {s t : State ν n q K} {r : Except Err Unit} (h : step cfg s.forget = .ret t r)
    (hT : ∀ T, s.tstop = some T → ∀ x ∈ t.g.atts, beyond T x.t0 x.hh = false) :
    ∃ t', step cfg s = .ret t' r ∧ t'.forget = t := by
  unfold step at h ⊢
  rw [firstStepInit_forget] at h
  have h1 : (firstStepInit s).e.tn = s.e.tn ∧ (firstStepInit s).tstop = s.tstop := by unfold firstStepInit; split <;> exact ⟨rfl, rfl⟩
  refine stepLoop_forget _ _ _ _ _ h1.1 h ?_
  rw [h1.2]; exact hT

/-! ## Along the integration without stop time -/

theorem SimW.forget {s s' : State ν n q K} (h : SimW s s') : SimW s.forget s'.forget := by
  obtain ⟨w, k, rfl⟩ := h; exact ⟨w, k, rfl⟩

theorem SimW.tn {s s' : State ν n q K} (h : SimW s s') : s'.e.tn = s.e.tn := by obtain ⟨w, k, rfl⟩ := h; rfl
theorem SimW.c {s s' : State ν n q K} (h : SimW s s') : s'.c = s.c := by obtain ⟨w, k, rfl⟩ := h; rfl

/-- A state of a solver with stop time `T`, compared with the integration without stop time from `x0` to its `j`-th state
`z`: it is one of the states of that integration, or it has left it behind.  (`o`: no failed step has been reported.) -/
structure Along (cfg : Cfg ν n q K) (o : Prop) (T : K) (x0 z : State ν n q K) (j : Nat) (s : State ν n q K) : Prop where
  stop : ∀ T', s.tstop = some T' → T' = T
  nst : 0 < s.cnt.nst
  at_ : (∃ k x, k ≤ j ∧ iter (advance cfg) k x0 = some x ∧ SimW x s.forget) ∨
    (∃ l, s.forget.g.atts = l ++ z.g.atts ∧ z.g.acc <:+ s.g.acc ∧ (beyond T z.e.tn z.c.hh = false → l ≠ []) ∧
      z.cnt.nst ≤ s.cnt.nst ∧ (beyond T z.e.tn z.c.hh = false → o → z.cnt.nst < s.cnt.nst))

section
variable {cfg : Cfg ν n q K} (hb : NlsBlind cfg) (hw : FreshWeights cfg) {o : Prop} {T : K} {x0 z : State ν n q K} {j : Nat}
  (hn : 0 < x0.cnt.nst) (hj : iter (advance cfg) j x0 = some z) (hT : StaysBefore T z)
include hb hw hn hj hT

omit hb hw in
/-- The next state of the integration without stop time. -/
theorem line_next {k : Nat} (hk : k < j) {x : State ν n q K} (hx : iter (advance cfg) k x0 = some x) :
    ∃ y r, step cfg (x.fresh cfg) = .ret y r ∧ iter (advance cfg) (k + 1) x0 = some y ∧ StaysBefore T y ∧
      beyond T x.e.tn x.c.hh = false := by
  obtain ⟨i, rfl⟩ : ∃ i, j = k + 1 + i := ⟨j - (k + 1), by omega⟩
  have h1 := hj
  rw [iter_add] at h1
  obtain ⟨y, hy, h2⟩ := Option.bind_eq_some_iff.1 h1
  have h3 := hy
  simp only [iter] at h3
  rw [hx] at h3
  have h3 : advance cfg x = some y := h3
  unfold advance at h3
  split at h3
  · rename_i y' r h4
    cases h3
    obtain ⟨-, -, ⟨l, h5, -⟩, -⟩ := iter_grows hn hy hj
    have hs : StaysBefore T y := fun a ha => hT a (by rw [h5]; exact List.mem_append_right _ ha)
    obtain ⟨a, l', h6, h7, h8⟩ := step_atts h4
    refine ⟨y, r, h4, hy, hs, ?_⟩
    have := hs a (by rw [h6]; simp)
    rw [h7, h8] at this
    exact this
  · cases h3

theorem along_step {s s' : State ν n q K} {r : Except Err Unit} (h : Along cfg o T x0 z j s) (hs : Weighed cfg s)
    (h1 : step cfg s = .ret s' r) (ho : o → r = .ok ()) : Along cfg o T x0 z j s' := by
  have hq := step_quiet h1
  have hm : s.cnt.nst ≤ s'.cnt.nst ∧ (o → s.cnt.nst < s'.cnt.nst) := by
    cases r with
    | ok u => rw [hq.2.1 rfl]; exact ⟨by omega, fun _ => by omega⟩
    | error e => rw [(hq.2.2 e rfl).1]; exact ⟨le_refl _, fun h => by cases ho h⟩
  obtain ⟨⟨-, -, -⟩, hacc⟩ := step_grows h.nst h1
  obtain ⟨a, l', e1, -⟩ := step_atts h1
  have e1' : s'.forget.g.atts = (l' ++ [a]).map Att.forget ++ s.forget.g.atts := by
    show s'.g.atts.map Att.forget = _ ++ s.g.atts.map Att.forget
    rw [e1]; simp
  refine ⟨by rw [hq.1.tstop]; exact h.stop, ?_, ?_⟩
  · cases r with
    | ok u => rw [hq.2.1 rfl]; omega
    | error e => rw [(hq.2.2 e rfl).1]; exact h.nst
  · rcases h.at_ with ⟨k, x, hk, hx, hsim⟩ | ⟨l, h2, h3, -, h4, -⟩
    · rcases Nat.lt_or_eq_of_le hk with hk | rfl
      · left
        obtain ⟨y, r', h4, h5, h6, -⟩ := line_next hn hj hT hk hx
        have h7 := step_simW hb hw hsim
        rw [show s.forget.fresh cfg = (s.fresh cfg).forget from rfl, weighed_fresh hw hs, h4] at h7
        generalize hre : step cfg s.forget = o at h7
        cases h7 with
        | ret _ y' _ hy =>
          have hg : y'.g = y.g := hy.weaken.g
          obtain ⟨t', g1, g2⟩ := step_forget hre (by
            intro T' hT' b hb'
            rw [h.stop T' hT']
            rw [hg] at hb'
            exact h6 b hb')
          rw [h1] at g1
          cases g1
          exact ⟨k + 1, y, hk, h5, by rw [g2]; exact hy.weaken⟩
      · right
        rw [hj] at hx; cases hx
        have hzn : s.cnt.nst = z.cnt.nst := hsim.nst
        refine ⟨_, by rw [e1', hsim.g], ?_, by simp, by omega, fun _ h => by have := hm.2 h; omega⟩
        have : s.forget.g.acc = z.g.acc := congrArg Ghost.acc hsim.g
        rw [← this]; exact hacc
    · right
      refine ⟨(l' ++ [a]).map Att.forget ++ l, by rw [e1', h2]; simp, h3.trans hacc, by simp, by omega,
        fun _ h => by have := hm.2 h; omega⟩

omit hb hw in
theorem along_same {s s' : State ν n q K} (h : Along cfg o T x0 z j s) (h1 : SimW s.forget s'.forget)
    (hs : ∀ T', s'.tstop = some T' → T' = T) : Along cfg o T x0 z j s' := by
  refine ⟨hs, ?_, ?_⟩
  · have : s'.cnt.nst = s.cnt.nst := h1.nst
    rw [this]; exact h.nst
  · have hg := h1.g
    have hnn : s'.cnt.nst = s.cnt.nst := h1.nst
    rcases h.at_ with ⟨k, x, hk, hx, hsim⟩ | ⟨l, h2, h3, h4, h5⟩
    · exact Or.inl ⟨k, x, hk, hx, hsim.trans h1⟩
    · refine Or.inr ⟨l, by rw [hg]; exact h2, ?_, h4, by rw [hnn]; exact h5⟩
      have : s'.forget.g.acc = s.forget.g.acc := congrArg Ghost.acc hg
      show z.g.acc <:+ s'.forget.g.acc
      rw [this]; exact h3

theorem along_micro {s s' : State ν n q K} (h : Along cfg o T x0 z j s) (hm : Micro cfg s s') : Along cfg o T x0 z j s' := by
  cases hm with
  | frame hf => exact along_same hn hj hT h (frame_wear hf).forget (by rw [hf.tstop]; exact h.stop)
  | perf => exact along_same hn hj hT h (show SimW s (perfReset s) from ⟨s.e.ewt, (perfReset s).skin, rfl⟩).forget h.stop
  | clear => exact along_same hn hj hT h (SimW.refl _) (by intro T' hT'; cases hT')
  | clamp ts h1 h2 h3 =>
    have hts := h.stop ts h2
    subst hts
    unfold clampToStop
    by_cases hc : Scalar.gt ((s.e.tn + s.c.hh - ts) * s.c.hh) 0 = true
    · rw [if_pos hc]
      refine ⟨h.stop, h.nst, ?_⟩
      rcases h.at_ with ⟨k, x, hk, hx, hsim⟩ | h4
      · have e1 : s.e.tn = x.e.tn := hsim.tn
        have e2 : s.c = x.c := hsim.c
        rw [e1, e2] at hc
        rcases Nat.lt_or_eq_of_le hk with hk | rfl
        · obtain ⟨y, r, -, -, -, h5⟩ := line_next hn hj hT hk hx
          rw [beyond_zero h5] at hc
          cases hc
        · right
          rw [hj] at hx; cases hx
          have hg := hsim.g
          have hzn : s.cnt.nst = z.cnt.nst := hsim.nst
          refine ⟨[], congrArg Ghost.atts hg, ?_, fun h5 => ?_, hzn.ge, fun h5 _ => ?_⟩
          · have : s.forget.g.acc = z.g.acc := congrArg Ghost.acc hg
            show z.g.acc <:+ s.forget.g.acc
            rw [this]
          · rw [beyond_zero h5] at hc
            cases hc
          · rw [beyond_zero h5] at hc
            cases hc
      · exact Or.inr h4
    · rw [if_neg hc]; exact h
  | ewt =>
    exact along_same hn hj hT h (show SimW s _ from ⟨cfg.ewtSet (s.h.phi 0) s.e.ewt, s.skin, rfl⟩).forget h.stop
  | first _ _ h1 _ => exact absurd h1 h.nst.ne'
  | firstStep _ h1 _ _ _ => exact absurd h1 h.nst.ne'
  | step _ _ h1 h2 => exact along_step hb hw hn hj hT h h2 h1 fun _ => rfl

theorem along_micros {s s' : State ν n q K} (h : Along cfg o T x0 z j s) (hm : Micros cfg s s') : Along cfg o T x0 z j s' := by
  induction hm with
  | refl => exact h
  | tail _ h2 ih => exact along_micro hb hw hn hj hT ih h2

theorem along_ends {s s' : State ν n q K} {r : Except Err Status} (h : Along cfg o T x0 z j s) (he : Ends cfg s s' r)
    (ho : o → ∀ e, r = .error e → e.isStepFailure = false) : Along cfg o T x0 z j s' := by
  cases he with
  | clean h3 _ => exact along_micros hb hw hn hj hT h h3
  | failed s1 s2 e h3 h4 h5 hr =>
    have h6 := along_micros hb hw hn hj hT h h3
    have h7 : Along cfg o T x0 z j s2 := by
      cases h4 with
      | firstStep _ _ h1 _ _ _ => exact absurd h1 h6.nst.ne'
      | step _ _ _ h10 h11 =>
        exact along_step hb hw hn hj hT h6 h11 h10 fun h => by
          have := step_error_isStepFailure h10
          rw [ho h e hr] at this; cases this
    exact along_micro hb hw hn hj hT h7 (.frame h5)

theorem along_exec {s s' : State ν n q K} {rf sf : Nat} {op : Op K} {r : Res n K} (h : Along cfg o T x0 z j s)
    (he : exec cfg rf sf s op = some (s', r)) (ho : o → ∀ e, r = .solved (.error e) → e.isStepFailure = false) :
    Along cfg o T x0 z j s' := by
  rcases exec_ends he with ⟨r', h1, h2⟩ | ⟨-, h2⟩
  · exact along_ends hb hw hn hj hT h h2 fun hO e hr => ho hO e (by rw [h1, hr])
  · exact along_micros hb hw hn hj hT h h2

theorem along_later {s s' : State ν n q K} (h : Along cfg False T x0 z j s) (hl : Later cfg s s') : Along cfg False T x0 z j s' := by
  induction hl with
  | refl => exact h
  | call rf sf op r _ he ih => exact along_exec hb hw hn hj hT ih he (fun h => h.elim)

theorem along_laterOk {s s' : State ν n q K} (h : Along cfg True T x0 z j s) (hl : LaterOk cfg s s') : Along cfg True T x0 z j s' := by
  induction hl with
  | refl => exact h
  | call rf sf op r _ he hr ih => exact along_exec hb hw hn hj hT ih he (fun _ => hr)

end

section
variable {cfg : Cfg ν n q K} (hb : NlsBlind cfg) (hw : FreshWeights cfg)
include hb hw

/-- The first call of a solver with stop time `T`, compared with the integration without. -/
theorem first_along {o : Prop} {T : K} {x0 z : State ν n q K} {j : Nat} {nls0 : ν} {yy0 yp0 : Vec n K} {tout tret : K} {task : Task} {rf sf : Nat}
    {b : State ν n q K} {r : Res n K} (h0 : step cfg (readied cfg (State.new nls0 yy0 yp0) tout) = .ret x0 (.ok ()))
    (hj : iter (advance cfg) j x0 = some z) (hT : StaysBefore T z)
    (h : exec cfg rf sf { State.new nls0 yy0 yp0 with tstop := some T } (.solve tout tret task) = some (b, r))
    (nb : 0 < b.cnt.nst)
    (ho : o → ∀ e, r = .solved (.error e) → e.isStepFailure = false) : Along cfg o T x0 z j b := by
  have hn : 0 < x0.cnt.nst := step_nst h0
  -- the first attempt
  have hbey : beyond T (readied cfg (State.new nls0 yy0 yp0) tout).e.tn (readied cfg (State.new nls0 yy0 yp0) tout).c.hh = false := by
    obtain ⟨a, l, e1, e2, e3⟩ := step_atts h0
    obtain ⟨-, -, ⟨l', e4, -⟩, -⟩ := iter_grows (a := 0) hn rfl (by rw [Nat.zero_add]; exact hj)
    have := hT a (by rw [e4, e1]; simp)
    rw [e2, e3] at this
    exact this
  have hx0 : StaysBefore T x0 := by
    obtain ⟨-, -, ⟨l', e4, -⟩, -⟩ := iter_grows (a := 0) hn rfl (by rw [Nat.zero_add]; exact hj)
    exact fun a ha => hT a (by rw [e4]; exact List.mem_append_right _ ha)
  unfold exec at h
  simp only at h
  split at h
  · rename_i r' h1
    cases h
    obtain ⟨s2, s3, g1, g2, g3⟩ := solve_begins (by
      intro T' hT'
      cases hT'
      exact beyond_zero hbey) (by rfl) h1 nb
    have g4 : Sim (readied cfg (State.new nls0 yy0 yp0) tout) s2.forget ∧ s2.tstop = some T := by
      rw [readied_begun] at g1
      obtain ⟨k, rfl⟩ := g1
      exact ⟨⟨k, rfl⟩, rfl⟩
    obtain ⟨⟨k, hk⟩, hst⟩ := g4
    have g5 := step_wear hb (readied cfg (State.new nls0 yy0 yp0) tout) k
    rw [h0, ← hk] at g5
    generalize hre : step cfg s2.forget = o at g5
    cases g5 with
    | ret _ t _ hsim =>
      obtain ⟨t', f1, f2⟩ := step_forget hre (by
        intro T' hT' a ha
        rw [hst] at hT'
        cases hT'
        rw [hsim.weaken.g] at ha
        exact hx0 a ha)
      rw [g2] at f1
      cases f1
      refine along_ends hb hw hn hj hT ⟨?_, step_nst g2, ?_⟩ g3 (fun hO e hr => ho hO e (by rw [hr]))
      · rw [(step_quiet g2).1.tstop, hst]
        intro T' hT'; cases hT'; rfl
      · exact Or.inl ⟨0, x0, Nat.zero_le _, rfl, by rw [f2]; exact hsim.weaken⟩
  · cases h

end

end

end Verif
