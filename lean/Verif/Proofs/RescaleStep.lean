import Verif.Proofs.RescaleNewton
import Verif.Proofs.WithRoots

/-!
# Other units, any scalar type: one internal step
-/

set_option autoImplicit false
set_option linter.unusedSectionVars false
set_option linter.unusedSimpArgs false
set_option linter.unusedVariables false

namespace Verif

open Verif.Spec

universe u v

/-- A configuration with another problem, tolerances and nonlinear solver. -/
def Cfg.other {ν : Type v} {n q : Nat} {K : Type u} (cfg : Cfg ν n q K) (P : Problem n q K) (E : Vec n K → Vec n K → Vec n K)
    (N : NlSolver ν n K) : Cfg ν n q K :=
  { cfg with prob := P, ewtSet := E, nls := N }

namespace Spec.Rescale

variable {ν : Type v} {n q : Nat} {K : Type u} [Scalar K] (C : Rescale n q K) (nm : ν → ν)

def hist (h : Hist n K) : Hist n K := { h with phi := fun j => C.vec (h.phi j) }

def point (p : K × Vec n K) : K × Vec n K := (p.1, C.vec p.2)

def att (a : Att n K) : Att n K :=
  { a with
    before := a.before.map C.point
    pred := C.vec a.pred
    predp := C.vec a.predp
    ewt := C.wt a.ewt
    ee := C.vec a.ee
    yy := C.vec a.yy
    yp := C.vec a.yp }

def ghost (g : Ghost n K) : Ghost n K := { atts := g.atts.map C.att, acc := g.acc.map C.point }

def rootSt (r : RootSt q K) : RootSt q K := { r with glo := C.rts r.glo, ghi := C.rts r.ghi, grout := C.rts r.grout }

/-- The state in the new units. -/
def state (s : State ν n q K) : State ν n q K where
  setupDone := s.setupDone
  h := C.hist s.h
  c := s.c
  e := C.env s.e
  m := C.mem s.m
  delta := C.vec s.delta
  ee := C.vec s.ee
  cnt := s.cnt
  r := C.rootSt s.r
  perf := s.perf
  nls := nm s.nls
  tstop := s.tstop
  h0u := s.h0u
  tretlast := s.tretlast
  epsNewt := s.epsNewt
  tolsf := s.tolsf
  tret := s.tret
  g := C.ghost s.g

/-- The outcome of a nonlinear solve in the new units. -/
def nlOut : NlOut ν n K → NlOut ν n K
  | .ret N m ee r => .ret (nm N) (C.mem m) (C.vec ee) r
  | .panic => .panic
  | .diverge => .diverge

/-- The parts of a configuration in the new units. -/
structure Fits (cfg : Cfg ν n q K) (P' : Problem n q K) (E' : Vec n K → Vec n K → Vec n K) (S' : NlSolver ν n K) : Prop where
  root : ∀ t y yp b b', P'.root t (C.vec y) (C.vec yp) b' = C.rts (cfg.prob.root t y yp b)
  ewt : ∀ y w, E' (C.vec y) (C.wt w) = C.wt (cfg.ewtSet y w)
  nls : ∀ N e m y0 y w tol call, S'.solve (nm N) (C.env e) (C.mem m) (C.vec y0) (C.vec y) (C.wt w) tol call =
    C.nlOut nm (cfg.nls.solve N e m y0 y w tol call)

/-! ## The history -/

theorem scalePhi_conv (phi : Nat → Vec n K) (c : Nat → K) (lo hi : Nat) :
    scalePhi (fun j => C.vec (phi j)) c lo hi = fun j => C.vec (scalePhi phi c lo hi j) := by
  funext j
  unfold scalePhi
  split
  · rw [C.vec_scale]
  · rfl

theorem updatePhi_conv (maxord kused : Nat) (ee : Vec n K) (phi : Nat → Vec n K) :
    updatePhi maxord kused (C.vec ee) (fun j => C.vec (phi j)) = fun j => C.vec (updatePhi maxord kused ee phi j) := by
  unfold updatePhi
  have e0 : (if kused < maxord then upd (fun j => C.vec (phi j)) (kused + 1) (C.vec ee) else fun j => C.vec (phi j)) =
      fun j => C.vec ((if kused < maxord then upd phi (kused + 1) ee else phi) j) := by
    split
    · funext j; unfold upd; split <;> rfl
    · rfl
  simp only
  rw [e0]
  generalize (if kused < maxord then upd phi (kused + 1) ee else phi) = phi
  have h := forUp_conv (f := fun i (a : Vec n K × (Nat → Vec n K)) =>
      (vadd a.1 (a.2 (kused - i)), upd a.2 (kused - i) (vadd a.1 (a.2 (kused - i)))))
    (f' := fun i (a : Vec n K × (Nat → Vec n K)) =>
      (vadd a.1 (a.2 (kused - i)), upd a.2 (kused - i) (vadd a.1 (a.2 (kused - i)))))
    (fun _ a => (C.vec a.1, fun j => C.vec (a.2 j))) (kused + 1) (fun i a _ => by
      simp only
      rw [C.vec_add]
      congr 1
      funext j; unfold upd; split <;> rfl) (ee, phi)
  exact congrArg Prod.snd h

theorem sum_conv (k : Nat) (phi : Nat → Vec n K) :
    forUp k (fun j y => vadd y (C.vec (phi j))) vzero = C.vec (forUp k (fun j y => vadd y (phi j)) vzero) := by
  have h := forUp_conv (f := fun j y => vadd y (phi j)) (f' := fun j y => vadd y (C.vec (phi j))) (fun _ => C.vec) k
    (fun i x _ => C.vec_add _ _) vzero
  rwa [C.vec_zero] at h

theorem comb_conv (k : Nat) (c : Nat → K) (phi : Nat → Vec n K) :
    forUp k (fun j y => scaledAdd y (c j) (C.vec (phi j))) vzero = C.vec (forUp k (fun j y => scaledAdd y (c j) (phi j)) vzero) := by
  have h := forUp_conv (f := fun j y => scaledAdd y (c j) (phi j)) (f' := fun j y => scaledAdd y (c j) (C.vec (phi j)))
    (fun _ => C.vec) k (fun i x _ => C.vec_scaled _ _ _) vzero
  rwa [C.vec_zero] at h

/-! ## Interpolation -/

theorem getSolution_conv (s : State ν n q K) (t : K) :
    getSolution (C.state nm s) t = (getSolution s t).onS (C.state nm) := by
  unfold getSolution
  rw [show badTime (C.state nm s) t = badTime s t from rfl]
  by_cases h : badTime s t = true
  · rw [if_pos h, if_pos h]; rfl
  · rw [if_neg h, if_neg h]
    simp only
    by_cases hk : kordOf s.c.kused < mxordp1
    · rw [if_pos hk, if_pos (show kordOf (C.state nm s).c.kused < mxordp1 from hk)]
      unfold solEval
      simp only
      rw [show (C.state nm s).h.phi = fun j => C.vec (s.h.phi j) from rfl, C.comb_conv, C.comb_conv]
      rfl
    · rw [if_neg hk, if_neg (show ¬ kordOf (C.state nm s).c.kused < mxordp1 from hk)]; rfl

theorem getSolution'_conv (s : State ν n q K) (t : K) :
    getSolution' (C.state nm s) t = (getSolution' s t).map (C.state nm) := by
  unfold getSolution'
  rw [C.getSolution_conv]
  cases getSolution s t <;> rfl

/-! ## A step -/

section
variable (cfg : Cfg ν n q K) {P' : Problem n q K} {E' : Vec n K → Vec n K → Vec n K} {S' : NlSolver ν n K}
  (H : C.Fits nm cfg P' E' S') (s : State ν n q K)

theorem firstStepInit_conv : firstStepInit (C.state nm s) = C.state nm (firstStepInit s) := by
  unfold firstStepInit
  by_cases h : s.cnt.nst = 0
  · rw [if_pos h, if_pos (show (C.state nm s).cnt.nst = 0 from h)]; rfl
  · rw [if_neg h, if_neg (show ¬ (C.state nm s).cnt.nst = 0 from h)]

theorem setCoeffs_conv : setCoeffs (C.state nm s) = (setCoeffs s).map fun p => (C.state nm p.1, p.2) := by
  unfold setCoeffs
  by_cases hk : s.c.kk < mxordp1
  · rw [if_pos hk, if_pos (show (C.state nm s).c.kk < mxordp1 from hk)]
    have e0 : (if (C.state nm s).c.kk + 1 ≥ nextNs (C.state nm s).c then
          recompute (C.state nm s).c.kk (C.state nm s).c.hh (C.state nm s).h else (C.state nm s).h) =
        C.hist (if s.c.kk + 1 ≥ nextNs s.c then recompute s.c.kk s.c.hh s.h else s.h) := by
      by_cases h : s.c.kk + 1 ≥ nextNs s.c
      · rw [if_pos h, if_pos (show (C.state nm s).c.kk + 1 ≥ nextNs (C.state nm s).c from h)]; rfl
      · rw [if_neg h, if_neg (show ¬ (C.state nm s).c.kk + 1 ≥ nextNs (C.state nm s).c from h)]; rfl
    simp only
    rw [e0]
    generalize (if s.c.kk + 1 ≥ nextNs s.c then recompute s.c.kk s.c.hh s.h else s.h) = h
    by_cases h1 : nextNs s.c ≤ s.c.kk
    · rw [if_pos h1, if_pos (show nextNs (C.state nm s).c ≤ (C.state nm s).c.kk from h1),
        show (C.hist h).phi = fun j => C.vec (h.phi j) from rfl, C.scalePhi_conv]
      rfl
    · rw [if_neg h1, if_neg (show ¬ nextNs (C.state nm s).c ≤ (C.state nm s).c.kk from h1)]
      rfl
  · rw [if_neg hk, if_neg (show ¬ (C.state nm s).c.kk < mxordp1 from hk)]; rfl

theorem advanceTime_conv : advanceTime (C.state nm s) = C.state nm (advanceTime s) := rfl

theorem predict_conv : predict (C.state nm s) = (predict s).map (C.state nm) := by
  unfold predict
  by_cases hk : s.c.kk < mxordp1
  · rw [if_pos hk, if_pos (show (C.state nm s).c.kk < mxordp1 from hk),
      show (C.state nm s).h.phi = fun j => C.vec (s.h.phi j) from rfl, C.sum_conv, C.comb_conv]
    rfl
  · rw [if_neg hk, if_neg (show ¬ (C.state nm s).c.kk < mxordp1 from hk)]; rfl

theorem nlsPrepare_conv : nlsPrepare (C.state nm s) = (C.mem (nlsPrepare s).1, (nlsPrepare s).2) := by
  unfold nlsPrepare
  simp only
  by_cases h1 : s.cnt.nst = 0
  · by_cases h2 : Scalar.neb s.e.cj s.c.cjlast = true
    · simp only [show (C.state nm s).cnt.nst = s.cnt.nst from rfl, h1, decide_true, if_true,
        if_pos (show Scalar.neb (C.state nm s).e.cj (C.state nm s).c.cjlast = true from h2), if_pos h2]
      rfl
    · simp only [show (C.state nm s).cnt.nst = s.cnt.nst from rfl, h1, decide_true, if_true,
        if_neg (show ¬ Scalar.neb (C.state nm s).e.cj (C.state nm s).c.cjlast = true from h2), if_neg h2]
      rfl
  · by_cases h2 : Scalar.neb s.e.cj s.c.cjlast = true
    · simp only [show (C.state nm s).cnt.nst = s.cnt.nst from rfl, decide_eq_false h1, Bool.false_eq_true, if_false,
        if_pos (show Scalar.neb (C.state nm s).e.cj (C.state nm s).c.cjlast = true from h2), if_pos h2]
      rfl
    · simp only [show (C.state nm s).cnt.nst = s.cnt.nst from rfl, decide_eq_false h1, Bool.false_eq_true, if_false,
        if_neg (show ¬ Scalar.neb (C.state nm s).e.cj (C.state nm s).c.cjlast = true from h2), if_neg h2]
      rfl

local notation "cfg'" => cfg.other P' E' S'

include H in
theorem nonlinearSolve_conv : nonlinearSolve cfg' (C.state nm s) = (nonlinearSolve cfg s).onS (C.state nm) := by
  unfold nonlinearSolve
  simp only [C.nlsPrepare_conv]
  have h := H.nls s.nls s.e (nlsPrepare s).1 vzero s.ee s.e.ewt s.epsNewt (nlsPrepare s).2
  rw [C.vec_zero] at h
  rw [show (cfg.other P' E' S').nls.solve (C.state nm s).nls (C.state nm s).e (C.mem (nlsPrepare s).1) vzero (C.state nm s).ee
    (C.state nm s).e.ewt (C.state nm s).epsNewt (nlsPrepare s).2 = _ from h]
  cases cfg.nls.solve s.nls s.e (nlsPrepare s).1 vzero s.ee s.e.ewt s.epsNewt (nlsPrepare s).2 with
  | panic => rfl
  | diverge => rfl
  | ret N m ee r =>
    simp only [nlOut]
    have e1 : vadd (C.state nm s).e.yypredict (C.vec ee) = C.vec (vadd s.e.yypredict ee) := C.vec_add _ _
    have e2 : scaledAdd (C.state nm s).e.yppredict (C.state nm s).e.cj (C.vec ee) =
      C.vec (scaledAdd s.e.yppredict s.e.cj ee) := C.vec_scaled _ _ _
    rw [e1, e2]
    have e3 : ({ C.state nm s with
        m := { C.mem m with yy := C.vec (vadd s.e.yypredict ee), yp := C.vec (scaledAdd s.e.yppredict s.e.cj ee) },
        delta := vzero, nls := nm N, ee := C.vec ee } : State ν n q K) =
      C.state nm { s with m := { m with yy := vadd s.e.yypredict ee, yp := scaledAdd s.e.yppredict s.e.cj ee },
                          delta := vzero, nls := N, ee := ee } := by
      simp only [state, C.vec_zero]
      rfl
    cases r with
    | error e => exact congrArg (fun x => Out.ret x (.error e)) e3
    | ok u =>
      simp only
      by_cases hc : cfg.constraintsSet = true
      · rw [if_pos hc, if_pos (show (cfg.other P' E' S').constraintsSet = true from hc)]; rfl
      · rw [if_neg hc, if_neg (show ¬ (cfg.other P' E' S').constraintsSet = true from hc)]
        exact congrArg (fun x => Out.ret x (.ok ())) e3

theorem testError_conv (ck : K) :
    testError cfg' (C.state nm s) ck = (testError cfg s ck).map fun p => (C.state nm p.1, p.2) := by
  unfold testError
  by_cases hk : s.c.kk < mxordp1
  · rw [if_pos hk, if_pos (show (C.state nm s).c.kk < mxordp1 from hk)]
    have N : ∀ x : Vec n K, wrmsNorm (cfg.other P' E' S').id (C.vec x) (C.state nm s).e.ewt (cfg.other P' E' S').suppressalg =
      wrmsNorm cfg.id x s.e.ewt cfg.suppressalg := fun x => C.wrms_conv cfg.id x s.e.ewt cfg.suppressalg
    have e1 : vadd ((C.state nm s).h.phi s.c.kk) (C.state nm s).ee = C.vec (vadd (s.h.phi s.c.kk) s.ee) := C.vec_add _ _
    have e2 : vadd (C.vec (vadd (s.h.phi s.c.kk) s.ee)) ((C.state nm s).h.phi (s.c.kk - 1)) =
      C.vec (vadd (vadd (s.h.phi s.c.kk) s.ee) (s.h.phi (s.c.kk - 1))) := C.vec_add _ _
    have e3 : (C.state nm s).ee = C.vec s.ee := rfl
    simp only [show (C.state nm s).c.kk = s.c.kk from rfl, e1, e2, N]
    rw [e3, N]
    by_cases h1 : s.c.kk > 1
    · simp only [if_pos h1]
      by_cases h2 : s.c.kk > 2
      · simp only [if_pos h2]; rfl
      · simp only [if_neg h2]; rfl
    · simp only [if_neg h1]; rfl
  · rw [if_neg hk, if_neg (show ¬ (C.state nm s).c.kk < mxordp1 from hk)]; rfl

/-- The state of a trial in the new units. -/
theorem trial_conv (H : C.Fits nm cfg P' E' S') : trial cfg' (C.state nm s) = (trial cfg s).onS (C.state nm) := by
  unfold trial
  rw [C.setCoeffs_conv]
  cases setCoeffs s with
  | none => rfl
  | some p =>
    obtain ⟨s, ck⟩ := p
    simp only [Option.map_some]
    rw [C.advanceTime_conv, C.predict_conv]
    cases predict (advanceTime s) with
    | none => rfl
    | some s =>
      simp only [Option.map_some]
      rw [C.nonlinearSolve_conv nm cfg H]
      cases nonlinearSolve cfg s with
      | panic => rfl
      | diverge => rfl
      | ret s r' =>
        cases r' with
        | error e => rfl
        | ok u =>
          simp only [Out.onS]
          rw [C.testError_conv]
          cases testError cfg s ck with
          | none => rfl
          | some p => rfl

theorem restore_conv (t : K) : restore (C.state nm s) t = (restore s t).map (C.state nm) := by
  unfold restore
  by_cases hk : s.c.kk < mxordp1
  · rw [if_pos hk, if_pos (show (C.state nm s).c.kk < mxordp1 from hk)]
    by_cases h1 : s.c.ns ≤ s.c.kk
    · rw [if_pos h1, if_pos (show (C.state nm s).c.ns ≤ (C.state nm s).c.kk from h1),
        show (C.state nm s).h.phi = fun j => C.vec (s.h.phi j) from rfl, C.scalePhi_conv]
      rfl
    · rw [if_neg h1, if_neg (show ¬ (C.state nm s).c.ns ≤ (C.state nm s).c.kk from h1)]
      rfl
  · rw [if_neg hk, if_neg (show ¬ (C.state nm s).c.kk < mxordp1 from hk)]; rfl

theorem handleNFlag_conv (e : Err) (a b : K) (f : Fails) :
    handleNFlag cfg' (C.state nm s) e a b f = (handleNFlag cfg s e a b f).map fun p => (C.state nm p.1, p.2) := by
  unfold handleNFlag
  cases e with
  | other m => rfl
  | nl e => rfl
  | ida e =>
    cases e with
    | testFail =>
      by_cases h1 : f.nef + 1 = 1
      · simp only [if_pos h1]; rfl
      · simp only [if_neg h1]
        by_cases h2 : f.nef + 1 = 2
        · simp only [if_pos h2]; rfl
        · simp only [if_neg h2]
          by_cases h3 : f.nef + 1 < cfg.maxnef
          · simp only [if_pos h3, if_pos (show f.nef + 1 < (cfg.other P' E' S').maxnef from h3)]; rfl
          · simp only [if_neg h3, if_neg (show ¬ f.nef + 1 < (cfg.other P' E' S').maxnef from h3)]; rfl
    | recoverableFail rec =>
      by_cases h1 : f.ncf + 1 < cfg.maxncf
      · simp only [if_pos h1, if_pos (show f.ncf + 1 < (cfg.other P' E' S').maxncf from h1)]; rfl
      · simp only [if_neg h1, if_neg (show ¬ f.ncf + 1 < (cfg.other P' E' S').maxncf from h1)]; rfl
    | _ => rfl

theorem reset_conv : reset (C.state nm s) = C.state nm (reset s) := by
  unfold reset
  have e : (fun j => if j < mxordp1 then vscale (C.state nm s).c.rr ((C.state nm s).h.phi j) else (C.state nm s).h.phi j) =
      fun j => C.vec (if j < mxordp1 then vscale s.c.rr (s.h.phi j) else s.h.phi j) := by
    funext j
    split
    · exact C.vec_scale _ _
    · rfl
  rw [e]
  rfl

theorem points_conv (t : K) : (C.state nm s).points t = (s.points t).map C.point := by
  unfold State.points
  by_cases h : s.cnt.nst = 0
  · rw [if_pos h, if_pos (show (C.state nm s).cnt.nst = 0 from h)]; rfl
  · rw [if_neg h, if_neg (show ¬ (C.state nm s).cnt.nst = 0 from h)]; rfl

theorem note_conv (t ck : K) (o : AttOut) : (C.state nm s).note t ck o = C.state nm (s.note t ck o) := by
  unfold State.note
  rw [C.points_conv]
  rfl

theorem noteAcc_conv (t : K) : (C.state nm s).noteAcc t = C.state nm (s.noteAcc t) := by
  unfold State.noteAcc
  rw [C.points_conv]
  rfl

theorem attemptFailed_conv (t : K) (e : Err) (a b : K) (f : Fails) :
    attemptFailed cfg' t (C.state nm s) e a b f = (attemptFailed cfg t s e a b f).onS (C.state nm) := by
  unfold attemptFailed
  rw [C.restore_conv]
  cases restore s t with
  | none => rfl
  | some s =>
    simp only [Option.map_some]
    rw [C.handleNFlag_conv]
    cases handleNFlag cfg s e a b f with
    | none => rfl
    | some p =>
      obtain ⟨s, f, r'⟩ := p
      cases r' with
      | error e => rfl
      | ok u =>
        simp only [Option.map_some]
        by_cases h : s.cnt.nst = 0
        · rw [if_pos h, if_pos (show (C.state nm s).cnt.nst = 0 from h), C.reset_conv]; rfl
        · rw [if_neg h, if_neg (show ¬ (C.state nm s).cnt.nst = 0 from h)]; rfl

theorem attempt_step_conv (H : C.Fits nm cfg P' E' S') (t : K) (f : Fails) :
    attempt cfg' t (C.state nm s) f = (attempt cfg t s f).onS (C.state nm) := by
  unfold attempt
  rw [C.trial_conv nm cfg s H]
  cases trial cfg s with
  | panic => rfl
  | diverge => rfl
  | nlsFail s ck e =>
    simp only [Trial.onS]
    rw [C.note_conv]
    exact C.attemptFailed_conv nm cfg (s.note t ck (.nlsFail e)) t e _ _ f
  | tested s ck p =>
    simp only [Trial.onS]
    rw [C.note_conv, C.note_conv, C.noteAcc_conv]
    by_cases h : p.passed = true
    · rw [if_pos h, if_pos h]; rfl
    · rw [if_neg h, if_neg h]; exact C.attemptFailed_conv nm cfg (s.note t ck .testFail) t _ _ _ f

theorem markPhase_conv : markPhase cfg' (C.state nm s) = C.state nm (markPhase cfg s) := by
  unfold markPhase
  by_cases h : s.c.knew = s.c.kk - 1 ∨ s.c.kk = cfg.maxord
  · rw [if_pos h, if_pos (show (C.state nm s).c.knew = (C.state nm s).c.kk - 1 ∨ (C.state nm s).c.kk = (cfg.other P' E' S').maxord from h)]
    rfl
  · rw [if_neg h, if_neg (show ¬ ((C.state nm s).c.knew = (C.state nm s).c.kk - 1 ∨
      (C.state nm s).c.kk = (cfg.other P' E' S').maxord) from h)]

theorem orderAction_conv (d : Bool) (a b : K) : orderAction cfg' (C.state nm s) d a b = orderAction cfg s d a b := by
  unfold orderAction
  have e : wrmsNorm (cfg.other P' E' S').id (vsub (C.state nm s).ee ((C.state nm s).h.phi ((C.state nm s).c.kk + 1)))
      (C.state nm s).e.ewt (cfg.other P' E' S').suppressalg =
      wrmsNorm cfg.id (vsub s.ee (s.h.phi (s.c.kk + 1))) s.e.ewt cfg.suppressalg := by
    show wrmsNorm cfg.id (vsub (C.vec s.ee) (C.vec (s.h.phi (s.c.kk + 1)))) (C.wt s.e.ewt) cfg.suppressalg = _
    rw [C.vec_sub, C.wrms_conv]
  simp only [e]
  rfl

theorem chooseNext_conv (d : Bool) (a b : K) : chooseNext cfg' (C.state nm s) d a b = (chooseNext cfg s d a b).map (C.state nm) := by
  unfold chooseNext
  rw [C.orderAction_conv]
  by_cases h : s.c.phase = 0
  · rw [if_pos h, if_pos (show (C.state nm s).c.phase = 0 from h)]
    by_cases h' : s.cnt.nst > 1
    · rw [if_pos h', if_pos (show (C.state nm s).cnt.nst > 1 from h')]; rfl
    · rw [if_neg h', if_neg (show ¬ (C.state nm s).cnt.nst > 1 from h')]; rfl
  · rw [if_neg h, if_neg (show ¬ (C.state nm s).c.phase = 0 from h)]
    cases orderAction cfg s d a b with
    | none => rfl
    | some p => rfl

theorem completeStep_conv (a b : K) : completeStep cfg' (C.state nm s) a b = (completeStep cfg s a b).map (C.state nm) := by
  unfold completeStep
  show (if s.c.kk = 0 then none else
    match chooseNext (cfg.other P' E' S') (markPhase (cfg.other P' E' S')
      (C.state nm { s with cnt.nst := s.cnt.nst + 1, c.kused := s.c.kk, c.hused := s.c.hh }))
      (decide (s.c.kk = s.c.kused + 1)) a b with
    | none => none
    | some t =>
      if s.c.kk < mxordp1 ∧ (s.c.kk < cfg.maxord → s.c.kk + 1 < mxordp1) then
        some { t with h.phi := updatePhi cfg.maxord s.c.kk t.ee t.h.phi }
      else none) = _
  rw [C.markPhase_conv, C.chooseNext_conv]
  by_cases h : s.c.kk = 0
  · simp only [if_pos h]; rfl
  · simp only [if_neg h]
    cases chooseNext cfg (markPhase cfg { s with cnt.nst := s.cnt.nst + 1, c.kused := s.c.kk, c.hused := s.c.hh })
      (decide (s.c.kk = s.c.kused + 1)) a b with
    | none => rfl
    | some t =>
      simp only [Option.map_some]
      by_cases h : s.c.kk < mxordp1 ∧ (s.c.kk < cfg.maxord → s.c.kk + 1 < mxordp1)
      · simp only [if_pos h]
        rw [show updatePhi cfg.maxord s.c.kk (C.state nm t).ee (C.state nm t).h.phi = _ from C.updatePhi_conv _ _ t.ee t.h.phi]
        rfl
      · simp only [if_neg h]; rfl

theorem stepLoop_conv (H : C.Fits nm cfg P' E' S') (t : K) (fuel : Nat) : ∀ (s : State ν n q K) (f : Fails),
    stepLoop cfg' t fuel (C.state nm s) f = (stepLoop cfg t fuel s f).onS (C.state nm) := by
  induction fuel with
  | zero => intro s f; rfl
  | succ fuel ih =>
    intro s f
    unfold stepLoop
    rw [C.attempt_step_conv nm cfg s H]
    cases attempt cfg t s f with
    | panic => rfl
    | diverge => rfl
    | again s f => exact ih _ _
    | fail s e => rfl
    | done s a b c =>
      simp only [Attempt.onS]
      rw [C.completeStep_conv]
      cases completeStep cfg s b c with
      | none => rfl
      | some s =>
        simp only [Option.map_some]
        rw [show vscale a (C.state nm s).ee = _ from C.vec_scale a s.ee]
        rfl

theorem step_conv (H : C.Fits nm cfg P' E' S') : step cfg' (C.state nm s) = (step cfg s).onS (C.state nm) := by
  unfold step
  rw [C.firstStepInit_conv]
  exact C.stepLoop_conv nm cfg H _ _ _ _

end

end Spec.Rescale

end Verif
