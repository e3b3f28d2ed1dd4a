import Verif.Proofs.RescaleRoot
import Verif.Proofs.Answers

/-!
# Other units, any scalar type: the driver
-/

set_option autoImplicit false
set_option linter.unusedSectionVars false
set_option linter.unusedSimpArgs false
set_option linter.unusedVariables false

namespace Verif

open Verif.Spec

universe u v w x

/-- A function applied to the state a section of `solve` leaves. -/
def Flow.onS {S S' : Type w} (f : S → S') : Flow S → Flow S'
  | .go s => .go (f s)
  | .ret s r => .ret (f s) r
  | .panic => .panic
  | .diverge => .diverge

theorem Flow.andThen_onS {S S' : Type w} (f : S → S') (o : Flow S) (k : S → Out S Status) (k' : S' → Out S' Status)
    (h : ∀ s, k' (f s) = (k s).onS f) : (o.onS f).andThen k' = (o.andThen k).onS f := by
  cases o with
  | go s => exact h s
  | ret s r => rfl
  | panic => rfl
  | diverge => rfl

theorem Flow.ofStop_onS {S S' : Type w} (f : S → S') (o : Out S Status) : Flow.ofStop (o.onS f) = (Flow.ofStop o).onS f := by
  cases o with
  | panic => rfl
  | diverge => rfl
  | ret s r =>
    cases r with
    | error e => rfl
    | ok a => cases a <;> rfl

theorem ite_conv {α : Sort u} {β : Sort v} (f : α → β) {p p' : Prop} [Decidable p] [Decidable p'] (hp : p' ↔ p) {a b : α} {a' b' : β}
    (h1 : p → a' = f a) (h2 : ¬ p → b' = f b) : (if p' then a' else b') = f (if p then a else b) := by
  by_cases h : p
  · rw [if_pos h, if_pos (hp.2 h), h1 h]
  · rw [if_neg h, if_neg (fun g => h (hp.1 g)), h2 h]

namespace Spec.Rescale

variable {ν : Type v} {n q : Nat} {K : Type u} [Scalar K] (C : Rescale n q K) (nm : ν → ν)

section
variable (cfg : Cfg ν n q K) {P' : Problem n q K} {E' : Vec n K → Vec n K → Vec n K} {S' : NlSolver ν n K}
  (H : C.Fits nm cfg P' E' S') (s : State ν n q K)

local notation "cfg'" => cfg.other P' E' S'

theorem clamp_conv (T : K) : clampToStop (C.state nm s) T = C.state nm (clampToStop s T) := by
  unfold clampToStop
  exact ite_conv (C.state nm) Iff.rfl (fun _ => rfl) (fun _ => rfl)

/-- Continuing after an interpolation. -/
theorem gs_conv {B B' : Type w} (f : B → B') {k : State ν n q K → B} {k' : State ν n q K → B'} {z : B} {z' : B'} (t : K)
    (hz : z' = f z) (h : ∀ s, k' (C.state nm s) = f (k s)) :
    (match getSolution' (C.state nm s) t with | none => z' | some s => k' s) =
      f (match getSolution' s t with | none => z | some s => k s) := by
  rw [C.getSolution'_conv]
  cases getSolution' s t with
  | none => exact hz
  | some s => exact h s

theorem stopTest1_conv (tout : K) (task : Task) : stopTest1 (C.state nm s) tout task = (stopTest1 s tout task).onS (C.state nm) := by
  unfold stopTest1
  refine ite_conv (Out.onS (C.state nm)) Iff.rfl (fun _ => rfl) (fun _ => ?_)
  cases task with
  | normal =>
    refine ite_conv (Out.onS (C.state nm)) Iff.rfl (fun _ => rfl) (fun _ => ?_)
    refine ite_conv (Out.onS (C.state nm)) Iff.rfl (fun _ => ?_) (fun _ => ?_)
    · rw [C.getSolution_conv]
      exact Out.bind_onS _ _ _ _ (fun s _ => rfl)
    · rw [show (C.state nm s).tstop = s.tstop from rfl]
      cases s.tstop with
      | none => rfl
      | some T =>
        refine ite_conv (Out.onS (C.state nm)) Iff.rfl (fun _ => ?_) (fun _ => ?_)
        · rw [C.getSolution_conv]
          cases getSolution s T with
          | panic => rfl
          | diverge => rfl
          | ret s r => cases r <;> rfl
        · rw [C.clamp_conv]; rfl
  | oneStep =>
    refine ite_conv (Out.onS (C.state nm)) Iff.rfl (fun _ => ?_) (fun _ => ?_)
    · exact C.gs_conv nm s (Out.onS (C.state nm)) s.e.tn rfl (fun s => rfl)
    · rw [show (C.state nm s).tstop = s.tstop from rfl]
      cases s.tstop with
      | none => rfl
      | some T =>
        refine ite_conv (Out.onS (C.state nm)) Iff.rfl (fun _ => ?_) (fun _ => ?_)
        · rw [C.getSolution_conv]
          exact Out.bind_onS _ _ _ _ (fun s _ => rfl)
        · rw [C.clamp_conv]; rfl

theorem stopTest2_conv (tout : K) (task : Task) : stopTest2 (C.state nm s) tout task = (stopTest2 s tout task).onS (C.state nm) := by
  unfold stopTest2
  cases task with
  | normal =>
    refine ite_conv (Out.onS (C.state nm)) Iff.rfl (fun _ => ?_) (fun _ => ?_)
    · exact C.gs_conv nm (s.setTret tout) (Out.onS (C.state nm)) tout rfl (fun s => rfl)
    · rw [show (C.state nm s).tstop = s.tstop from rfl]
      cases s.tstop with
      | none => rfl
      | some T =>
        refine ite_conv (Out.onS (C.state nm)) Iff.rfl (fun _ => ?_) (fun _ => ?_)
        · exact C.gs_conv nm s (Out.onS (C.state nm)) T rfl (fun s => rfl)
        · rw [C.clamp_conv]; rfl
  | oneStep =>
    simp only
    rw [show (C.state nm s).tstop = s.tstop from rfl]
    cases s.tstop with
    | none => rfl
    | some T =>
      refine ite_conv (Out.onS (C.state nm)) Iff.rfl (fun _ => ?_) (fun _ => ?_)
      · exact C.gs_conv nm s (Out.onS (C.state nm)) T rfl (fun s => rfl)
      · rw [C.clamp_conv]; rfl

theorem perfCheck_conv : perfCheck (C.state nm s) = (perfCheck s).map (C.state nm) := by
  unfold perfCheck
  refine ite_conv (Option.map (C.state nm)) Iff.rfl (fun _ => rfl) (fun _ => ?_)
  refine ite_conv (Option.map (C.state nm)) Iff.rfl (fun _ => rfl) (fun _ => ?_)
  refine ite_conv (Option.map (C.state nm)) Iff.rfl (fun _ => rfl) (fun _ => ?_)
  exact ite_conv (Option.map (C.state nm)) Iff.rfl (fun _ => rfl) (fun _ => rfl)

theorem firstStop_conv : firstStop (C.state nm s) = (firstStop s).map (C.state nm) := by
  unfold firstStop
  rw [show (C.state nm s).tstop = s.tstop from rfl]
  cases s.tstop with
  | none => rfl
  | some T =>
    refine ite_conv (Option.map (C.state nm)) Iff.rfl (fun _ => rfl) (fun _ => ?_)
    rw [C.clamp_conv]; rfl

include H in
theorem initialSetup_conv : initialSetup cfg' (C.state nm s) = C.state nm (initialSetup cfg s) := by
  unfold initialSetup
  refine ite_conv (C.state nm) Iff.rfl (fun _ => rfl) (fun _ => ?_)
  rw [show (cfg.other P' E' S').ewtSet ((C.state nm s).h.phi 0) (C.state nm s).e.ewt = _ from H.ewt (s.h.phi 0) s.e.ewt]
  rfl

theorem autoStep_conv (tout tdist : K) : autoStep cfg' (C.state nm s) tout tdist = autoStep cfg s tout tdist := by
  unfold autoStep
  rw [show wrmsNorm (cfg.other P' E' S').id ((C.state nm s).h.phi 1) (C.state nm s).e.ewt (cfg.other P' E' S').suppressalg = _ from
    C.wrms_conv cfg.id (s.h.phi 1) s.e.ewt cfg.suppressalg]
  rfl

theorem firstStepSize_conv (tout tdist : K) : firstStepSize cfg' (C.state nm s) tout tdist = firstStepSize cfg s tout tdist := by
  unfold firstStepSize
  rw [C.autoStep_conv]
  rfl

include H in
theorem firstReady_conv : firstReady cfg' (C.state nm s) = C.state nm (firstReady cfg s) := by
  unfold firstReady
  have e : (if q > 0 then rCheck1 (cfg.other P' E' S') { C.state nm s with h0u := (C.state nm s).c.hh, c := { (C.state nm s).c with kk := 0, kused := 0 } }
      else { C.state nm s with h0u := (C.state nm s).c.hh, c := { (C.state nm s).c with kk := 0, kused := 0 } }) =
      C.state nm (if q > 0 then rCheck1 cfg { s with h0u := s.c.hh, c := { s.c with kk := 0, kused := 0 } }
        else { s with h0u := s.c.hh, c := { s.c with kk := 0, kused := 0 } }) :=
    ite_conv (C.state nm) Iff.rfl (fun _ => C.rCheck1_conv nm cfg H { s with h0u := s.c.hh, c := { s.c with kk := 0, kused := 0 } })
      (fun _ => rfl)
  simp only
  rw [e]
  generalize (if q > 0 then rCheck1 cfg { s with h0u := s.c.hh, c := { s.c with kk := 0, kused := 0 } }
        else { s with h0u := s.c.hh, c := { s.c with kk := 0, kused := 0 } }) = s
  have e2 : upd (C.state nm s).h.phi 1 (vscale (C.state nm s).c.hh ((C.state nm s).h.phi 1)) =
      fun j => C.vec (upd s.h.phi 1 (vscale s.c.hh (s.h.phi 1)) j) := by
    funext j
    show (if j = 1 then vscale s.c.hh (C.vec (s.h.phi 1)) else C.vec (s.h.phi j)) = C.vec (if j = 1 then _ else _)
    exact ite_conv C.vec Iff.rfl (fun _ => C.vec_scale _ _) (fun _ => rfl)
  rw [e2]
  rfl

/-- The end of the first call's preparations: the step size is chosen. -/
def firstEnd (cfg : Cfg ν n q K) (s : State ν n q K) (h : K) : Out (State ν n q K) Unit :=
  match firstStop { s with c.hh := h } with
  | none => .ret { s with c.hh := h } (.error (.ida .illegalInput))
  | some s => .ret (firstReady cfg s) (.ok ())

theorem firstCall_eq (cfg : Cfg ν n q K) (s : State ν n q K) (tout : K) : firstCall cfg s tout =
    if tooClose (initialSetup cfg s) tout then .ret (initialSetup cfg s) (.error (.ida .illegalInput))
    else if wrongWay cfg { initialSetup cfg s with c.hh := cfg.hin } tout then
      .ret { initialSetup cfg s with c.hh := cfg.hin } (.error (.ida .illegalInput))
    else firstEnd cfg { initialSetup cfg s with c.hh := cfg.hin }
      (firstStepSize cfg { initialSetup cfg s with c.hh := cfg.hin } tout (Scalar.abs (tout - (initialSetup cfg s).e.tn))) := rfl

include H in
theorem firstEnd_conv (h : K) : firstEnd cfg' (C.state nm s) h = (firstEnd cfg s h).onS (C.state nm) := by
  unfold firstEnd
  have e2 := C.firstStop_conv nm { s with c.hh := h }
  rw [show firstStop { C.state nm s with c.hh := h } = _ from e2]
  cases firstStop { s with c.hh := h } with
  | none => rfl
  | some s =>
    simp only [Option.map_some]
    rw [C.firstReady_conv nm cfg H]
    rfl

include H in
theorem firstCall_conv (tout : K) : firstCall cfg' (C.state nm s) tout = (firstCall cfg s tout).onS (C.state nm) := by
  rw [firstCall_eq, firstCall_eq, C.initialSetup_conv nm cfg H]
  generalize initialSetup cfg s = s
  refine ite_conv (Out.onS (C.state nm)) Iff.rfl (fun _ => rfl) (fun _ => ?_)
  refine ite_conv (Out.onS (C.state nm)) Iff.rfl (fun _ => rfl) (fun _ => ?_)
  have e1 := C.firstStepSize_conv nm cfg (P' := P') (E' := E') (S' := S') { s with c.hh := cfg.hin } tout
    (Scalar.abs (tout - s.e.tn))
  exact (congrArg (firstEnd (cfg.other P' E' S') (C.state nm { s with c.hh := cfg.hin })) e1).trans
    (C.firstEnd_conv nm cfg H { s with c.hh := cfg.hin } _)

include H in
theorem rootChecks_conv (rf : Nat) (task : Task) : rootChecks cfg' rf (C.state nm s) task = (rootChecks cfg rf s task).onS (C.state nm) := by
  unfold rootChecks
  rw [C.rCheck2_conv nm cfg H, show (C.state nm s).r.irfnd = s.r.irfnd from rfl]
  cases rCheck2 cfg s with
  | panic => rfl
  | diverge => rfl
  | ret s1 r =>
    cases r with
    | error e => rfl
    | ok st =>
      cases st with
      | rootFound => rfl
      | continue_ =>
        simp only [Out.onS]
        refine ite_conv (Flow.onS (C.state nm)) Iff.rfl (fun _ => ?_) (fun _ => rfl)
        rw [C.rCheck3_conv nm cfg H]
        cases rCheck3 cfg rf s1 with
        | panic => rfl
        | diverge => rfl
        | ret s2 r =>
          cases r with
          | error e => rfl
          | ok st =>
            cases st with
            | rootFound => rfl
            | continue_ =>
              simp only [Out.onS]
              refine ite_conv (Flow.onS (C.state nm)) Iff.rfl (fun _ => ?_) (fun _ => rfl)
              exact C.gs_conv nm (({ s2 with r.irfnd := false } : State ν n q K).setTret s2.e.tn) (Flow.onS (C.state nm)) s2.e.tn rfl
                (fun s => rfl)

include H in
theorem laterCall_conv (rf : Nat) (tout : K) (task : Task) :
    laterCall cfg' rf (C.state nm s) tout task = (laterCall cfg rf s tout task).onS (C.state nm) := by
  unfold laterCall
  have e : (if q > 0 then rootChecks (cfg.other P' E' S') rf (C.state nm s) task else Flow.go (C.state nm s)) =
      (if q > 0 then rootChecks cfg rf s task else Flow.go s).onS (C.state nm) :=
    ite_conv (Flow.onS (C.state nm)) Iff.rfl (fun _ => C.rootChecks_conv nm cfg H s rf task) (fun _ => rfl)
  rw [e]
  cases (if q > 0 then rootChecks cfg rf s task else Flow.go s) with
  | go s =>
    simp only [Flow.onS]
    rw [C.stopTest1_conv]
    exact Flow.ofStop_onS _ _
  | ret s r => rfl
  | panic => rfl
  | diverge => rfl

theorem bad_conv (w : Vec n K) : Fin.foldl n (fun b i => b || Scalar.le (C.wt w i) 0) false =
    Fin.foldl n (fun b i => b || Scalar.le (w i) 0) false := by
  congr 1
  funext b i
  rw [show Scalar.le (C.wt w i) 0 = Scalar.le (w i) 0 from (C.y i).u.gle0 _]

/-- The end of the tests at the top of the step loop. -/
def preEnd (cfg : Cfg ν n q K) (s : State ν n q K) : Flow (State ν n q K) :=
  let bad := decide (s.cnt.nst > 0) && Fin.foldl n (fun b i => b || Scalar.le (s.e.ewt i) 0) false
  if bad then
    match getSolution' s s.e.tn with
    | none => .panic
    | some s => .ret (s.setTret s.e.tn) (.error (.ida .illegalInput))
  else
    let nrm := wrmsNorm cfg.id (s.h.phi 0) s.e.ewt cfg.suppressalg
    let tolsf := Scalar.eps * nrm
    let s := { s with tolsf := tolsf }
    if Scalar.gt tolsf 1 then
      let s := ({ s with tolsf := tolsf * Scalar.ten }).setTret s.e.tn
      match (if s.cnt.nst > 0 then getSolution' s s.e.tn else some s) with
      | none => .panic
      | some s => .ret s (.error (.ida .tooMuchAccuracy))
    else .go s

theorem preEnd_conv : preEnd cfg' (C.state nm s) = (preEnd cfg s).onS (C.state nm) := by
  unfold preEnd
  have e1 : (decide ((C.state nm s).cnt.nst > 0) && Fin.foldl n (fun b i => b || Scalar.le ((C.state nm s).e.ewt i) 0) false) =
      (decide (s.cnt.nst > 0) && Fin.foldl n (fun b i => b || Scalar.le (s.e.ewt i) 0) false) :=
    congrArg (decide (s.cnt.nst > 0) && ·) (C.bad_conv s.e.ewt)
  have e2 : wrmsNorm (cfg.other P' E' S').id ((C.state nm s).h.phi 0) (C.state nm s).e.ewt (cfg.other P' E' S').suppressalg =
    wrmsNorm cfg.id (s.h.phi 0) s.e.ewt cfg.suppressalg := C.wrms_conv cfg.id (s.h.phi 0) s.e.ewt cfg.suppressalg
  simp only [e1, e2]
  refine ite_conv (Flow.onS (C.state nm)) Iff.rfl (fun _ => ?_) (fun _ => ?_)
  · exact C.gs_conv nm s (Flow.onS (C.state nm)) s.e.tn rfl (fun s => rfl)
  · refine ite_conv (Flow.onS (C.state nm)) Iff.rfl (fun _ => ?_) (fun _ => rfl)
    have e3 : ∀ s : State ν n q K, (if (C.state nm s).cnt.nst > 0 then getSolution' (C.state nm s) (C.state nm s).e.tn else some (C.state nm s)) =
        (if s.cnt.nst > 0 then getSolution' s s.e.tn else some s).map (C.state nm) := fun s =>
      ite_conv (Option.map (C.state nm)) Iff.rfl (fun _ => C.getSolution'_conv nm s s.e.tn) (fun _ => rfl)
    have e4 := e3 (State.setTret { s with tolsf := Scalar.eps * wrmsNorm cfg.id (s.h.phi 0) s.e.ewt cfg.suppressalg * Scalar.ten } s.e.tn)
    refine Eq.trans (congrArg (fun o => match o with
      | none => Flow.panic
      | some s => Flow.ret s (.error (.ida .tooMuchAccuracy))) e4) ?_
    generalize (if (State.setTret { s with tolsf := Scalar.eps * wrmsNorm cfg.id (s.h.phi 0) s.e.ewt cfg.suppressalg * Scalar.ten } s.e.tn).cnt.nst > 0
      then getSolution' (State.setTret { s with tolsf := Scalar.eps * wrmsNorm cfg.id (s.h.phi 0) s.e.ewt cfg.suppressalg * Scalar.ten } s.e.tn)
        (State.setTret { s with tolsf := Scalar.eps * wrmsNorm cfg.id (s.h.phi 0) s.e.ewt cfg.suppressalg * Scalar.ten } s.e.tn).e.tn
      else some (State.setTret { s with tolsf := Scalar.eps * wrmsNorm cfg.id (s.h.phi 0) s.e.ewt cfg.suppressalg * Scalar.ten } s.e.tn)) = o
    cases o <;> rfl

include H in
theorem preStep_conv (k : Nat) : preStep cfg' (C.state nm s) k = (preStep cfg s k).onS (C.state nm) := by
  unfold preStep
  refine ite_conv (Flow.onS (C.state nm)) Iff.rfl (fun _ => rfl) (fun _ => ?_)
  rw [C.perfCheck_conv]
  cases perfCheck s with
  | none => rfl
  | some s =>
    simp only [Option.map_some]
    have e : (if (C.state nm s).cnt.nst > 0 then { C.state nm s with
          e := { (C.state nm s).e with ewt := (cfg.other P' E' S').ewtSet ((C.state nm s).h.phi 0) (C.state nm s).e.ewt } } else C.state nm s) =
        C.state nm (if s.cnt.nst > 0 then { s with e := { s.e with ewt := cfg.ewtSet (s.h.phi 0) s.e.ewt } } else s) := by
      refine ite_conv (C.state nm) Iff.rfl (fun _ => ?_) (fun _ => rfl)
      rw [show (cfg.other P' E' S').ewtSet ((C.state nm s).h.phi 0) (C.state nm s).e.ewt = _ from H.ewt (s.h.phi 0) s.e.ewt]
      rfl
    exact (congrArg (preEnd (cfg.other P' E' S')) e).trans (C.preEnd_conv nm cfg _)

theorem stepFailed_conv (e : Err) : stepFailed (C.state nm s) e = (stepFailed s e).onS (C.state nm) := by
  unfold stepFailed
  rw [C.getSolution_conv, show (C.state nm s).e.tn = s.e.tn from rfl]
  cases getSolution s s.e.tn with
  | panic => rfl
  | diverge => rfl
  | ret s r => cases r <;> rfl

include H in
theorem postStep_conv (rf : Nat) (tout : K) (task : Task) :
    postStep cfg' rf (C.state nm s) tout task = (postStep cfg rf s tout task).onS (C.state nm) := by
  unfold postStep
  refine ite_conv (Flow.onS (C.state nm)) Iff.rfl (fun _ => ?_) (fun _ => ?_)
  · rw [C.rCheck3_conv nm cfg H]
    cases rCheck3 cfg rf s with
    | panic => rfl
    | diverge => rfl
    | ret s r =>
      cases r with
      | error e => rfl
      | ok st =>
        cases st with
        | rootFound => rfl
        | continue_ =>
          simp only [Out.onS]
          rw [C.stopTest2_conv]
          exact Flow.ofStop_onS _ _
  · rw [C.stopTest2_conv]
    exact Flow.ofStop_onS _ _

include H in
theorem solvePass_conv (rf : Nat) (tout : K) (task : Task) (k : Nat) :
    solvePass cfg' rf (C.state nm s) tout task k = (solvePass cfg rf s tout task k).onS (C.state nm) := by
  unfold solvePass
  rw [C.preStep_conv nm cfg H]
  cases preStep cfg s k with
  | ret s r => rfl
  | panic => rfl
  | diverge => rfl
  | go s =>
    simp only [Flow.onS]
    rw [C.step_conv nm cfg s H]
    cases step cfg s with
    | panic => rfl
    | diverge => rfl
    | ret s r =>
      cases r with
      | error e => exact C.stepFailed_conv nm s e
      | ok u => exact C.postStep_conv nm cfg H s rf tout task

include H in
theorem solveLoop_conv (rf : Nat) (tout : K) (task : Task) (sf : Nat) : ∀ (s : State ν n q K) (k : Nat),
    solveLoop cfg' rf tout task sf (C.state nm s) k = (solveLoop cfg rf tout task sf s k).onS (C.state nm) := by
  induction sf with
  | zero => intro s k; rfl
  | succ sf ih =>
    intro s k
    unfold solveLoop
    rw [C.solvePass_conv nm cfg H]
    exact Flow.andThen_onS _ _ _ _ (fun s => ih s (k + 1))

theorem solveHead_conv (tout : K) (task : Task) : solveHead (C.state nm s) tout task = C.state nm (solveHead s tout task) := by
  cases task <;> rfl

include H in
theorem solve_conv (rf sf : Nat) (tout : K) (task : Task) :
    solve cfg' rf sf (C.state nm s) tout task = (solve cfg rf sf s tout task).onS (C.state nm) := by
  rw [solve_core, solve_core, C.solveHead_conv]
  generalize solveHead s tout task = s
  unfold solveCore
  have e : (if (C.state nm s).cnt.nst = 0 then firstCall (cfg.other P' E' S') (C.state nm s) tout else .ret (C.state nm s) (.ok ())) =
      (if s.cnt.nst = 0 then firstCall cfg s tout else .ret s (.ok ())).onS (C.state nm) :=
    ite_conv (Out.onS (C.state nm)) Iff.rfl (fun _ => C.firstCall_conv nm cfg H s tout) (fun _ => rfl)
  rw [e]
  refine Out.bind_onS _ _ _ _ (fun s _ => ?_)
  simp only
  have e2 : (if (perfReset (C.state nm s)).cnt.nst > 0 then laterCall (cfg.other P' E' S') rf (perfReset (C.state nm s)) tout task
        else Flow.go (perfReset (C.state nm s))) =
      (if (perfReset s).cnt.nst > 0 then laterCall cfg rf (perfReset s) tout task else Flow.go (perfReset s)).onS (C.state nm) :=
    ite_conv (Flow.onS (C.state nm)) Iff.rfl (fun _ => C.laterCall_conv nm cfg H (perfReset s) rf tout task) (fun _ => rfl)
  rw [e2]
  exact Flow.andThen_onS _ _ _ _ (fun s => C.solveLoop_conv nm cfg H rf tout task sf s 0)

/-- The outcome of `get_dky` in the new units. -/
def dkyOut : Out (State ν n q K) (Vec n K) → Out (State ν n q K) (Vec n K)
  | .ret s r => .ret (C.state nm s) (r.map C.vec)
  | .panic => .panic
  | .diverge => .diverge

theorem getDky_conv (t : K) (k : Nat) : getDky (C.state nm s) t k = C.dkyOut nm (getDky s t k) := by
  unfold getDky
  refine ite_conv (C.dkyOut nm) Iff.rfl (fun _ => rfl) (fun _ => ?_)
  refine ite_conv (C.dkyOut nm) Iff.rfl (fun _ => rfl) (fun _ => ?_)
  refine ite_conv (C.dkyOut nm) Iff.rfl (fun _ => ?_) (fun _ => rfl)
  have e := forUp_conv
    (f := fun j0 (y : Vec n K) => fun i => y i + s.h.phi (k + j0) i * (dkyCoefs s.h.psi (t - s.e.tn) s.c.kused k).cjk (k + j0))
    (f' := fun j0 (y : Vec n K) => fun i => y i + C.vec (s.h.phi (k + j0)) i * (dkyCoefs s.h.psi (t - s.e.tn) s.c.kused k).cjk (k + j0))
    (fun _ => C.vec) (s.c.kused - k + 1) (fun j y _ => by
      funext i
      show (C.y i).f (y i) + (C.y i).f (s.h.phi (k + j) i) * _ = _
      rw [(C.y i).mul, (C.y i).add]
      rfl) vzero
  rw [C.vec_zero] at e
  exact congrArg (fun v => Out.ret (C.state nm s) (Except.ok v)) e

include H in
theorem exec_conv (rf sf : Nat) (op : Op K) :
    exec cfg' rf sf (C.state nm s) op = (exec cfg rf sf s op).map fun p => (C.state nm p.1, C.res p.2) := by
  cases op with
  | solve tout tret task =>
    show (match solve (cfg.other P' E' S') rf sf (C.state nm { s with tret := tret }) tout task with
      | .ret s r => some (s, Res.solved r)
      | _ => none) = Option.map (fun p => (C.state nm p.1, C.res p.2)) (match solve cfg rf sf { s with tret := tret } tout task with
      | .ret s r => some (s, Res.solved r)
      | _ => none)
    rw [C.solve_conv nm cfg H]
    cases solve cfg rf sf { s with tret := tret } tout task <;> rfl
  | getSolution t =>
    unfold exec
    simp only
    rw [C.getSolution_conv]
    cases getSolution s t <;> rfl
  | getDky t k =>
    unfold exec
    simp only
    rw [C.getDky_conv]
    cases getDky s t k <;> rfl

end

/-! ## The standard solver stack -/

theorem new_conv (N : ν) (yy0 yp0 : Vec n K) (T : Option K) :
    ({ State.new (nm N) (C.vec yy0) (C.vec yp0) with tstop := T } : State ν n q K) =
      C.state nm { State.new N yy0 yp0 with tstop := T } := by
  have e1 : (fun j => if j = 0 then C.vec yy0 else if j = 1 then C.vec yp0 else vzero) =
      fun j => C.vec (if j = 0 then yy0 else if j = 1 then yp0 else vzero) := by
    funext j
    refine ite_conv C.vec Iff.rfl (fun _ => rfl) (fun _ => ?_)
    exact ite_conv C.vec Iff.rfl (fun _ => rfl) (fun _ => C.vec_zero.symm)
  have e2 : C.lu n (fun _ _ => (0 : K)) = fun _ _ => 0 := by
    funext i j
    unfold lu
    have h : C.col j 0 = 0 := by
      unfold col
      split
      · rw [(C.y _).gzero, C.e.zero]
      · rfl
    split
    · rfl
    · exact h
  unfold State.new state hist env mem rootSt ghost
  simp only [e1, e2, C.vec_zero, C.wt_zero, C.eqn_zero, C.rts_zero]
  rfl

theorem newton0_conv : C.newton (newton0 : Newton (Vec n K)) = newton0 := by
  unfold newton0 newton Newton.new
  rw [C.vec_zero]

theorem fits_newton {P P' : Problem n q K} (hP : C.Same P P') (T : TolControl n K) (fuel : Nat) :
    C.Fits C.newton (Cfg.newton P T fuel) P' (fun y _ => (C.tol T).ewtSet y) (newtonNls P' fuel) where
  root := hP.root
  ewt y w := C.tol_conv T y
  nls N e m y0 y w tol call := by
    show (match newtonSolve (idaNLProblem P' (C.env e)) fuel (C.newton N) (C.mem m) (C.vec y0) (C.vec y) (C.wt w) tol call with
      | .done N m y r => NlOut.ret N m y r
      | .panic => .panic
      | .diverge => .diverge) = C.nlOut C.newton (match newtonSolve (idaNLProblem P e) fuel N m y0 y w tol call with
      | .done N m y r => NlOut.ret N m y r
      | .panic => .panic
      | .diverge => .diverge)
    rw [show newtonSolve (idaNLProblem P' (C.env e)) fuel (C.newton N) (C.mem m) (C.vec y0) (C.vec y) (C.wt w) tol call = _ from
      C.outer_conv hP e tol y0 w fuel call false N m y]
    show _ = C.nlOut C.newton (match newtonOuter (idaNLProblem P e) y0 tol w fuel call false N m y with
      | .done N m y r => NlOut.ret N m y r
      | .panic => .panic
      | .diverge => .diverge)
    cases newtonOuter (idaNLProblem P e) y0 tol w fuel call false N m y <;> rfl

theorem other_newton (P P' : Problem n q K) (T : TolControl n K) (fuel : Nat) :
    (Cfg.newton P T fuel).other P' (fun y _ => (C.tol T).ewtSet y) (newtonNls P' fuel) = Cfg.newton P' (C.tol T) fuel := rfl

end Spec.Rescale

end Verif
