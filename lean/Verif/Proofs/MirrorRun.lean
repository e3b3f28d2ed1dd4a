import Verif.Proofs.MirrorRoot
import Verif.Proofs.UnitsExec

/-!
# The other direction of time: the driver
-/

set_option autoImplicit false
set_option linter.unusedSectionVars false
set_option linter.unusedSimpArgs false
set_option linter.unusedVariables false

namespace Verif

open Spec.Rescale (firstEnd firstCall_eq preEnd)

open Verif.Spec

universe u v w x

section
variable {ν : Type v} {n q : Nat} {K : Type u} [Scalar K] {cfg : Cfg ν n q K}

/-- After a first call was accepted, `illegalInput` is returned only if steps have been taken. -/
theorem firstLoop_illegal {rf sf : Nat} {tout : K} {task : Task} {s s' : State ν n q K} (hn : s.cnt.nst = 0)
    (h : solveLoop cfg rf tout task sf s 0 = .ret s' (.error (.ida .illegalInput))) : 0 < s'.cnt.nst := by
  cases sf with
  | zero => cases h
  | succ sf =>
    unfold solveLoop Flow.andThen solvePass at h
    have hp := preStep_cases cfg s 0
    cases hpre : preStep cfg s 0 with
    | panic => rw [hpre] at h; cases h
    | diverge => rw [hpre] at h; cases h
    | ret s1 r1 =>
      rw [hpre] at h hp
      dsimp only at h
      cases h
      cases hp with
      | limit h1 h2 => omega
      | weights _ _ h3 => omega
    | go s1 =>
      rw [hpre] at h
      dsimp only at h
      cases hstep : step cfg s1 with
      | panic => rw [hstep] at h; cases h
      | diverge => rw [hstep] at h; cases h
      | ret s2 r2 =>
        rw [hstep] at h
        cases r2 with
        | error e =>
          dsimp only at h
          cases hsf : stepFailed s2 e with
          | go s4 => exact absurd hsf stepFailed_go
          | panic => rw [hsf] at h; cases h
          | diverge => rw [hsf] at h; cases h
          | ret s4 r4 =>
            rw [hsf] at h
            cases h
            obtain ⟨hfr, he⟩ := stepFailed_frame hsf
            have := step_error_isStepFailure hstep
            cases he
            exact absurd this (by decide)
        | ok u =>
          dsimp only at h
          have hn2 := step_nst hstep
          have hpo := postStep_ok (cfg := cfg) (rf := rf) (tout := tout) (task := task) hn2
          cases hps : postStep cfg rf s2 tout task with
          | panic => rw [hps] at h; cases h
          | diverge => rw [hps] at h; cases h
          | go s4 =>
            rw [hps] at h
            dsimp only at h
            obtain ⟨hm3, hr3⟩ := hpo.go s4 hps
            have hn4 := micros_nst_pos hm3 hn2
            cases solveLoop_ends sf hn4 hr3 h with
            | clean hm _ => exact micros_nst_pos hm hn4
            | failed s1 s2 e h1 h2 h3 he =>
              cases he
              exact absurd h2.isStepFailure (by decide)
          | ret s4 r4 =>
            rw [hps] at h
            cases h
            exact micros_nst_pos (hpo.ret _ _ hps).1 hn2

end

namespace Spec.Mirror

variable {ν : Type v} {n q : Nat} {K : Type u} [Scalar K]

section
variable (L : TwoWay K) (cfg : Cfg ν n q K) {P' : Problem n q K} {S' : NlSolver ν n K} (H : Fits cfg P' S') (s : State ν n q K)

local notation "cfg'" => conf cfg P' S'

include L in
theorem clampHh (tn hh T : K) : (if Scalar.gt ((-tn + -hh - -T) * -hh) 0 = true then (-T - -tn) * (1 - Scalar.four * Scalar.eps) else -hh) =
    -(if Scalar.gt ((tn + hh - T) * hh) 0 = true then (T - tn) * (1 - Scalar.four * Scalar.eps) else hh) := by
  rw [L.add, L.side]
  refine ite_conv (fun x : K => -x) Iff.rfl (fun _ => ?_) (fun _ => rfl)
  rw [L.sub, L.mul]

theorem clamp_eq (T : K) : clampToStop s T = { s with c.hh := if Scalar.gt ((s.e.tn + s.c.hh - T) * s.c.hh) 0 = true then
    (T - s.e.tn) * (1 - Scalar.four * Scalar.eps) else s.c.hh } := by
  unfold clampToStop
  split <;> rfl

include L in
theorem clamp_mirror (T : K) : clampToStop (state s) (-T) = state (clampToStop s T) := by
  rw [clamp_eq, clamp_eq]
  rw [show (if Scalar.gt (((state s).e.tn + (state s).c.hh - -T) * (state s).c.hh) 0 = true then
    (-T - (state s).e.tn) * (1 - Scalar.four * Scalar.eps) else (state s).c.hh) = _ from clampHh L s.e.tn s.c.hh T]
  rfl

include L in
theorem clamp_fresh (T : K) : clampToStop (fresh s) (-T) = fresh (clampToStop s T) := by
  rw [clamp_eq, clamp_eq]
  rw [show (if Scalar.gt (((fresh s).e.tn + (fresh s).c.hh - -T) * (fresh s).c.hh) 0 = true then
    (-T - (fresh s).e.tn) * (1 - Scalar.four * Scalar.eps) else (fresh s).c.hh) = _ from clampHh L s.e.tn s.c.hh T]
  rfl

include L in
/-- Continuing after an interpolation. -/
theorem gs_mirror {B B' : Type w} (f : B → B') {k : State ν n q K → B} {k' : State ν n q K → B'} {z : B} {z' : B'} (t : K)
    (hz : z' = f z) (h : ∀ s, k' (state s) = f (k s)) :
    (match getSolution' (state s) (-t) with | none => z' | some s => k' s) =
      f (match getSolution' s t with | none => z | some s => k s) := by
  rw [getSolution'_mirror L]
  cases getSolution' s t with
  | none => exact hz
  | some s => exact h s

include L in
theorem pastStop_mirror : pastStop (state s) = pastStop s := by
  unfold pastStop
  rw [show (state s).tstop = s.tstop.map fun T => -T from rfl]
  cases s.tstop with
  | none => rfl
  | some T =>
    simp only [Option.map_some]
    rw [show ((state s).e.tn - -T) * (state s).c.hh = _ from L.side _ _ _]

include L in
theorem roundoff_mirror : stopRoundoff (state s) = stopRoundoff s := by
  unfold stopRoundoff
  show Scalar.hundred * Scalar.eps * (Scalar.abs (-s.e.tn) + Scalar.abs (-s.c.hh)) = _
  rw [L.abs, L.abs]

include L in
theorem stopTest1_mirror (tout : K) (task : Task) : stopTest1 (state s) (-tout) task = (stopTest1 s tout task).onS state := by
  unfold stopTest1
  rw [pastStop_mirror L, roundoff_mirror L]
  refine ite_conv (Out.onS state) Iff.rfl (fun _ => rfl) (fun _ => ?_)
  cases task with
  | normal =>
    refine ite_conv (Out.onS state) (iffb (L.eq _ _)) (fun _ => rfl) (fun _ => ?_)
    refine ite_conv (Out.onS state) (iffb (congrArg (fun x => Scalar.ge x 0) (L.side _ _ _))) (fun _ => ?_) (fun _ => ?_)
    · rw [getSolution_mirror L]
      exact Out.bind_onS _ _ _ _ (fun s _ => rfl)
    · rw [show (state s).tstop = s.tstop.map fun T => -T from rfl]
      cases s.tstop with
      | none => rfl
      | some T =>
        refine ite_conv (Out.onS state) (iffb (congrArg (fun x => Scalar.le x _) (L.dist _ _))) (fun _ => ?_) (fun _ => ?_)
        · rw [getSolution_mirror L]
          cases getSolution s T with
          | panic => rfl
          | diverge => rfl
          | ret s r => cases r <;> rfl
        · rw [clamp_mirror L]; rfl
  | oneStep =>
    refine ite_conv (Out.onS state) (iffb (congrArg (fun x => Scalar.gt x 0) (L.side _ _ _))) (fun _ => ?_) (fun _ => ?_)
    · exact gs_mirror L s (Out.onS state) s.e.tn rfl (fun s => rfl)
    · rw [show (state s).tstop = s.tstop.map fun T => -T from rfl]
      cases s.tstop with
      | none => rfl
      | some T =>
        refine ite_conv (Out.onS state) (iffb (congrArg (fun x => Scalar.le x _) (L.dist _ _))) (fun _ => ?_) (fun _ => ?_)
        · rw [getSolution_mirror L]
          exact Out.bind_onS _ _ _ _ (fun s _ => rfl)
        · rw [clamp_mirror L]; rfl

include L in
theorem stopTest2_mirror (tout : K) (task : Task) : stopTest2 (state s) (-tout) task = (stopTest2 s tout task).onS state := by
  unfold stopTest2
  rw [roundoff_mirror L]
  cases task with
  | normal =>
    refine ite_conv (Out.onS state) (iffb (congrArg (fun x => Scalar.ge x 0) (L.side _ _ _))) (fun _ => ?_) (fun _ => ?_)
    · exact gs_mirror L (s.setTret tout) (Out.onS state) tout rfl (fun s => rfl)
    · rw [show (state s).tstop = s.tstop.map fun T => -T from rfl]
      cases s.tstop with
      | none => rfl
      | some T =>
        refine ite_conv (Out.onS state) (iffb (congrArg (fun x => Scalar.le x _) (L.dist _ _))) (fun _ => ?_) (fun _ => ?_)
        · exact gs_mirror L s (Out.onS state) T rfl (fun s => rfl)
        · rw [clamp_mirror L]; rfl
  | oneStep =>
    simp only
    rw [show (state s).tstop = s.tstop.map fun T => -T from rfl]
    cases s.tstop with
    | none => rfl
    | some T =>
      refine ite_conv (Out.onS state) (iffb (congrArg (fun x => Scalar.le x _) (L.dist _ _))) (fun _ => ?_) (fun _ => ?_)
      · exact gs_mirror L s (Out.onS state) T rfl (fun s => rfl)
      · rw [clamp_mirror L]; rfl

theorem perfCheck_mirror : perfCheck (state s) = (perfCheck s).map state := by
  unfold perfCheck
  refine ite_conv (Option.map state) Iff.rfl (fun _ => rfl) (fun _ => ?_)
  refine ite_conv (Option.map state) Iff.rfl (fun _ => rfl) (fun _ => ?_)
  refine ite_conv (Option.map state) Iff.rfl (fun _ => rfl) (fun _ => ?_)
  exact ite_conv (Option.map state) Iff.rfl (fun _ => rfl) (fun _ => rfl)

/-! ## The first call -/

include L in
theorem firstStop_mirror : firstStop (fresh s) = (firstStop s).map fresh := by
  unfold firstStop
  rw [show (fresh s).tstop = s.tstop.map fun T => -T from rfl]
  cases s.tstop with
  | none => rfl
  | some T =>
    refine ite_conv (Option.map fresh) (iffb (congrArg (fun x => Scalar.le x 0) (L.side _ _ _))) (fun _ => rfl) (fun _ => ?_)
    rw [clamp_fresh L]; rfl

theorem initialSetup_mirror : initialSetup cfg' (fresh s) = fresh (initialSetup cfg s) := by
  unfold initialSetup
  exact ite_conv fresh Iff.rfl (fun _ => rfl) (fun _ => rfl)

include L in
theorem autoStep_mirror (tout tdist : K) (ha : Scalar.eqb (Scalar.abs (tout - s.e.tn)) 0 = false) :
    autoStep cfg' (fresh s) (-tout) tdist = -(autoStep cfg s tout tdist) := by
  unfold autoStep
  rw [show wrmsNorm (conf cfg P' S').id ((fresh s).h.phi 1) (fresh s).e.ewt (conf cfg P' S').suppressalg = _ from
    L.norm (s.h.phi 1) s.e.ewt cfg.id cfg.suppressalg, show Scalar.lt (-tout) (fresh s).e.tn = _ from L.lt tout s.e.tn, L.apart _ _ ha]
  cases Scalar.lt tout s.e.tn
  · rfl
  · exact (L.neg _).symm

include L in
theorem firstStepSize_mirror (tout tdist : K) (ha : Scalar.eqb (Scalar.abs (tout - s.e.tn)) 0 = false) :
    firstStepSize cfg' (fresh s) (-tout) tdist = -(firstStepSize cfg s tout tdist) := by
  unfold firstStepSize
  rw [autoStep_mirror L cfg s tout tdist ha]
  have e : (if Scalar.eqb (conf cfg P' S').hin 0 = true then -(autoStep cfg s tout tdist) else (conf cfg P' S').hin) =
      -(if Scalar.eqb cfg.hin 0 = true then autoStep cfg s tout tdist else cfg.hin) :=
    ite_conv (fun x : K => -x) (iffb (L.eqb _)) (fun _ => rfl) (fun _ => rfl)
  rw [e]
  simp only [L.abs]
  refine ite_conv (fun x : K => -x) Iff.rfl (fun _ => ?_) (fun _ => rfl)
  exact L.div _ _

include L H in
theorem firstReady_mirror : firstReady cfg' (fresh s) = state (firstReady cfg s) := by
  unfold firstReady
  have e : (if q > 0 then rCheck1 (conf cfg P' S') { fresh s with h0u := (fresh s).c.hh, c := { (fresh s).c with kk := 0, kused := 0 } }
      else { fresh s with h0u := (fresh s).c.hh, c := { (fresh s).c with kk := 0, kused := 0 } }) =
      fresh (if q > 0 then rCheck1 cfg { s with h0u := s.c.hh, c := { s.c with kk := 0, kused := 0 } }
        else { s with h0u := s.c.hh, c := { s.c with kk := 0, kused := 0 } }) :=
    ite_conv fresh Iff.rfl (fun _ => rCheck1_mirror L cfg H { s with h0u := s.c.hh, c := { s.c with kk := 0, kused := 0 } })
      (fun _ => rfl)
  simp only
  rw [e]
  generalize (if q > 0 then rCheck1 cfg { s with h0u := s.c.hh, c := { s.c with kk := 0, kused := 0 } }
        else { s with h0u := s.c.hh, c := { s.c with kk := 0, kused := 0 } }) = s
  have e2 : upd (fresh s).h.phi 1 (vscale (fresh s).c.hh ((fresh s).h.phi 1)) = upd s.h.phi 1 (vscale s.c.hh (s.h.phi 1)) := by
    rw [show vscale (fresh s).c.hh ((fresh s).h.phi 1) = _ from L.scale' (s.h.phi 1) s.c.hh]
    funext j
    show (if j = 1 then _ else if j = 1 then _ else s.h.phi j) = if j = 1 then _ else _
    split <;> rfl
  rw [e2]
  rfl

include L in
theorem tooClose_mirror (tout : K) : tooClose (fresh s) (-tout) = tooClose s tout := by
  unfold tooClose
  show (Scalar.eqb (Scalar.abs (-tout - -s.e.tn)) 0 || Scalar.lt (Scalar.abs (-tout - -s.e.tn))
    (Scalar.two * Scalar.eps * (Scalar.abs (-s.e.tn) + Scalar.abs (-tout)))) = _
  rw [L.dist, L.abs, L.abs]

include L in
theorem wrongWay_mirror (tout : K) : wrongWay cfg' (fresh s) (-tout) = wrongWay cfg s tout := by
  unfold wrongWay
  show (Scalar.neb (-cfg.hin) 0 && Scalar.lt ((-tout - -s.e.tn) * -cfg.hin) 0) = _
  rw [L.side]
  simp only [Scalar.neb, L.eqb]

/-- The outcome of the first-call block. -/
def firstOut : Out (State ν n q K) Unit → Out (State ν n q K) Unit
  | .ret s (.ok u) => .ret (state s) (.ok u)
  | .ret s (.error e) => .ret (fresh s) (.error e)
  | .panic => .panic
  | .diverge => .diverge

include L H in
theorem firstEnd_mirror (h : K) : firstEnd cfg' (fresh s) (-h) = firstOut (firstEnd cfg s h) := by
  unfold firstEnd
  have e2 := firstStop_mirror L { s with c.hh := h }
  rw [show firstStop { fresh s with c.hh := -h } = _ from e2]
  cases firstStop { s with c.hh := h } with
  | none => rfl
  | some s =>
    simp only [Option.map_some]
    rw [firstReady_mirror L cfg H]
    rfl

include L H in
theorem firstCall_mirror (tout : K) : firstCall cfg' (fresh s) (-tout) = firstOut (firstCall cfg s tout) := by
  rw [firstCall_eq, firstCall_eq, initialSetup_mirror]
  generalize initialSetup cfg s = s
  refine ite_conv firstOut (iffb (tooClose_mirror L s tout)) (fun _ => rfl) (fun hc => ?_)
  refine ite_conv firstOut (iffb (wrongWay_mirror L cfg { s with c.hh := cfg.hin } tout)) (fun _ => rfl) (fun _ => ?_)
  have ha : Scalar.eqb (Scalar.abs (tout - s.e.tn)) 0 = false := by
    unfold tooClose at hc
    simp only [Bool.or_eq_true, not_or, Bool.not_eq_true] at hc
    exact hc.1
  have e1 := firstStepSize_mirror L cfg (P' := P') (S' := S') { s with c.hh := cfg.hin } tout (Scalar.abs (tout - s.e.tn)) ha
  rw [show Scalar.abs (-tout - (fresh s).e.tn) = _ from L.dist tout s.e.tn]
  exact (congrArg (firstEnd (conf cfg P' S') (fresh { s with c.hh := cfg.hin })) e1).trans
    (firstEnd_mirror L cfg H { s with c.hh := cfg.hin } _)

/-! ## Later calls and the loop -/

include L H in
theorem rootChecks_mirror (hh : Scalar.eqb s.c.hh 0 = false) (rf : Nat) (task : Task) :
    rootChecks cfg' rf (state s) task = (rootChecks cfg rf s task).onS state := by
  unfold rootChecks
  rw [rCheck2_mirror L cfg H s hh, show (state s).r.irfnd = s.r.irfnd from rfl]
  cases rCheck2 cfg s with
  | panic => rfl
  | diverge => rfl
  | ret s1 r =>
    cases r with
    | error e => rfl
    | ok st =>
      cases st with
      | rootFound => rfl
      | continue_ =>
        simp only [Out.onS]
        refine ite_conv (Flow.onS state) ?_ (fun _ => ?_) (fun _ => rfl)
        · rw [show Scalar.abs ((state s1).e.tn - (state s1).tretlast) = _ from L.dist s1.e.tn s1.tretlast,
            show Scalar.abs (state s1).e.tn = Scalar.abs s1.e.tn from L.abs _, show Scalar.abs (state s1).c.hh = Scalar.abs s1.c.hh from L.abs _]
        rw [rCheck3_mirror L cfg H]
        cases rCheck3 cfg rf s1 with
        | panic => rfl
        | diverge => rfl
        | ret s2 r =>
          cases r with
          | error e => rfl
          | ok st =>
            cases st with
            | rootFound => rfl
            | continue_ =>
              simp only [Out.onS]
              refine ite_conv (Flow.onS state) Iff.rfl (fun _ => ?_) (fun _ => rfl)
              exact gs_mirror L (({ s2 with r.irfnd := false } : State ν n q K).setTret s2.e.tn) (Flow.onS state) s2.e.tn rfl
                (fun s => rfl)

include L H in
theorem laterCall_mirror (hh : Scalar.eqb s.c.hh 0 = false) (rf : Nat) (tout : K) (task : Task) :
    laterCall cfg' rf (state s) (-tout) task = (laterCall cfg rf s tout task).onS state := by
  unfold laterCall
  have e : (if q > 0 then rootChecks (conf cfg P' S') rf (state s) task else Flow.go (state s)) =
      (if q > 0 then rootChecks cfg rf s task else Flow.go s).onS state :=
    ite_conv (Flow.onS state) Iff.rfl (fun _ => rootChecks_mirror L cfg H s hh rf task) (fun _ => rfl)
  rw [e]
  cases (if q > 0 then rootChecks cfg rf s task else Flow.go s) with
  | go s =>
    simp only [Flow.onS]
    rw [stopTest1_mirror L]
    exact Flow.ofStop_onS _ _
  | ret s r => rfl
  | panic => rfl
  | diverge => rfl

include L in
theorem preEnd_mirror : preEnd cfg' (state s) = (preEnd cfg s).onS state := by
  unfold preEnd
  simp only [show wrmsNorm (conf cfg P' S').id ((state s).h.phi 0) (state s).e.ewt (conf cfg P' S').suppressalg =
    wrmsNorm cfg.id (s.h.phi 0) s.e.ewt cfg.suppressalg from rfl]
  refine ite_conv (Flow.onS state) Iff.rfl (fun _ => ?_) (fun _ => ?_)
  · exact gs_mirror L s (Flow.onS state) s.e.tn rfl (fun s => rfl)
  · refine ite_conv (Flow.onS state) Iff.rfl (fun _ => ?_) (fun _ => rfl)
    have e3 : ∀ s : State ν n q K, (if (state s).cnt.nst > 0 then getSolution' (state s) (state s).e.tn else some (state s)) =
        (if s.cnt.nst > 0 then getSolution' s s.e.tn else some s).map state := fun s =>
      ite_conv (Option.map state) Iff.rfl (fun _ => getSolution'_mirror L s s.e.tn) (fun _ => rfl)
    have e4 := e3 (State.setTret { s with tolsf := Scalar.eps * wrmsNorm cfg.id (s.h.phi 0) s.e.ewt cfg.suppressalg * Scalar.ten } s.e.tn)
    refine Eq.trans (congrArg (fun o => match o with
      | none => Flow.panic
      | some s => Flow.ret s (.error (.ida .tooMuchAccuracy))) e4) ?_
    generalize (if (State.setTret { s with tolsf := Scalar.eps * wrmsNorm cfg.id (s.h.phi 0) s.e.ewt cfg.suppressalg * Scalar.ten } s.e.tn).cnt.nst > 0
      then getSolution' (State.setTret { s with tolsf := Scalar.eps * wrmsNorm cfg.id (s.h.phi 0) s.e.ewt cfg.suppressalg * Scalar.ten } s.e.tn)
        (State.setTret { s with tolsf := Scalar.eps * wrmsNorm cfg.id (s.h.phi 0) s.e.ewt cfg.suppressalg * Scalar.ten } s.e.tn).e.tn
      else some (State.setTret { s with tolsf := Scalar.eps * wrmsNorm cfg.id (s.h.phi 0) s.e.ewt cfg.suppressalg * Scalar.ten } s.e.tn)) = o
    cases o <;> rfl

include L in
theorem preStep_mirror (k : Nat) : preStep cfg' (state s) k = (preStep cfg s k).onS state := by
  unfold preStep
  refine ite_conv (Flow.onS state) Iff.rfl (fun _ => rfl) (fun _ => ?_)
  rw [perfCheck_mirror]
  cases perfCheck s with
  | none => rfl
  | some s =>
    simp only [Option.map_some]
    have e : (if (state s).cnt.nst > 0 then { state s with
          e := { (state s).e with ewt := (conf cfg P' S').ewtSet ((state s).h.phi 0) (state s).e.ewt } } else state s) =
        state (if s.cnt.nst > 0 then { s with e := { s.e with ewt := cfg.ewtSet (s.h.phi 0) s.e.ewt } } else s) :=
      ite_conv state Iff.rfl (fun _ => rfl) (fun _ => rfl)
    exact (congrArg (preEnd (conf cfg P' S')) e).trans (preEnd_mirror L cfg _)

include L in
theorem stepFailed_mirror (e : Err) : stepFailed (state s) e = (stepFailed s e).onS state := by
  unfold stepFailed
  rw [show (state s).e.tn = -s.e.tn from rfl, getSolution_mirror L]
  cases getSolution s s.e.tn with
  | panic => rfl
  | diverge => rfl
  | ret s r => cases r <;> rfl

include L H in
theorem postStep_mirror (rf : Nat) (tout : K) (task : Task) :
    postStep cfg' rf (state s) (-tout) task = (postStep cfg rf s tout task).onS state := by
  unfold postStep
  refine ite_conv (Flow.onS state) Iff.rfl (fun _ => ?_) (fun _ => ?_)
  · rw [rCheck3_mirror L cfg H]
    cases rCheck3 cfg rf s with
    | panic => rfl
    | diverge => rfl
    | ret s r =>
      cases r with
      | error e => rfl
      | ok st =>
        cases st with
        | rootFound => rfl
        | continue_ =>
          simp only [Out.onS]
          rw [stopTest2_mirror L]
          exact Flow.ofStop_onS _ _
  · rw [stopTest2_mirror L]
    exact Flow.ofStop_onS _ _

include L H in
theorem solvePass_mirror (rf : Nat) (tout : K) (task : Task) (k : Nat) :
    solvePass cfg' rf (state s) (-tout) task k = (solvePass cfg rf s tout task k).onS state := by
  unfold solvePass
  rw [preStep_mirror L]
  cases preStep cfg s k with
  | ret s r => rfl
  | panic => rfl
  | diverge => rfl
  | go s =>
    simp only [Flow.onS]
    rw [step_mirror L cfg H]
    cases step cfg s with
    | panic => rfl
    | diverge => rfl
    | ret s r =>
      cases r with
      | error e => exact stepFailed_mirror L s e
      | ok u => exact postStep_mirror L cfg H s rf tout task

include L H in
theorem solveLoop_mirror (rf : Nat) (tout : K) (task : Task) (sf : Nat) : ∀ (s : State ν n q K) (k : Nat),
    solveLoop cfg' rf (-tout) task sf (state s) k = (solveLoop cfg rf tout task sf s k).onS state := by
  induction sf with
  | zero => intro s k; rfl
  | succ sf ih =>
    intro s k
    unfold solveLoop
    rw [solvePass_mirror L cfg H]
    exact Flow.andThen_onS _ _ _ _ (fun s => ih s (k + 1))

include L H in
/-- A call of `solve` after steps have been taken. -/
theorem solve_mirror (hn : s.cnt.nst ≠ 0) (hh : Scalar.eqb s.c.hh 0 = false) (rf sf : Nat) (tout : K) (task : Task) :
    solve cfg' rf sf (state s) (-tout) task = (solve cfg rf sf s tout task).onS state := by
  rw [solve_core, solve_core, show solveHead (state s) (-tout) task = state (solveHead s tout task) by cases task <;> rfl]
  have hn' : (solveHead s tout task).cnt.nst ≠ 0 := by cases task <;> exact hn
  have hh' : Scalar.eqb (solveHead s tout task).c.hh 0 = false := by cases task <;> exact hh
  generalize solveHead s tout task = s at hn' hh'
  unfold solveCore
  rw [if_neg hn', if_neg (show ¬ (state s).cnt.nst = 0 from hn')]
  simp only [Out.bind]
  rw [if_pos (show (perfReset s).cnt.nst > 0 from Nat.pos_of_ne_zero hn'),
    if_pos (show (perfReset (state s)).cnt.nst > 0 from Nat.pos_of_ne_zero hn'),
    show laterCall (conf cfg P' S') rf (perfReset (state s)) (-tout) task = _ from laterCall_mirror L cfg H (perfReset s) hh' rf tout task]
  exact Flow.andThen_onS _ _ _ _ (fun s => solveLoop_mirror L cfg H rf tout task sf s 0)

include L H in
/-- A call of `solve` before the first step. -/
theorem solve_first_mirror (hn : s.cnt.nst = 0) (rf sf : Nat) (tout : K) (task : Task) :
    (∃ s1, solve cfg rf sf s tout task = .ret s1 (.error (.ida .illegalInput)) ∧ s1.cnt.nst = 0 ∧
      solve cfg' rf sf (fresh s) (-tout) task = .ret (fresh s1) (.error (.ida .illegalInput))) ∨
    (solve cfg' rf sf (fresh s) (-tout) task = (solve cfg rf sf s tout task).onS state ∧
      ∀ s1, solve cfg rf sf s tout task = .ret s1 (.error (.ida .illegalInput)) → s1.cnt.nst ≠ 0) := by
  rw [solve_core, solve_core, show solveHead (fresh s) (-tout) task = fresh (solveHead s tout task) by cases task <;> rfl]
  have hn' : (solveHead s tout task).cnt.nst = 0 := by cases task <;> exact hn
  generalize solveHead s tout task = s at hn'
  unfold solveCore
  rw [if_pos hn', if_pos (show (fresh s).cnt.nst = 0 from hn'), firstCall_mirror L cfg H]
  have hc : ∀ s1 r, firstCall cfg s tout = .ret s1 r → s1.cnt.nst = 0 := by
    intro s1 r h
    have hi : (initialSetup cfg s).cnt = s.cnt := by unfold initialSetup; split <;> rfl
    rcases firstCall_cases h with ⟨-, rfl, -⟩ | ⟨-, rfl, -⟩ | ⟨h0, rfl, -, -, ⟨-, rfl, -⟩ | ⟨s2, h2, rfl, -⟩⟩
    · rw [hi]; exact hn'
    · show (initialSetup cfg s).cnt.nst = 0
      rw [hi]; exact hn'
    · show (initialSetup cfg s).cnt.nst = 0
      rw [hi]; exact hn'
    · have e1 : s2.cnt = s.cnt := by
        unfold firstStop at h2
        split at h2
        · split at h2
          · cases h2
          · cases h2
            rw [clamp_eq]
            exact hi
        · cases h2
          exact hi
      have e2 : (firstReady cfg s2).cnt = s2.cnt := by
        unfold firstReady rCheck1 callRoot
        simp only
        split
        · split <;> rfl
        · rfl
      rw [e2, e1]
      exact hn'
  cases hf : firstCall cfg s tout with
  | panic => exact .inr ⟨rfl, fun s1 h => by cases h⟩
  | diverge => exact .inr ⟨rfl, fun s1 h => by cases h⟩
  | ret s1 r =>
    have hs := hc _ _ hf
    cases r with
    | error e =>
      have := firstCall_error hf
      subst this
      exact .inl ⟨s1, rfl, hs, rfl⟩
    | ok u =>
      refine .inr ?_
      simp only [firstOut, Out.bind]
      rw [if_neg (show ¬ (perfReset s1).cnt.nst > 0 from by rw [show (perfReset s1).cnt.nst = s1.cnt.nst from rfl]; omega),
        if_neg (show ¬ (perfReset (state s1)).cnt.nst > 0 from by rw [show (perfReset (state s1)).cnt.nst = s1.cnt.nst from rfl]; omega)]
      refine ⟨Flow.andThen_onS state (Flow.go (perfReset s1)) _ _ (fun s => solveLoop_mirror L cfg H rf tout task sf s 0), ?_⟩
      intro s2 h2
      have := firstLoop_illegal (s := perfReset s1) hs h2
      omega

/-! ## Derivatives -/

/-- `(-1) ^ k * x`. -/
def sg : Nat → K → K
  | 0, x => x
  | k + 1, x => -(sg k x)

include L in
theorem sg_neg (k : Nat) (x : K) : sg k (-x) = -(sg k x) := by
  induction k with
  | zero => rfl
  | succ k ih => exact congrArg (- ·) ih

include L in
theorem sg_zero (k : Nat) : sg k (0 : K) = 0 := by
  induction k with
  | zero => rfl
  | succ k ih => exact (congrArg (- ·) ih).trans L.zero

include L in
theorem sg_mul (k : Nat) (x y : K) : sg k x * y = sg k (x * y) := by
  induction k with
  | zero => rfl
  | succ k ih => show -(sg k x) * y = -(sg k (x * y)); rw [L.mul, ih]

include L in
theorem sg_mul' (k : Nat) (x y : K) : x * sg k y = sg k (x * y) := by
  induction k with
  | zero => rfl
  | succ k ih => show x * -(sg k y) = -(sg k (x * y)); rw [L.mul', ih]

include L in
theorem sg_div (k : Nat) (x y : K) : sg k x / y = sg k (x / y) := by
  induction k with
  | zero => rfl
  | succ k ih => show -(sg k x) / y = -(sg k (x / y)); rw [L.div, ih]

include L in
theorem sg_add (k : Nat) (x y : K) : sg k x + sg k y = sg k (x + y) := by
  induction k with
  | zero => rfl
  | succ k ih => show -(sg k x) + -(sg k y) = -(sg k (x + y)); rw [L.add, ih]

theorem sg_alt (k : Nat) (v : Vec n K) (i : Fin n) : alt k v i = sg k (v i) := by
  induction k with
  | zero => rfl
  | succ k ih => exact congrArg (- ·) ih

/-- One iteration of the inner loop of `get_dky`. -/
def dkyIter (psi : Nat → K) (delt : K) (i j0 : Nat) (l : DkyCoef K) : DkyCoef K :=
  { l with cjk := upd l.cjk (i + 1 + j0) ((Scalar.ofNat i * l.cjk1 (i + 1 + j0 - 1) + l.cjk (i + 1 + j0 - 1) * (delt + l.psij1)) / psi (i + 1 + j0 - 1))
           psij1 := psi (i + 1 + j0 - 1) }

theorem dkyPass_eq (psi : Nat → K) (delt : K) (hi i : Nat) (l : DkyCoef K) : dkyPass psi delt hi i l =
    { forUp (hi - (i + 1)) (dkyIter psi delt i) (if i = 0 then { l with cjk := upd l.cjk 0 1 }
      else { l with cjk := upd l.cjk i (l.cjk (i - 1) * Scalar.ofNat i / psi (i - 1)), psij1 := psi (i - 1) }) with
      cjk1 := forUp (hi - (i + 1)) (fun j0 a => upd a (i + 1 + j0)
        ((forUp (hi - (i + 1)) (dkyIter psi delt i) (if i = 0 then { l with cjk := upd l.cjk 0 1 }
          else { l with cjk := upd l.cjk i (l.cjk (i - 1) * Scalar.ofNat i / psi (i - 1)), psij1 := psi (i - 1) })).cjk (i + 1 + j0)))
        (forUp (hi - (i + 1)) (dkyIter psi delt i) (if i = 0 then { l with cjk := upd l.cjk 0 1 }
          else { l with cjk := upd l.cjk i (l.cjk (i - 1) * Scalar.ofNat i / psi (i - 1)), psij1 := psi (i - 1) })).cjk1 } := rfl

theorem copy_apply (f g : Nat → K) (lo m j : Nat) :
    forUp m (fun j0 a => upd a (lo + j0) (f (lo + j0))) g j = if lo ≤ j ∧ j < lo + m then f j else g j := by
  induction m with
  | zero => rw [forUp_zero, if_neg (by omega)]
  | succ m ih =>
    rw [forUp_succ]
    by_cases h : j = lo + m
    · subst h; rw [upd_same, if_pos (by omega)]
    · rw [upd_ne _ _ h, ih]
      by_cases h2 : lo ≤ j ∧ j < lo + m
      · rw [if_pos h2, if_pos (by omega)]
      · rw [if_neg h2, if_neg (by omega)]

include L in
theorem dkyIter_mirror (psi : Nat → K) (delt : K) (i : Nat) (a b : DkyCoef K)
    (h1 : ∀ j, j ≤ i → b.cjk j = sg (min j i) (a.cjk j)) (h2 : ∀ j, b.cjk1 j = sg (min (j - 1) (i - 1)) (a.cjk1 j))
    (h0 : i = 0 → ∀ j, a.cjk1 j = 0) (h3 : b.psij1 = -a.psij1) (m : Nat) :
    (∀ j, j ≤ i + m → (forUp m (dkyIter (fun j => -(psi j)) (-delt) i) b).cjk j =
      sg (min j i) ((forUp m (dkyIter psi delt i) a).cjk j)) ∧
    (∀ j, i + m < j → (forUp m (dkyIter (fun j => -(psi j)) (-delt) i) b).cjk j = b.cjk j ∧
      (forUp m (dkyIter psi delt i) a).cjk j = a.cjk j) ∧
    (forUp m (dkyIter (fun j => -(psi j)) (-delt) i) b).cjk1 = b.cjk1 ∧ (forUp m (dkyIter psi delt i) a).cjk1 = a.cjk1 ∧
    (forUp m (dkyIter (fun j => -(psi j)) (-delt) i) b).psij1 = -(forUp m (dkyIter psi delt i) a).psij1 := by
  induction m with
  | zero => exact ⟨by simpa using h1, by simp, rfl, rfl, h3⟩
  | succ m ih =>
    obtain ⟨k1, k2, k3, k4, k5⟩ := ih
    rw [forUp_succ, forUp_succ]
    generalize forUp m (dkyIter (fun j => -(psi j)) (-delt) i) b = b' at k1 k2 k3 k5 ⊢
    generalize forUp m (dkyIter psi delt i) a = a' at k1 k2 k4 k5 ⊢
    refine ⟨?_, ?_, k3, k4, rfl⟩
    · intro j hj
      unfold dkyIter
      dsimp only
      by_cases hji : j = i + 1 + m
      · subst hji
        rw [upd_same, upd_same, k3, k4, h2, k5, k1 _ (by omega)]
        have e1 : min (i + 1 + m - 1) i = i := by omega
        have e2 : min (i + 1 + m) i = i := by omega
        rw [e1, e2, L.add, L.div', L.mul']
        by_cases hi : i = 0
        · subst hi
          rw [h0 rfl, sg_zero L]
          have e3 : Scalar.ofNat 0 * (0 : K) = -(Scalar.ofNat 0 * 0) := by
            rw [← L.mul', L.zero]
          show -((Scalar.ofNat 0 * (0 : K) + -(a'.cjk _ * (delt + a'.psij1))) / _) = (Scalar.ofNat 0 * (0 : K) + a'.cjk _ * (delt + a'.psij1)) / _
          conv_lhs => rw [e3]
          rw [L.add, L.div, L.neg]
        · have e3 : min (i + 1 + m - 1 - 1) (i - 1) = i - 1 := by omega
          rw [e3]
          obtain ⟨i', rfl⟩ : ∃ i', i = i' + 1 := ⟨i - 1, by omega⟩
          simp only [Nat.add_sub_cancel]
          show -((Scalar.ofNat (i' + 1) * sg i' (a.cjk1 _) + -(-(sg i' (a'.cjk _)) * (delt + a'.psij1))) / _) = -(sg i' _)
          rw [L.mul, L.neg, sg_mul L, sg_mul' L, sg_add L, sg_div L]
      · rw [upd_ne _ _ hji, upd_ne _ _ hji]
        exact k1 j (by omega)
    · intro j hj
      unfold dkyIter
      dsimp only
      rw [upd_ne _ _ (by omega), upd_ne _ _ (by omega)]
      exact k2 j (by omega)

/-- The signs after `i` passes of the outer loop. -/
structure Dky (hi i : Nat) (a b : DkyCoef K) : Prop where
  cjk : ∀ j, b.cjk j = sg (min j (i - 1)) (a.cjk j)
  cjk1 : ∀ j, b.cjk1 j = sg (min (j - 1) (i - 1)) (a.cjk1 j)
  psij1 : b.psij1 = -a.psij1
  zero : ∀ j, hi ≤ j → i ≤ j → a.cjk j = 0
  zero1 : ∀ j, hi ≤ j → a.cjk1 j = 0
  zero0 : i = 0 → ∀ j, a.cjk1 j = 0

include L in
theorem dkyPass_mirror (psi : Nat → K) (delt : K) (hi i : Nat) (a b : DkyCoef K) (h : Dky hi i a b) :
    Dky hi (i + 1) (dkyPass psi delt hi i a) (dkyPass (fun j => -(psi j)) (-delt) hi i b) := by
  rw [dkyPass_eq, dkyPass_eq]
  have key : ∀ a1 b1 : DkyCoef K, a1 = (if i = 0 then { a with cjk := upd a.cjk 0 1 }
      else { a with cjk := upd a.cjk i (a.cjk (i - 1) * Scalar.ofNat i / psi (i - 1)), psij1 := psi (i - 1) }) →
      b1 = (if i = 0 then { b with cjk := upd b.cjk 0 1 }
      else { b with cjk := upd b.cjk i (b.cjk (i - 1) * Scalar.ofNat i / -(psi (i - 1))), psij1 := -(psi (i - 1)) }) →
      (∀ j, j ≤ i → b1.cjk j = sg (min j i) (a1.cjk j)) ∧ (∀ j, i < j → b1.cjk j = b.cjk j ∧ a1.cjk j = a.cjk j) ∧
      b1.cjk1 = b.cjk1 ∧ a1.cjk1 = a.cjk1 ∧ b1.psij1 = -a1.psij1 := by
    rintro a1 b1 rfl rfl
    by_cases hi0 : i = 0
    · subst hi0
      simp only [if_true]
      refine ⟨?_, ?_, trivial, trivial, h.psij1⟩
      · intro j hj
        obtain rfl : j = 0 := by omega
        rfl
      · intro j hj
        rw [upd_ne _ _ (by omega), upd_ne _ _ (by omega)]; exact ⟨rfl, rfl⟩
    · simp only [if_neg hi0]
      refine ⟨?_, ?_, trivial, trivial, trivial⟩
      · intro j hj
        by_cases hji : j = i
        · subst hji
          rw [upd_same, upd_same, h.cjk, Nat.min_self, Nat.min_self]
          obtain ⟨i', rfl⟩ : ∃ i', j = i' + 1 := ⟨j - 1, by omega⟩
          simp only [Nat.add_sub_cancel]
          rw [L.div', sg_mul L, sg_div L]
          rfl
        · rw [upd_ne _ _ hji, upd_ne _ _ hji, h.cjk]
          congr 1; omega
      · intro j hj
        rw [upd_ne _ _ (by omega), upd_ne _ _ (by omega)]; exact ⟨rfl, rfl⟩
  obtain ⟨k1, k2, k3, k4, k5⟩ := key _ _ rfl rfl
  generalize (if i = 0 then { a with cjk := upd a.cjk 0 1 }
      else { a with cjk := upd a.cjk i (a.cjk (i - 1) * Scalar.ofNat i / psi (i - 1)), psij1 := psi (i - 1) }) = a1 at k1 k2 k3 k4 k5 ⊢
  generalize (if i = 0 then { b with cjk := upd b.cjk 0 1 }
      else { b with cjk := upd b.cjk i (b.cjk (i - 1) * Scalar.ofNat i / -(psi (i - 1))), psij1 := -(psi (i - 1)) }) = b1 at k1 k2 k3 k4 k5 ⊢
  obtain ⟨m1, m2, m3, m4, m5⟩ := dkyIter_mirror L psi delt i a1 b1 k1 (by rw [k3, k4]; exact h.cjk1) (by rw [k4]; exact h.zero0) k5 (hi - (i + 1))
  generalize forUp (hi - (i + 1)) (dkyIter (fun j => -(psi j)) (-delt) i) b1 = b2 at m1 m2 m3 m5 ⊢
  generalize forUp (hi - (i + 1)) (dkyIter psi delt i) a1 = a2 at m1 m2 m4 m5 ⊢
  have hzero : ∀ j, hi ≤ j → i + 1 ≤ j → a2.cjk j = 0 := by
    intro j h1 h2
    rw [(m2 j (by omega)).2, (k2 j (by omega)).2]
    exact h.zero j h1 (by omega)
  refine ⟨?_, ?_, m5, hzero, ?_, fun h => absurd h (by omega)⟩
  · intro j
    rw [Nat.add_sub_cancel]
    by_cases hj : j ≤ i + (hi - (i + 1))
    · exact m1 j hj
    · have e1 := hzero j (by omega) (by omega)
      have e2 : a.cjk j = 0 := h.zero j (by omega) (by omega)
      dsimp only
      rw [e1, (m2 j (by omega)).1, (k2 j (by omega)).1, h.cjk, e2, sg_zero L, sg_zero L]
  · intro j
    dsimp only
    rw [copy_apply, copy_apply, Nat.add_sub_cancel]
    by_cases hj : i + 1 ≤ j ∧ j < i + 1 + (hi - (i + 1))
    · rw [if_pos hj, if_pos hj, m1 j (by omega)]
      congr 1; omega
    · rw [if_neg hj, if_neg hj, m3, m4, k3, k4, h.cjk1]
      by_cases hj2 : hi ≤ j
      · rw [h.zero1 j hj2, sg_zero L, sg_zero L]
      · congr 1; omega
  · intro j hj
    dsimp only
    rw [copy_apply, if_neg (by omega), m4, k4]
    exact h.zero1 j hj

include L in
theorem dkyCoefs_mirror (psi : Nat → K) (delt : K) (kused k j : Nat) (hj : k ≤ j) :
    (dkyCoefs (fun j => -(psi j)) (-delt) kused k).cjk j = sg k ((dkyCoefs psi delt kused k).cjk j) := by
  have : ∀ m, Dky (kused - k + 1 + 1) m (forUp m (fun i l => dkyPass psi delt (kused - k + 1 + 1) i l)
      { cjk := fun _ => 0, cjk1 := fun _ => 0, psij1 := 0 }) (forUp m (fun i l => dkyPass (fun j => -(psi j)) (-delt) (kused - k + 1 + 1) i l)
      { cjk := fun _ => 0, cjk1 := fun _ => 0, psij1 := 0 }) := by
    intro m
    induction m with
    | zero => exact ⟨fun j => (sg_zero L _).symm, fun j => (sg_zero L _).symm, L.zero.symm, fun _ _ _ => rfl, fun _ _ => rfl, fun _ _ => rfl⟩
    | succ m ih =>
      rw [forUp_succ, forUp_succ]
      exact dkyPass_mirror L _ _ _ _ _ _ ih
  have h := (this (k + 1)).cjk j
  rw [Nat.add_sub_cancel, Nat.min_eq_right hj] at h
  exact h

/-- The outcome of `get_dky`. -/
def dkyOut (k : Nat) : Out (State ν n q K) (Vec n K) → Out (State ν n q K) (Vec n K)
  | .ret s r => .ret (state s) (r.map (alt k))
  | .panic => .panic
  | .diverge => .diverge

include L in
theorem getDky_mirror (t : K) (k : Nat) : getDky (state s) (-t) k = dkyOut k (getDky s t k) := by
  unfold getDky
  rw [badTime_mirror L]
  refine ite_conv (dkyOut k) Iff.rfl (fun _ => rfl) (fun _ => ?_)
  refine ite_conv (dkyOut k) Iff.rfl (fun _ => rfl) (fun _ => ?_)
  refine ite_conv (dkyOut k) Iff.rfl (fun _ => ?_) (fun _ => rfl)
  rw [show -t - (state s).e.tn = -(t - s.e.tn) from L.sub _ _]
  have e := forUp_conv
    (f := fun j0 (y : Vec n K) => fun i => y i + s.h.phi (k + j0) i * (dkyCoefs s.h.psi (t - s.e.tn) s.c.kused k).cjk (k + j0))
    (f' := fun j0 (y : Vec n K) => fun i => y i + s.h.phi (k + j0) i *
      (dkyCoefs (fun j => -(s.h.psi j)) (-(t - s.e.tn)) s.c.kused k).cjk (k + j0))
    (fun _ => alt k) (s.c.kused - k + 1) (fun j y _ => by
      funext i
      rw [dkyCoefs_mirror L _ _ _ _ _ (by omega), sg_alt, sg_alt, sg_mul' L, sg_add L]) vzero
  rw [show alt k (vzero : Vec n K) = vzero from by funext i; rw [sg_alt]; exact sg_zero L k] at e
  exact congrArg (fun v => Out.ret (state s) (Except.ok v)) e

/-! ## Public calls -/

include L H in
/-- Any call after steps have been taken. -/
theorem exec_mirror (hn : s.cnt.nst ≠ 0) (hh : Scalar.eqb s.c.hh 0 = false) (rf sf : Nat) (o : Op K) :
    exec cfg' rf sf (state s) (op o) = (exec cfg rf sf s o).map fun p => (state p.1, res o p.2) := by
  cases o with
  | solve tout tret task =>
    show (match solve (conf cfg P' S') rf sf (state { s with tret := tret }) (-tout) task with
      | .ret s r => some (s, Res.solved r)
      | _ => none) = Option.map (fun p => (state p.1, res (.solve tout tret task) p.2)) (match solve cfg rf sf { s with tret := tret } tout task with
      | .ret s r => some (s, Res.solved r)
      | _ => none)
    rw [solve_mirror L cfg H { s with tret := tret } hn hh]
    cases solve cfg rf sf { s with tret := tret } tout task <;> rfl
  | getSolution t =>
    unfold exec op
    simp only
    rw [getSolution_mirror L]
    cases getSolution s t <;> rfl
  | getDky t k =>
    unfold exec op
    simp only
    rw [getDky_mirror L]
    cases getDky s t k <;> rfl

include L H in
/-- A call of `solve` before the first step. -/
theorem exec_first_mirror (hn : s.cnt.nst = 0) (rf sf : Nat) (tout tret : K) (task : Task) :
    (exec cfg rf sf s (.solve tout tret task) = none ∧ exec cfg' rf sf (fresh s) (op (.solve tout tret task)) = none) ∨
    ∃ s1 s1' r, exec cfg rf sf s (.solve tout tret task) = some (s1, r) ∧
      exec cfg' rf sf (fresh s) (op (.solve tout tret task)) = some (s1', res (.solve tout tret task) r) ∧
      (s1' = state s1 ∨ s1' = fresh s1) ∧
      (s1.cnt.nst ≠ 0 → s1' = state s1) ∧ (s1.cnt.nst = 0 → r = .solved (.error (.ida .illegalInput)) → s1' = fresh s1) := by
  have e1 : exec (conf cfg P' S') rf sf (fresh s) (op (.solve tout tret task)) =
    match solve (conf cfg P' S') rf sf (fresh { s with tret := tret }) (-tout) task with
      | .ret s r => some (s, Res.solved r)
      | _ => none := rfl
  have e2 : exec cfg rf sf s (.solve tout tret task) = match solve cfg rf sf { s with tret := tret } tout task with
      | .ret s r => some (s, Res.solved r)
      | _ => none := rfl
  rw [e1, e2]
  rcases solve_first_mirror L cfg H { s with tret := tret } hn rf sf tout task with ⟨s1, h1, h2, h3⟩ | ⟨h1, h2⟩
  · rw [h1, h3]
    exact .inr ⟨s1, fresh s1, _, rfl, rfl, .inr rfl, fun h => absurd h2 h, fun _ _ => rfl⟩
  · rw [h1]
    cases hs : solve cfg rf sf { s with tret := tret } tout task with
    | panic => exact .inl ⟨rfl, rfl⟩
    | diverge => exact .inl ⟨rfl, rfl⟩
    | ret s1 r =>
      refine .inr ⟨s1, state s1, _, rfl, rfl, .inl rfl, fun _ => rfl, fun h0 hr => ?_⟩
      cases hr
      exact absurd h0 (h2 s1 hs)

end

/-! ## The standard solver stack -/

theorem new_mirror (L : TwoWay K) (N : ν) (yy0 yp0 : Vec n K) (T : Option K) :
    ({ State.new N yy0 (-yp0) with tstop := T.map fun T => -T } : State ν n q K) =
      fresh { State.new N yy0 yp0 with tstop := T } := by
  have e1 : (fun j => if j = 0 then yy0 else if j = 1 then -yp0 else vzero) =
      fun j => if j = 1 then -(if (1 : Nat) = 0 then yy0 else if (1 : Nat) = 1 then yp0 else vzero)
        else if j = 0 then yy0 else if j = 1 then yp0 else vzero := by
    funext j
    by_cases h1 : j = 1
    · subst h1; rfl
    · by_cases h0 : j = 0
      · subst h0; rfl
      · simp only [if_neg h1, if_neg h0]
  unfold State.new fresh state hist ctl env mem rootSt ghost
  simp only [e1, L.zero, L.vzero']
  rfl

theorem fits_newton (L : TwoWay K) {P P' : Problem n q K} (hP : Same P P') (T : TolControl n K) (fuel : Nat) :
    Fits (Cfg.newton P T fuel) P' (newtonNls P' fuel) where
  root := hP.root
  nls := newton_mirror L hP fuel

end Spec.Mirror

end Verif
