import Verif.Proofs.ClockRoot
import Verif.Proofs.MirrorRun

/-!
# Another unit of time: the driver
-/

set_option autoImplicit false
set_option linter.unusedSectionVars false
set_option linter.unusedSimpArgs false
set_option linter.unusedVariables false

namespace Verif

open Spec.Rescale (firstEnd firstCall_eq preEnd)

open Verif.Spec

universe u v w x

namespace Spec.Clock

section
variable {ν : Type v} {n q : Nat} {K : Type u} [Scalar K] {cfg : Cfg ν n q K}

theorem micro_free {s s' : State ν n q K} (hs : s.tstop = none) (h : Micro cfg s s') : s'.tstop = none := by
  cases h with
  | frame hf => exact hf.tstop.trans hs
  | perf => exact hs
  | clear => rfl
  | clamp ts _ h2 _ => rw [hs] at h2; cases h2
  | ewt => exact hs
  | first _ _ _ h1 => exact (firstCall_quiet h1).tstop.trans hs
  | firstStep _ _ h1 h2 h3 =>
    refine (step_quiet h3).1.tstop.trans (h2.tstop.trans ?_)
    exact (firstCall_quiet h1).tstop.trans hs
  | step _ _ h1 _ => exact (step_quiet h1).1.tstop.trans hs

theorem micros_free {s s' : State ν n q K} (hs : s.tstop = none) (h : Micros cfg s s') : s'.tstop = none := by
  induction h with
  | refl => exact hs
  | tail _ h2 ih => exact micro_free ih h2

theorem preStep_free {s s' : State ν n q K} {k : Nat} (hs : s.tstop = none) (h : preStep cfg s k = .go s') : s'.tstop = none := by
  have hp := preStep_cases cfg s k
  rw [h] at hp
  cases hp with
  | go _ _ h2 => exact h2.tstop.trans hs

theorem solvePass_free {rf : Nat} {s s' : State ν n q K} {tout : K} {task : Task} {k : Nat} (hs : s.tstop = none)
    (h : solvePass cfg rf s tout task k = .go s') : s'.tstop = none := by
  unfold solvePass at h
  cases hpre : preStep cfg s k with
  | panic => rw [hpre] at h; cases h
  | diverge => rw [hpre] at h; cases h
  | ret s1 r1 => rw [hpre] at h; cases h
  | go s1 =>
    rw [hpre] at h
    dsimp only at h
    have h1 := preStep_free hs hpre
    cases hstep : step cfg s1 with
    | panic => rw [hstep] at h; cases h
    | diverge => rw [hstep] at h; cases h
    | ret s2 r2 =>
      rw [hstep] at h
      cases r2 with
      | error e => exact absurd h stepFailed_go
      | ok u =>
        dsimp only at h
        exact micros_free ((step_quiet hstep).1.tstop.trans h1) ((postStep_ok (step_nst hstep)).go s' h).1

theorem exec_free {rf sf : Nat} {s s' : State ν n q K} {op : Op K} {r : Res n K} (hs : s.tstop = none)
    (h : exec cfg rf sf s op = some (s', r)) : s'.tstop = none := by
  rcases exec_ends h with ⟨r', -, h2⟩ | ⟨-, h2⟩
  · cases h2 with
    | clean h3 _ => exact micros_free hs h3
    | failed s1 s2 e h3 h4 h5 _ =>
      have h6 := micros_free hs h3
      refine h5.tstop.trans ?_
      cases h4 with
      | firstStep _ _ _ h1 h2 h3 =>
        exact (step_quiet h3).1.tstop.trans (h2.tstop.trans ((firstCall_quiet h1).tstop.trans h6))
      | step _ _ _ h1 _ => exact (step_quiet h1).1.tstop.trans h6
  · exact micros_free hs h2

end

open Spec.Mirror (clamp_eq dkyIter dkyPass_eq copy_apply)

variable {ν : Type v} {n q : Nat} {K : Type u} [Scalar K] (U : Clock K)

section
variable (cfg : Cfg ν n q K) {P' : Problem n q K} {S' : NlSolver ν n K} (H : U.Fits cfg P' S') (s : State ν n q K)

local notation "cfg'" => U.conf cfg P' S'

theorem clampHh (tn hh T : K) : (if Scalar.gt ((U.f tn + U.f hh - U.f T) * U.f hh) 0 = true then (U.f T - U.f tn) * (1 - Scalar.four * Scalar.eps) else U.f hh) =
    U.f (if Scalar.gt ((tn + hh - T) * hh) 0 = true then (T - tn) * (1 - Scalar.four * Scalar.eps) else hh) := by
  rw [U.add, U.side_gt]
  refine ite_conv (U.f) Iff.rfl (fun _ => ?_) (fun _ => rfl)
  rw [U.sub, U.mul]

theorem clamp_clock (T : K) : clampToStop (U.state s) (U.f T) = U.state (clampToStop s T) := by
  rw [clamp_eq, clamp_eq]
  rw [show (if Scalar.gt (((U.state s).e.tn + (U.state s).c.hh - U.f T) * (U.state s).c.hh) 0 = true then
    (U.f T - (U.state s).e.tn) * (1 - Scalar.four * Scalar.eps) else (U.state s).c.hh) = _ from U.clampHh s.e.tn s.c.hh T]
  rfl

theorem clamp_fresh (T : K) : clampToStop (U.fresh s) (U.f T) = U.fresh (clampToStop s T) := by
  rw [clamp_eq, clamp_eq]
  rw [show (if Scalar.gt (((U.fresh s).e.tn + (U.fresh s).c.hh - U.f T) * (U.fresh s).c.hh) 0 = true then
    (U.f T - (U.fresh s).e.tn) * (1 - Scalar.four * Scalar.eps) else (U.fresh s).c.hh) = _ from U.clampHh s.e.tn s.c.hh T]
  rfl

/-- Continuing after an interpolation. -/
theorem gs_clock {B B' : Type w} (f : B → B') {k : State ν n q K → B} {k' : State ν n q K → B'} {z : B} {z' : B'} (t : K)
    (hz : z' = f z) (h : ∀ s, k' (U.state s) = f (k s)) :
    (match getSolution' (U.state s) (U.f t) with | none => z' | some s => k' s) =
      f (match getSolution' s t with | none => z | some s => k s) := by
  rw [U.getSolution'_clock]
  cases getSolution' s t with
  | none => exact hz
  | some s => exact h s

theorem near (a b c : K) : Scalar.le (Scalar.abs (U.f a - U.f b)) (U.f c) = Scalar.le (Scalar.abs (a - b)) c := by
  rw [U.dist, U.le]

theorem pastStop_clock : pastStop (U.state s) = pastStop s := by
  unfold pastStop
  rw [show (U.state s).tstop = s.tstop.map fun T => U.f T from rfl]
  cases s.tstop with
  | none => rfl
  | some T =>
    simp only [Option.map_some]
    rw [show Scalar.gt (((U.state s).e.tn - U.f T) * (U.state s).c.hh) 0 = _ from U.side_gt _ _ _]

theorem roundoff_clock : stopRoundoff (U.state s) = U.f (stopRoundoff s) := by
  unfold stopRoundoff
  show Scalar.hundred * Scalar.eps * (Scalar.abs (U.f s.e.tn) + Scalar.abs (U.f s.c.hh)) = _
  rw [U.abs, U.abs, U.add, U.mul']

theorem stopTest1_clock (tout : K) (task : Task) : stopTest1 (U.state s) (U.f tout) task = (stopTest1 s tout task).onS U.state := by
  unfold stopTest1
  rw [U.pastStop_clock, U.roundoff_clock]
  refine ite_conv (Out.onS U.state) Iff.rfl (fun _ => rfl) (fun _ => ?_)
  cases task with
  | normal =>
    refine ite_conv (Out.onS U.state) (iffb (U.eqb _ _)) (fun _ => rfl) (fun _ => ?_)
    refine ite_conv (Out.onS U.state) (iffb (U.side_ge _ _ _)) (fun _ => ?_) (fun _ => ?_)
    · rw [U.getSolution_clock]
      exact Out.bind_onS _ _ _ _ (fun s _ => rfl)
    · rw [show (U.state s).tstop = s.tstop.map fun T => U.f T from rfl]
      cases s.tstop with
      | none => rfl
      | some T =>
        refine ite_conv (Out.onS U.state) (iffb (U.near _ _ _)) (fun _ => ?_) (fun _ => ?_)
        · rw [U.getSolution_clock]
          cases getSolution s T with
          | panic => rfl
          | diverge => rfl
          | ret s r => cases r <;> rfl
        · rw [U.clamp_clock]; rfl
  | oneStep =>
    refine ite_conv (Out.onS U.state) (iffb (U.side_gt _ _ _)) (fun _ => ?_) (fun _ => ?_)
    · exact U.gs_clock s (Out.onS U.state) s.e.tn rfl (fun s => rfl)
    · rw [show (U.state s).tstop = s.tstop.map fun T => U.f T from rfl]
      cases s.tstop with
      | none => rfl
      | some T =>
        refine ite_conv (Out.onS U.state) (iffb (U.near _ _ _)) (fun _ => ?_) (fun _ => ?_)
        · rw [U.getSolution_clock]
          exact Out.bind_onS _ _ _ _ (fun s _ => rfl)
        · rw [U.clamp_clock]; rfl

theorem stopTest2_clock (tout : K) (task : Task) : stopTest2 (U.state s) (U.f tout) task = (stopTest2 s tout task).onS U.state := by
  unfold stopTest2
  rw [U.roundoff_clock]
  cases task with
  | normal =>
    refine ite_conv (Out.onS U.state) (iffb (U.side_ge _ _ _)) (fun _ => ?_) (fun _ => ?_)
    · exact U.gs_clock (s.setTret tout) (Out.onS U.state) tout rfl (fun s => rfl)
    · rw [show (U.state s).tstop = s.tstop.map fun T => U.f T from rfl]
      cases s.tstop with
      | none => rfl
      | some T =>
        refine ite_conv (Out.onS U.state) (iffb (U.near _ _ _)) (fun _ => ?_) (fun _ => ?_)
        · exact U.gs_clock s (Out.onS U.state) T rfl (fun s => rfl)
        · rw [U.clamp_clock]; rfl
  | oneStep =>
    simp only
    rw [show (U.state s).tstop = s.tstop.map fun T => U.f T from rfl]
    cases s.tstop with
    | none => rfl
    | some T =>
      refine ite_conv (Out.onS U.state) (iffb (U.near _ _ _)) (fun _ => ?_) (fun _ => ?_)
      · exact U.gs_clock s (Out.onS U.state) T rfl (fun s => rfl)
      · rw [U.clamp_clock]; rfl

theorem perfCheck_clock : perfCheck (U.state s) = (perfCheck s).map U.state := by
  unfold perfCheck
  refine ite_conv (Option.map U.state) Iff.rfl (fun _ => rfl) (fun _ => ?_)
  refine ite_conv (Option.map U.state) Iff.rfl (fun _ => rfl) (fun _ => ?_)
  refine ite_conv (Option.map U.state) Iff.rfl (fun _ => rfl) (fun _ => ?_)
  exact ite_conv (Option.map U.state) Iff.rfl (fun _ => rfl) (fun _ => rfl)

/-! ## The first call -/

theorem firstStop_clock : firstStop (U.fresh s) = (firstStop s).map U.fresh := by
  unfold firstStop
  rw [show (U.fresh s).tstop = s.tstop.map fun T => U.f T from rfl]
  cases s.tstop with
  | none => rfl
  | some T =>
    refine ite_conv (Option.map U.fresh) (iffb (U.side_le _ _ _)) (fun _ => rfl) (fun _ => ?_)
    rw [U.clamp_fresh]; rfl

theorem initialSetup_clock : initialSetup cfg' (U.fresh s) = U.fresh (initialSetup cfg s) := by
  unfold initialSetup
  exact ite_conv U.fresh Iff.rfl (fun _ => rfl) (fun _ => rfl)

theorem vsum_rate (v : Vec n K) : vsum (fun i => U.g (U.g (v i))) = U.g (U.g (vsum v)) := by
  have h : ∀ (m : Nat) (w : Vec m K), vsum (fun i => U.g (U.g (w i))) = U.g (U.g (vsum w)) := by
    intro m
    induction m with
    | zero => intro w; show (0 : K) = U.g (U.g 0); rw [U.gzero, U.gzero]
    | succ m ih =>
      intro w
      unfold vsum
      rw [Fin.foldl_succ_last, Fin.foldl_succ_last]
      have := ih (fun i => w i.castSucc)
      unfold vsum at this
      rw [this, U.gadd, U.gadd]
  exact h n v

theorem groots (hR : U.Roots) (a : K) : Scalar.sqrt (U.g (U.g a)) = U.g (Scalar.sqrt a) := by
  apply U.inj
  rw [U.fg, ← hR, U.fg, U.fg]

theorem norm_rate (hR : U.Roots) (v w : Vec n K) (id : Fin n → Bool) (mask : Bool) :
    wrmsNorm id (U.rate v) w mask = U.g (wrmsNorm id v w mask) := by
  have h : ∀ v : Vec n K, normWrms (U.rate v) w = U.g (normWrms v w) := by
    intro v
    unfold normWrms rate
    have e : ∀ i, U.g (v i) * w i * (U.g (v i) * w i) = U.g (U.g (v i * w i * (v i * w i))) := fun i => by
      rw [U.gmul, U.gmul, U.gmul']
    simp only [e]
    rw [U.vsum_rate, U.gdiv, U.gdiv, U.groots hR]
  unfold wrmsNorm
  cases mask
  · exact h v
  · simp only [if_true]
    unfold normWrmsMasked rate
    have e : ∀ i, U.g (v i) * w i * (if id i = true then 1 else 0) * (U.g (v i) * w i * (if id i = true then 1 else 0)) =
        U.g (U.g (v i * w i * (if id i = true then 1 else 0) * (v i * w i * (if id i = true then 1 else 0)))) := fun i => by
      rw [U.gmul, U.gmul, U.gmul, U.gmul']
    simp only [e]
    rw [U.vsum_rate, U.gdiv, U.gdiv, U.groots hR]

theorem autoStep_clock (hR : U.Roots) (tout tdist : K) :
    autoStep cfg' (U.fresh s) (U.f tout) (U.f tdist) = U.f (autoStep cfg s tout tdist) := by
  unfold autoStep
  rw [show wrmsNorm (U.conf cfg P' S').id ((U.fresh s).h.phi 1) (U.fresh s).e.ewt (U.conf cfg P' S').suppressalg = _ from
    U.norm_rate hR (s.h.phi 1) s.e.ewt cfg.id cfg.suppressalg, show Scalar.lt (U.f tout) (U.fresh s).e.tn = _ from U.lt tout s.e.tn]
  simp only [U.mul', U.div', U.gdiv', Scalar.gt, U.glt]
  have e : ∀ (c : Bool) (a b : K), (if c = true then U.f a else U.f b) = U.f (if c = true then a else b) := by
    intro c a b; cases c <;> rfl
  simp only [e, U.neg]

theorem firstStepSize_clock (hR : Scalar.eqb cfg.hin 0 = true → U.Roots) (tout tdist : K) :
    firstStepSize cfg' (U.fresh s) (U.f tout) (U.f tdist) = U.f (firstStepSize cfg s tout tdist) := by
  unfold firstStepSize
  have e : (if Scalar.eqb (U.conf cfg P' S').hin 0 = true then autoStep (U.conf cfg P' S') (U.fresh s) (U.f tout) (U.f tdist) else (U.conf cfg P' S').hin) =
      U.f (if Scalar.eqb cfg.hin 0 = true then autoStep cfg s tout tdist else cfg.hin) :=
    ite_conv U.f (iffb (U.eqb0 _)) (fun h => U.autoStep_clock cfg s (hR h) tout tdist) (fun _ => rfl)
  rw [e]
  have e1 : ∀ a : K, Scalar.abs (U.f a) * (U.conf cfg P' S').hmaxInv = Scalar.abs a * cfg.hmaxInv := fun a => by
    rw [U.abs]; exact U.fg' _ _
  simp only [e1]
  refine ite_conv U.f Iff.rfl (fun _ => ?_) (fun _ => rfl)
  exact U.div _ _

include H in
theorem firstReady_clock : firstReady cfg' (U.fresh s) = U.state (firstReady cfg s) := by
  unfold firstReady
  have e : (if q > 0 then rCheck1 (U.conf cfg P' S') { U.fresh s with h0u := (U.fresh s).c.hh, c := { (U.fresh s).c with kk := 0, kused := 0 } }
      else { U.fresh s with h0u := (U.fresh s).c.hh, c := { (U.fresh s).c with kk := 0, kused := 0 } }) =
      U.fresh (if q > 0 then rCheck1 cfg { s with h0u := s.c.hh, c := { s.c with kk := 0, kused := 0 } }
        else { s with h0u := s.c.hh, c := { s.c with kk := 0, kused := 0 } }) :=
    ite_conv U.fresh Iff.rfl (fun _ => U.rCheck1_clock cfg H { s with h0u := s.c.hh, c := { s.c with kk := 0, kused := 0 } })
      (fun _ => rfl)
  simp only
  rw [e]
  generalize (if q > 0 then rCheck1 cfg { s with h0u := s.c.hh, c := { s.c with kk := 0, kused := 0 } }
        else { s with h0u := s.c.hh, c := { s.c with kk := 0, kused := 0 } }) = s
  have e2 : upd (U.fresh s).h.phi 1 (vscale (U.fresh s).c.hh ((U.fresh s).h.phi 1)) = upd s.h.phi 1 (vscale s.c.hh (s.h.phi 1)) := by
    rw [show vscale (U.fresh s).c.hh ((U.fresh s).h.phi 1) = _ from U.scale' (s.h.phi 1) s.c.hh]
    funext j
    show (if j = 1 then _ else if j = 1 then _ else s.h.phi j) = if j = 1 then _ else _
    split <;> rfl
  rw [e2]
  rfl

theorem tooClose_clock (tout : K) : tooClose (U.fresh s) (U.f tout) = tooClose s tout := by
  unfold tooClose
  show (Scalar.eqb (Scalar.abs (U.f tout - U.f s.e.tn)) 0 || Scalar.lt (Scalar.abs (U.f tout - U.f s.e.tn))
    (Scalar.two * Scalar.eps * (Scalar.abs (U.f s.e.tn) + Scalar.abs (U.f tout)))) = _
  rw [U.dist, U.abs, U.abs, U.add, U.mul', U.lt, U.eqb0]

theorem wrongWay_clock (tout : K) : wrongWay cfg' (U.fresh s) (U.f tout) = wrongWay cfg s tout := by
  unfold wrongWay
  show (Scalar.neb (U.f cfg.hin) 0 && Scalar.lt ((U.f tout - U.f s.e.tn) * U.f cfg.hin) 0) = _
  rw [U.side_lt]
  simp only [Scalar.neb, U.eqb0]

/-- The outcome of the first-call block. -/
def firstOut : Out (State ν n q K) Unit → Out (State ν n q K) Unit
  | .ret s (.ok u) => .ret (U.state s) (.ok u)
  | .ret s (.error e) => .ret (U.fresh s) (.error e)
  | .panic => .panic
  | .diverge => .diverge

include H in
theorem firstEnd_clock (h : K) : firstEnd cfg' (U.fresh s) (U.f h) = U.firstOut (firstEnd cfg s h) := by
  unfold firstEnd
  have e2 := U.firstStop_clock { s with c.hh := h }
  rw [show firstStop { U.fresh s with c.hh := U.f h } = _ from e2]
  cases firstStop { s with c.hh := h } with
  | none => rfl
  | some s =>
    simp only [Option.map_some]
    rw [U.firstReady_clock cfg H]
    rfl

include H in
theorem firstCall_clock (hR : Scalar.eqb cfg.hin 0 = true → U.Roots) (tout : K) : firstCall cfg' (U.fresh s) (U.f tout) = U.firstOut (firstCall cfg s tout) := by
  rw [firstCall_eq, firstCall_eq, U.initialSetup_clock]
  generalize initialSetup cfg s = s
  refine ite_conv U.firstOut (iffb (U.tooClose_clock s tout)) (fun _ => rfl) (fun hc => ?_)
  refine ite_conv U.firstOut (iffb (U.wrongWay_clock cfg { s with c.hh := cfg.hin } tout)) (fun _ => rfl) (fun _ => ?_)
  have e1 := U.firstStepSize_clock cfg (P' := P') (S' := S') { s with c.hh := cfg.hin } hR tout (Scalar.abs (tout - s.e.tn))
  rw [show Scalar.abs (U.f tout - (U.fresh s).e.tn) = _ from U.dist tout s.e.tn]
  exact (congrArg (firstEnd (U.conf cfg P' S') (U.fresh { s with c.hh := cfg.hin })) e1).trans
    (U.firstEnd_clock cfg H { s with c.hh := cfg.hin } _)

/-! ## Later calls and the loop -/

include H in
theorem rootChecks_clock (rf : Nat) (task : Task) :
    rootChecks cfg' rf (U.state s) task = (rootChecks cfg rf s task).onS U.state := by
  unfold rootChecks
  rw [U.rCheck2_clock cfg H s, show (U.state s).r.irfnd = s.r.irfnd from rfl]
  cases rCheck2 cfg s with
  | panic => rfl
  | diverge => rfl
  | ret s1 r =>
    cases r with
    | error e => rfl
    | ok st =>
      cases st with
      | rootFound => rfl
      | continue_ =>
        simp only [Out.onS]
        refine ite_conv (Flow.onS U.state) ?_ (fun _ => ?_) (fun _ => rfl)
        · rw [show Scalar.abs ((U.state s1).e.tn - (U.state s1).tretlast) = _ from U.dist s1.e.tn s1.tretlast,
            show Scalar.abs (U.state s1).e.tn = U.f (Scalar.abs s1.e.tn) from U.abs _, show Scalar.abs (U.state s1).c.hh = U.f (Scalar.abs s1.c.hh) from U.abs _,
            U.add, U.mul, U.mul]
          exact iffb (U.lt _ _)
        rw [U.rCheck3_clock cfg H]
        cases rCheck3 cfg rf s1 with
        | panic => rfl
        | diverge => rfl
        | ret s2 r =>
          cases r with
          | error e => rfl
          | ok st =>
            cases st with
            | rootFound => rfl
            | continue_ =>
              simp only [Out.onS]
              refine ite_conv (Flow.onS U.state) Iff.rfl (fun _ => ?_) (fun _ => rfl)
              exact U.gs_clock (({ s2 with r.irfnd := false } : State ν n q K).setTret s2.e.tn) (Flow.onS U.state) s2.e.tn rfl
                (fun s => rfl)

include H in
theorem laterCall_clock (rf : Nat) (tout : K) (task : Task) :
    laterCall cfg' rf (U.state s) (U.f tout) task = (laterCall cfg rf s tout task).onS U.state := by
  unfold laterCall
  have e : (if q > 0 then rootChecks (U.conf cfg P' S') rf (U.state s) task else Flow.go (U.state s)) =
      (if q > 0 then rootChecks cfg rf s task else Flow.go s).onS U.state :=
    ite_conv (Flow.onS U.state) Iff.rfl (fun _ => U.rootChecks_clock cfg H s rf task) (fun _ => rfl)
  rw [e]
  cases (if q > 0 then rootChecks cfg rf s task else Flow.go s) with
  | go s =>
    simp only [Flow.onS]
    rw [U.stopTest1_clock]
    exact Flow.ofStop_onS _ _
  | ret s r => rfl
  | panic => rfl
  | diverge => rfl

theorem preEnd_clock : preEnd cfg' (U.state s) = (preEnd cfg s).onS U.state := by
  unfold preEnd
  simp only [show wrmsNorm (U.conf cfg P' S').id ((U.state s).h.phi 0) (U.state s).e.ewt (U.conf cfg P' S').suppressalg =
    wrmsNorm cfg.id (s.h.phi 0) s.e.ewt cfg.suppressalg from rfl]
  refine ite_conv (Flow.onS U.state) Iff.rfl (fun _ => ?_) (fun _ => ?_)
  · exact U.gs_clock s (Flow.onS U.state) s.e.tn rfl (fun s => rfl)
  · refine ite_conv (Flow.onS U.state) Iff.rfl (fun _ => ?_) (fun _ => rfl)
    have e3 : ∀ s : State ν n q K, (if (U.state s).cnt.nst > 0 then getSolution' (U.state s) (U.state s).e.tn else some (U.state s)) =
        (if s.cnt.nst > 0 then getSolution' s s.e.tn else some s).map U.state := fun s =>
      ite_conv (Option.map U.state) Iff.rfl (fun _ => U.getSolution'_clock s s.e.tn) (fun _ => rfl)
    have e4 := e3 (State.setTret { s with tolsf := Scalar.eps * wrmsNorm cfg.id (s.h.phi 0) s.e.ewt cfg.suppressalg * Scalar.ten } s.e.tn)
    refine Eq.trans (congrArg (fun o => match o with
      | none => Flow.panic
      | some s => Flow.ret s (.error (.ida .tooMuchAccuracy))) e4) ?_
    generalize (if (State.setTret { s with tolsf := Scalar.eps * wrmsNorm cfg.id (s.h.phi 0) s.e.ewt cfg.suppressalg * Scalar.ten } s.e.tn).cnt.nst > 0
      then getSolution' (State.setTret { s with tolsf := Scalar.eps * wrmsNorm cfg.id (s.h.phi 0) s.e.ewt cfg.suppressalg * Scalar.ten } s.e.tn)
        (State.setTret { s with tolsf := Scalar.eps * wrmsNorm cfg.id (s.h.phi 0) s.e.ewt cfg.suppressalg * Scalar.ten } s.e.tn).e.tn
      else some (State.setTret { s with tolsf := Scalar.eps * wrmsNorm cfg.id (s.h.phi 0) s.e.ewt cfg.suppressalg * Scalar.ten } s.e.tn)) = o
    cases o <;> rfl

theorem preStep_clock (k : Nat) : preStep cfg' (U.state s) k = (preStep cfg s k).onS U.state := by
  unfold preStep
  refine ite_conv (Flow.onS U.state) Iff.rfl (fun _ => rfl) (fun _ => ?_)
  rw [U.perfCheck_clock]
  cases perfCheck s with
  | none => rfl
  | some s =>
    simp only [Option.map_some]
    have e : (if (U.state s).cnt.nst > 0 then { U.state s with
          e := { (U.state s).e with ewt := (U.conf cfg P' S').ewtSet ((U.state s).h.phi 0) (U.state s).e.ewt } } else U.state s) =
        U.state (if s.cnt.nst > 0 then { s with e := { s.e with ewt := cfg.ewtSet (s.h.phi 0) s.e.ewt } } else s) :=
      ite_conv U.state Iff.rfl (fun _ => rfl) (fun _ => rfl)
    exact (congrArg (preEnd (U.conf cfg P' S')) e).trans (U.preEnd_clock cfg _)

theorem stepFailed_clock (e : Err) : stepFailed (U.state s) e = (stepFailed s e).onS U.state := by
  unfold stepFailed
  rw [show (U.state s).e.tn = U.f s.e.tn from rfl, U.getSolution_clock]
  cases getSolution s s.e.tn with
  | panic => rfl
  | diverge => rfl
  | ret s r => cases r <;> rfl

include H in
theorem postStep_clock (rf : Nat) (tout : K) (task : Task) :
    postStep cfg' rf (U.state s) (U.f tout) task = (postStep cfg rf s tout task).onS U.state := by
  unfold postStep
  refine ite_conv (Flow.onS U.state) Iff.rfl (fun _ => ?_) (fun _ => ?_)
  · rw [U.rCheck3_clock cfg H]
    cases rCheck3 cfg rf s with
    | panic => rfl
    | diverge => rfl
    | ret s r =>
      cases r with
      | error e => rfl
      | ok st =>
        cases st with
        | rootFound => rfl
        | continue_ =>
          simp only [Out.onS]
          rw [U.stopTest2_clock]
          exact Flow.ofStop_onS _ _
  · rw [U.stopTest2_clock]
    exact Flow.ofStop_onS _ _

/-- `L` holds between the calls and `J` before each pass of the driver, and then all steps are safe. -/
structure Steady (L J : State ν n q K → Prop) : Prop where
  pre : ∀ s k s', J s → preStep cfg s k = .go s' → U.Safe cfg s'
  pass : ∀ rf s tout task k s', J s → solvePass cfg rf s tout task k = .go s' → J s'
  later : ∀ rf s tout task s', L s → s.cnt.nst ≠ 0 → laterCall cfg rf (perfReset s) tout task = .go s' → J s'
  first : ∀ s tout s', L s → s.cnt.nst = 0 → firstCall cfg s tout = .ret s' (.ok ()) → J (perfReset s')
  head : ∀ s tout task, L s → L (solveHead s tout task)
  tret : ∀ s tret, L s → L { s with tret := tret }
  exec : ∀ rf sf s o s' r, L s → exec cfg rf sf s o = some (s', r) → L s'

theorem steady_free : U.Steady cfg (fun s => s.tstop = none) fun s => s.tstop = none where
  pre s k s' hT h := U.safe_free cfg s' (preStep_free hT h)
  pass rf s tout task k s' hT h := solvePass_free hT h
  later rf s tout task s' hT hn h :=
    micros_free (show (perfReset s).tstop = none from hT) ((laterCall_ok (s := perfReset s) (Nat.pos_of_ne_zero hn)).go s' h).1
  first s tout s' hT hn h := (firstCall_quiet h).tstop.trans hT
  head s tout task hT := by cases task <;> exact hT
  tret s tret hT := hT
  exec rf sf s o s' r hT h := exec_free hT h

variable {L J : State ν n q K → Prop} (hS : U.Steady cfg L J)

include H hS in
theorem solvePass_clock (hT : J s) (rf : Nat) (tout : K) (task : Task) (k : Nat) :
    solvePass cfg' rf (U.state s) (U.f tout) task k = (solvePass cfg rf s tout task k).onS U.state := by
  unfold solvePass
  rw [U.preStep_clock]
  cases hpre : preStep cfg s k with
  | ret s r => rfl
  | panic => rfl
  | diverge => rfl
  | go s =>
    simp only [Flow.onS]
    rw [U.step_clock cfg H _ (hS.pre _ _ _ hT hpre)]
    cases step cfg s with
    | panic => rfl
    | diverge => rfl
    | ret s r =>
      cases r with
      | error e => exact U.stepFailed_clock s e
      | ok u => exact U.postStep_clock cfg H s rf tout task

include H hS in
theorem solveLoop_clock (rf : Nat) (tout : K) (task : Task) (sf : Nat) : ∀ (s : State ν n q K) (hT : J s) (k : Nat),
    solveLoop cfg' rf (U.f tout) task sf (U.state s) k = (solveLoop cfg rf tout task sf s k).onS U.state := by
  induction sf with
  | zero => intro s hT k; rfl
  | succ sf ih =>
    intro s hT k
    unfold solveLoop
    rw [U.solvePass_clock cfg H s hS hT]
    cases hp : solvePass cfg rf s tout task k with
    | go s1 => exact ih s1 (hS.pass _ _ _ _ _ _ hT hp) (k + 1)
    | ret s r => rfl
    | panic => rfl
    | diverge => rfl

include H hS in
/-- A call of `solve` after steps have been taken. -/
theorem solve_clock (hn : s.cnt.nst ≠ 0) (hT : L s) (rf sf : Nat) (tout : K) (task : Task) :
    solve cfg' rf sf (U.state s) (U.f tout) task = (solve cfg rf sf s tout task).onS U.state := by
  rw [solve_core, solve_core, show solveHead (U.state s) (U.f tout) task = U.state (solveHead s tout task) by cases task <;> rfl]
  have hn' : (solveHead s tout task).cnt.nst ≠ 0 := by cases task <;> exact hn
  have hT' := hS.head s tout task hT
  generalize solveHead s tout task = s at hn' hT'
  unfold solveCore
  rw [if_neg hn', if_neg (show ¬ (U.state s).cnt.nst = 0 from hn')]
  simp only [Out.bind]
  rw [if_pos (show (perfReset s).cnt.nst > 0 from Nat.pos_of_ne_zero hn'),
    if_pos (show (perfReset (U.state s)).cnt.nst > 0 from Nat.pos_of_ne_zero hn'),
    show laterCall (U.conf cfg P' S') rf (perfReset (U.state s)) (U.f tout) task = _ from U.laterCall_clock cfg H (perfReset s) rf tout task]
  cases hl : laterCall cfg rf (perfReset s) tout task with
  | go s1 =>
    exact U.solveLoop_clock cfg H hS rf tout task sf s1 (hS.later _ _ _ _ _ hT' hn' hl) 0
  | ret s r => rfl
  | panic => rfl
  | diverge => rfl

include H hS in
/-- A call of `solve` before the first step. -/
theorem solve_first_clock (hR : Scalar.eqb cfg.hin 0 = true → U.Roots) (hn : s.cnt.nst = 0) (hT : L s) (rf sf : Nat) (tout : K) (task : Task) :
    (∃ s1, solve cfg rf sf s tout task = .ret s1 (.error (.ida .illegalInput)) ∧ s1.cnt.nst = 0 ∧
      solve cfg' rf sf (U.fresh s) (U.f tout) task = .ret (U.fresh s1) (.error (.ida .illegalInput))) ∨
    (solve cfg' rf sf (U.fresh s) (U.f tout) task = (solve cfg rf sf s tout task).onS U.state ∧
      ∀ s1, solve cfg rf sf s tout task = .ret s1 (.error (.ida .illegalInput)) → s1.cnt.nst ≠ 0) := by
  rw [solve_core, solve_core, show solveHead (U.fresh s) (U.f tout) task = U.fresh (solveHead s tout task) by cases task <;> rfl]
  have hn' : (solveHead s tout task).cnt.nst = 0 := by cases task <;> exact hn
  have hT' := hS.head s tout task hT
  generalize solveHead s tout task = s at hn' hT'
  unfold solveCore
  rw [if_pos hn', if_pos (show (U.fresh s).cnt.nst = 0 from hn'), U.firstCall_clock cfg H s hR]
  have hc : ∀ s1 r, firstCall cfg s tout = .ret s1 r → s1.cnt.nst = 0 := by
    intro s1 r h
    have hi : (initialSetup cfg s).cnt = s.cnt := by unfold initialSetup; split <;> rfl
    rcases firstCall_cases h with ⟨-, rfl, -⟩ | ⟨-, rfl, -⟩ | ⟨h0, rfl, -, -, ⟨-, rfl, -⟩ | ⟨s2, h2, rfl, -⟩⟩
    · rw [hi]; exact hn'
    · show (initialSetup cfg s).cnt.nst = 0
      rw [hi]; exact hn'
    · show (initialSetup cfg s).cnt.nst = 0
      rw [hi]; exact hn'
    · have e1 : s2.cnt = s.cnt := by
        unfold firstStop at h2
        split at h2
        · split at h2
          · cases h2
          · cases h2
            rw [clamp_eq]
            exact hi
        · cases h2
          exact hi
      have e2 : (firstReady cfg s2).cnt = s2.cnt := by
        unfold firstReady rCheck1 callRoot
        simp only
        split
        · split <;> rfl
        · rfl
      rw [e2, e1]
      exact hn'
  cases hf : firstCall cfg s tout with
  | panic => exact .inr ⟨rfl, fun s1 h => by cases h⟩
  | diverge => exact .inr ⟨rfl, fun s1 h => by cases h⟩
  | ret s1 r =>
    have hs := hc _ _ hf
    cases r with
    | error e =>
      have := firstCall_error hf
      subst this
      exact .inl ⟨s1, rfl, hs, rfl⟩
    | ok u =>
      refine .inr ?_
      simp only [firstOut, Out.bind]
      rw [if_neg (show ¬ (perfReset s1).cnt.nst > 0 from by rw [show (perfReset s1).cnt.nst = s1.cnt.nst from rfl]; omega),
        if_neg (show ¬ (perfReset (U.state s1)).cnt.nst > 0 from by rw [show (perfReset (U.state s1)).cnt.nst = s1.cnt.nst from rfl]; omega)]
      refine ⟨U.solveLoop_clock cfg H hS rf tout task sf (perfReset s1) (hS.first _ _ _ hT' hn' hf) 0, ?_⟩
      intro s2 h2
      have := firstLoop_illegal (s := perfReset s1) hs h2
      omega

/-! ## Derivatives -/

/-- `x`, converted `k` times. -/
def sg : Nat → K → K
  | 0, x => x
  | k + 1, x => U.g (sg k x)

theorem sg_zero (k : Nat) : U.sg k (0 : K) = 0 := by
  induction k with
  | zero => rfl
  | succ k ih => exact (congrArg U.g ih).trans U.gzero

theorem sg_mul (k : Nat) (x y : K) : U.sg k x * y = U.sg k (x * y) := by
  induction k with
  | zero => rfl
  | succ k ih => show U.g (U.sg k x) * y = U.g (U.sg k (x * y)); rw [U.gmul, ih]

theorem sg_mul' (k : Nat) (x y : K) : x * U.sg k y = U.sg k (x * y) := by
  induction k with
  | zero => rfl
  | succ k ih => show x * U.g (U.sg k y) = U.g (U.sg k (x * y)); rw [U.gmul', ih]

theorem sg_div (k : Nat) (x y : K) : U.sg k x / y = U.sg k (x / y) := by
  induction k with
  | zero => rfl
  | succ k ih => show U.g (U.sg k x) / y = U.g (U.sg k (x / y)); rw [U.gdiv, ih]

theorem sg_add (k : Nat) (x y : K) : U.sg k x + U.sg k y = U.sg k (x + y) := by
  induction k with
  | zero => rfl
  | succ k ih => show U.g (U.sg k x) + U.g (U.sg k y) = U.g (U.sg k (x + y)); rw [U.gadd, ih]

theorem sg_alt (k : Nat) (v : Vec n K) (i : Fin n) : U.diff k v i = U.sg k (v i) := by
  induction k with
  | zero => rfl
  | succ k ih => exact congrArg U.g ih

theorem dkyIter_clock (psi : Nat → K) (delt : K) (i : Nat) (a b : DkyCoef K)
    (h1 : ∀ j, j ≤ i → b.cjk j = U.sg (min j i) (a.cjk j)) (h2 : ∀ j, b.cjk1 j = U.sg (min (j - 1) (i - 1)) (a.cjk1 j))
    (h0 : i = 0 → ∀ j, a.cjk1 j = 0) (h3 : b.psij1 = U.f a.psij1) (m : Nat) :
    (∀ j, j ≤ i + m → (forUp m (dkyIter (fun j => U.f (psi j)) (U.f delt) i) b).cjk j =
      U.sg (min j i) ((forUp m (dkyIter psi delt i) a).cjk j)) ∧
    (∀ j, i + m < j → (forUp m (dkyIter (fun j => U.f (psi j)) (U.f delt) i) b).cjk j = b.cjk j ∧
      (forUp m (dkyIter psi delt i) a).cjk j = a.cjk j) ∧
    (forUp m (dkyIter (fun j => U.f (psi j)) (U.f delt) i) b).cjk1 = b.cjk1 ∧ (forUp m (dkyIter psi delt i) a).cjk1 = a.cjk1 ∧
    (forUp m (dkyIter (fun j => U.f (psi j)) (U.f delt) i) b).psij1 = U.f (forUp m (dkyIter psi delt i) a).psij1 := by
  induction m with
  | zero => exact ⟨by simpa using h1, by simp, rfl, rfl, h3⟩
  | succ m ih =>
    obtain ⟨k1, k2, k3, k4, k5⟩ := ih
    rw [forUp_succ, forUp_succ]
    generalize forUp m (dkyIter (fun j => U.f (psi j)) (U.f delt) i) b = b' at k1 k2 k3 k5 ⊢
    generalize forUp m (dkyIter psi delt i) a = a' at k1 k2 k4 k5 ⊢
    refine ⟨?_, ?_, k3, k4, rfl⟩
    · intro j hj
      unfold dkyIter
      dsimp only
      by_cases hji : j = i + 1 + m
      · subst hji
        rw [upd_same, upd_same, k3, k4, h2, k5, k1 _ (by omega)]
        have e1 : min (i + 1 + m - 1) i = i := by omega
        have e2 : min (i + 1 + m) i = i := by omega
        rw [e1, e2, U.add, U.div', U.mul']
        by_cases hi : i = 0
        · subst hi
          rw [h0 rfl, U.sg_zero]
          have e3 : Scalar.ofNat 0 * (0 : K) = U.f (Scalar.ofNat 0 * 0) := by
            rw [← U.mul', U.zero]
          show U.g ((Scalar.ofNat 0 * (0 : K) + U.f (a'.cjk _ * (delt + a'.psij1))) / _) = (Scalar.ofNat 0 * (0 : K) + a'.cjk _ * (delt + a'.psij1)) / _
          conv_lhs => rw [e3]
          rw [U.add, U.div, U.gf]
        · have e3 : min (i + 1 + m - 1 - 1) (i - 1) = i - 1 := by omega
          rw [e3]
          obtain ⟨i', rfl⟩ : ∃ i', i = i' + 1 := ⟨i - 1, by omega⟩
          simp only [Nat.add_sub_cancel]
          show U.g ((Scalar.ofNat (i' + 1) * U.sg i' (a.cjk1 _) + U.f (U.g (U.sg i' (a'.cjk _)) * (delt + a'.psij1))) / _) = U.g (U.sg i' _)
          rw [U.gmul, U.fg, U.sg_mul, U.sg_mul', U.sg_add, U.sg_div]
      · rw [upd_ne _ _ hji, upd_ne _ _ hji]
        exact k1 j (by omega)
    · intro j hj
      unfold dkyIter
      dsimp only
      rw [upd_ne _ _ (by omega), upd_ne _ _ (by omega)]
      exact k2 j (by omega)

/-- The conversions after `i` passes of the outer loop. -/
structure Dky (hi i : Nat) (a b : DkyCoef K) : Prop where
  cjk : ∀ j, b.cjk j = U.sg (min j (i - 1)) (a.cjk j)
  cjk1 : ∀ j, b.cjk1 j = U.sg (min (j - 1) (i - 1)) (a.cjk1 j)
  psij1 : b.psij1 = U.f a.psij1
  zero : ∀ j, hi ≤ j → i ≤ j → a.cjk j = 0
  zero1 : ∀ j, hi ≤ j → a.cjk1 j = 0
  zero0 : i = 0 → ∀ j, a.cjk1 j = 0

theorem dkyPass_clock (psi : Nat → K) (delt : K) (hi i : Nat) (a b : DkyCoef K) (h : U.Dky hi i a b) :
    U.Dky hi (i + 1) (dkyPass psi delt hi i a) (dkyPass (fun j => U.f (psi j)) (U.f delt) hi i b) := by
  rw [dkyPass_eq, dkyPass_eq]
  have key : ∀ a1 b1 : DkyCoef K, a1 = (if i = 0 then { a with cjk := upd a.cjk 0 1 }
      else { a with cjk := upd a.cjk i (a.cjk (i - 1) * Scalar.ofNat i / psi (i - 1)), psij1 := psi (i - 1) }) →
      b1 = (if i = 0 then { b with cjk := upd b.cjk 0 1 }
      else { b with cjk := upd b.cjk i (b.cjk (i - 1) * Scalar.ofNat i / U.f (psi (i - 1))), psij1 := U.f (psi (i - 1)) }) →
      (∀ j, j ≤ i → b1.cjk j = U.sg (min j i) (a1.cjk j)) ∧ (∀ j, i < j → b1.cjk j = b.cjk j ∧ a1.cjk j = a.cjk j) ∧
      b1.cjk1 = b.cjk1 ∧ a1.cjk1 = a.cjk1 ∧ b1.psij1 = U.f a1.psij1 := by
    rintro a1 b1 rfl rfl
    by_cases hi0 : i = 0
    · subst hi0
      simp only [if_true]
      refine ⟨?_, ?_, trivial, trivial, h.psij1⟩
      · intro j hj
        obtain rfl : j = 0 := by omega
        rfl
      · intro j hj
        rw [upd_ne _ _ (by omega), upd_ne _ _ (by omega)]; exact ⟨rfl, rfl⟩
    · simp only [if_neg hi0]
      refine ⟨?_, ?_, trivial, trivial, trivial⟩
      · intro j hj
        by_cases hji : j = i
        · subst hji
          rw [upd_same, upd_same, h.cjk, Nat.min_self, Nat.min_self]
          obtain ⟨i', rfl⟩ : ∃ i', j = i' + 1 := ⟨j - 1, by omega⟩
          simp only [Nat.add_sub_cancel]
          rw [U.div', U.sg_mul, U.sg_div]
          rfl
        · rw [upd_ne _ _ hji, upd_ne _ _ hji, h.cjk]
          congr 1; omega
      · intro j hj
        rw [upd_ne _ _ (by omega), upd_ne _ _ (by omega)]; exact ⟨rfl, rfl⟩
  obtain ⟨k1, k2, k3, k4, k5⟩ := key _ _ rfl rfl
  generalize (if i = 0 then { a with cjk := upd a.cjk 0 1 }
      else { a with cjk := upd a.cjk i (a.cjk (i - 1) * Scalar.ofNat i / psi (i - 1)), psij1 := psi (i - 1) }) = a1 at k1 k2 k3 k4 k5 ⊢
  generalize (if i = 0 then { b with cjk := upd b.cjk 0 1 }
      else { b with cjk := upd b.cjk i (b.cjk (i - 1) * Scalar.ofNat i / U.f (psi (i - 1))), psij1 := U.f (psi (i - 1)) }) = b1 at k1 k2 k3 k4 k5 ⊢
  obtain ⟨m1, m2, m3, m4, m5⟩ := U.dkyIter_clock psi delt i a1 b1 k1 (by rw [k3, k4]; exact h.cjk1) (by rw [k4]; exact h.zero0) k5 (hi - (i + 1))
  generalize forUp (hi - (i + 1)) (dkyIter (fun j => U.f (psi j)) (U.f delt) i) b1 = b2 at m1 m2 m3 m5 ⊢
  generalize forUp (hi - (i + 1)) (dkyIter psi delt i) a1 = a2 at m1 m2 m4 m5 ⊢
  have hzero : ∀ j, hi ≤ j → i + 1 ≤ j → a2.cjk j = 0 := by
    intro j h1 h2
    rw [(m2 j (by omega)).2, (k2 j (by omega)).2]
    exact h.zero j h1 (by omega)
  refine ⟨?_, ?_, m5, hzero, ?_, fun h => absurd h (by omega)⟩
  · intro j
    rw [Nat.add_sub_cancel]
    by_cases hj : j ≤ i + (hi - (i + 1))
    · exact m1 j hj
    · have e1 := hzero j (by omega) (by omega)
      have e2 : a.cjk j = 0 := h.zero j (by omega) (by omega)
      dsimp only
      rw [e1, (m2 j (by omega)).1, (k2 j (by omega)).1, h.cjk, e2, U.sg_zero, U.sg_zero]
  · intro j
    dsimp only
    rw [copy_apply, copy_apply, Nat.add_sub_cancel]
    by_cases hj : i + 1 ≤ j ∧ j < i + 1 + (hi - (i + 1))
    · rw [if_pos hj, if_pos hj, m1 j (by omega)]
      congr 1; omega
    · rw [if_neg hj, if_neg hj, m3, m4, k3, k4, h.cjk1]
      by_cases hj2 : hi ≤ j
      · rw [h.zero1 j hj2, U.sg_zero, U.sg_zero]
      · congr 1; omega
  · intro j hj
    dsimp only
    rw [copy_apply, if_neg (by omega), m4, k4]
    exact h.zero1 j hj

theorem dkyCoefs_clock (psi : Nat → K) (delt : K) (kused k j : Nat) (hj : k ≤ j) :
    (dkyCoefs (fun j => U.f (psi j)) (U.f delt) kused k).cjk j = U.sg k ((dkyCoefs psi delt kused k).cjk j) := by
  have : ∀ m, U.Dky (kused - k + 1 + 1) m (forUp m (fun i l => dkyPass psi delt (kused - k + 1 + 1) i l)
      { cjk := fun _ => 0, cjk1 := fun _ => 0, psij1 := 0 }) (forUp m (fun i l => dkyPass (fun j => U.f (psi j)) (U.f delt) (kused - k + 1 + 1) i l)
      { cjk := fun _ => 0, cjk1 := fun _ => 0, psij1 := 0 }) := by
    intro m
    induction m with
    | zero => exact ⟨fun j => (U.sg_zero _).symm, fun j => (U.sg_zero _).symm, U.zero.symm, fun _ _ _ => rfl, fun _ _ => rfl, fun _ _ => rfl⟩
    | succ m ih =>
      rw [forUp_succ, forUp_succ]
      exact U.dkyPass_clock _ _ _ _ _ _ ih
  have h := (this (k + 1)).cjk j
  rw [Nat.add_sub_cancel, Nat.min_eq_right hj] at h
  exact h

/-- The outcome of `get_dky`. -/
def dkyOut (k : Nat) : Out (State ν n q K) (Vec n K) → Out (State ν n q K) (Vec n K)
  | .ret s r => .ret (U.state s) (r.map (U.diff k))
  | .panic => .panic
  | .diverge => .diverge

theorem getDky_clock (t : K) (k : Nat) : getDky (U.state s) (U.f t) k = U.dkyOut k (getDky s t k) := by
  unfold getDky
  rw [U.badTime_clock]
  refine ite_conv (U.dkyOut k) Iff.rfl (fun _ => rfl) (fun _ => ?_)
  refine ite_conv (U.dkyOut k) Iff.rfl (fun _ => rfl) (fun _ => ?_)
  refine ite_conv (U.dkyOut k) Iff.rfl (fun _ => ?_) (fun _ => rfl)
  rw [show U.f t - (U.state s).e.tn = U.f (t - s.e.tn) from U.sub _ _]
  have e := forUp_conv
    (f := fun j0 (y : Vec n K) => fun i => y i + s.h.phi (k + j0) i * (dkyCoefs s.h.psi (t - s.e.tn) s.c.kused k).cjk (k + j0))
    (f' := fun j0 (y : Vec n K) => fun i => y i + s.h.phi (k + j0) i *
      (dkyCoefs (fun j => U.f (s.h.psi j)) (U.f (t - s.e.tn)) s.c.kused k).cjk (k + j0))
    (fun _ => U.diff k) (s.c.kused - k + 1) (fun j y _ => by
      funext i
      rw [U.dkyCoefs_clock _ _ _ _ _ (by omega), U.sg_alt, U.sg_alt, U.sg_mul', U.sg_add]) vzero
  rw [show U.diff k (vzero : Vec n K) = vzero from by funext i; rw [U.sg_alt]; exact U.sg_zero k] at e
  exact congrArg (fun v => Out.ret (U.state s) (Except.ok v)) e

/-! ## Public calls -/

include H hS in
/-- Any call after steps have been taken. -/
theorem exec_clock (hn : s.cnt.nst ≠ 0) (hT : L s) (rf sf : Nat) (o : Op K) :
    exec cfg' rf sf (U.state s) (U.op o) = (exec cfg rf sf s o).map fun p => (U.state p.1, U.res o p.2) := by
  cases o with
  | solve tout tret task =>
    show (match solve (U.conf cfg P' S') rf sf (U.state { s with tret := tret }) (U.f tout) task with
      | .ret s r => some (s, Res.solved r)
      | _ => none) = Option.map (fun p => (U.state p.1, U.res (.solve tout tret task) p.2)) (match solve cfg rf sf { s with tret := tret } tout task with
      | .ret s r => some (s, Res.solved r)
      | _ => none)
    rw [U.solve_clock cfg H { s with tret := tret } hS hn (hS.tret s tret hT)]
    cases solve cfg rf sf { s with tret := tret } tout task <;> rfl
  | getSolution t =>
    unfold exec op
    simp only
    rw [U.getSolution_clock]
    cases getSolution s t <;> rfl
  | getDky t k =>
    unfold exec op
    simp only
    rw [U.getDky_clock]
    cases getDky s t k <;> rfl

include H hS in
/-- A call of `solve` before the first step. -/
theorem exec_first_clock (hR : Scalar.eqb cfg.hin 0 = true → U.Roots) (hn : s.cnt.nst = 0) (hT : L s) (rf sf : Nat) (tout tret : K) (task : Task) :
    (exec cfg rf sf s (.solve tout tret task) = none ∧ exec cfg' rf sf (U.fresh s) (U.op (.solve tout tret task)) = none) ∨
    ∃ s1 s1' r, exec cfg rf sf s (.solve tout tret task) = some (s1, r) ∧
      exec cfg' rf sf (U.fresh s) (U.op (.solve tout tret task)) = some (s1', U.res (.solve tout tret task) r) ∧
      (s1' = U.state s1 ∨ s1' = U.fresh s1) ∧
      (s1.cnt.nst ≠ 0 → s1' = U.state s1) ∧ (s1.cnt.nst = 0 → r = .solved (.error (.ida .illegalInput)) → s1' = U.fresh s1) := by
  have e1 : exec (U.conf cfg P' S') rf sf (U.fresh s) (U.op (.solve tout tret task)) =
    match solve (U.conf cfg P' S') rf sf (U.fresh { s with tret := tret }) (U.f tout) task with
      | .ret s r => some (s, Res.solved r)
      | _ => none := rfl
  have e2 : exec cfg rf sf s (.solve tout tret task) = match solve cfg rf sf { s with tret := tret } tout task with
      | .ret s r => some (s, Res.solved r)
      | _ => none := rfl
  rw [e1, e2]
  rcases U.solve_first_clock cfg H { s with tret := tret } hS hR hn (hS.tret s tret hT) rf sf tout task with ⟨s1, h1, h2, h3⟩ | ⟨h1, h2⟩
  · rw [h1, h3]
    exact .inr ⟨s1, U.fresh s1, _, rfl, rfl, .inr rfl, fun h => absurd h2 h, fun _ _ => rfl⟩
  · rw [h1]
    cases hs : solve cfg rf sf { s with tret := tret } tout task with
    | panic => exact .inl ⟨rfl, rfl⟩
    | diverge => exact .inl ⟨rfl, rfl⟩
    | ret s1 r =>
      refine .inr ⟨s1, U.state s1, _, rfl, rfl, .inl rfl, fun _ => rfl, fun h0 hr => ?_⟩
      cases hr
      exact absurd h0 (h2 s1 hs)

end

/-! ## The standard solver stack -/

theorem new_clock (N : ν) (yy0 yp0 : Vec n K) (T : Option K) :
    ({ State.new N yy0 (U.rate yp0) with tstop := T.map fun T => U.f T } : State ν n q K) =
      U.fresh { State.new N yy0 yp0 with tstop := T } := by
  have e1 : (fun j => if j = 0 then yy0 else if j = 1 then U.rate yp0 else vzero) =
      fun j => if j = 1 then U.rate (if (1 : Nat) = 0 then yy0 else if (1 : Nat) = 1 then yp0 else vzero)
        else if j = 0 then yy0 else if j = 1 then yp0 else vzero := by
    funext j
    by_cases h1 : j = 1
    · subst h1; rfl
    · by_cases h0 : j = 0
      · subst h0; rfl
      · simp only [if_neg h1, if_neg h0]
  unfold State.new fresh state hist ctl env mem rootSt ghost
  simp only [e1, U.zero, U.gzero, U.rate_zero]
  rfl

theorem fits_newton {P P' : Problem n q K} (hP : U.Same P P') (T : TolControl n K) (fuel : Nat) :
    U.Fits (Cfg.newton P T fuel) P' (newtonNls P' fuel) where
  root := hP.root
  nls := U.newton_clock hP fuel

end Spec.Clock

end Verif
