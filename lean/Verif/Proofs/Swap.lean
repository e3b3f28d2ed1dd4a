import Verif.Model.Ls
import Verif.Model.Io

/-!
# Exchanging the solver inside the integrator (any scalar type)

Everything outside the nonlinear solve commutes with replacing the solver object, the stored Jacobian and the pivots.
-/

set_option autoImplicit false
set_option linter.unusedSectionVars false
set_option linter.unusedSimpArgs false
set_option linter.unusedVariables false

namespace Verif

universe u v w

section
variable {ν : Type v} {ν' : Type w} {n q : Nat} {K : Type u} [Scalar K]

/-- The parts of the state that only the nonlinear solver reads. -/
structure Gear (ν : Type v) (n : Nat) (K : Type u) where
  nls : ν
  matJ : Mat K
  piv : Nat → Nat
  x : Vec n K

def Mem.gear (m : Mem n K) (N : ν) : Gear ν n K := ⟨N, m.matJ, m.piv, m.x⟩

def Mem.swap (m : Mem n K) (k : Gear ν' n K) : Mem n K := { m with matJ := k.matJ, piv := k.piv, x := k.x }

def State.gear (s : State ν n q K) : Gear ν n K := s.m.gear s.nls

/-- The state with another solver and other counters. -/
def State.swap (s : State ν n q K) (k : Gear ν' n K) (c : Counters) : State ν' n q K where
  setupDone := s.setupDone
  h := s.h
  c := s.c
  e := s.e
  m := s.m.swap k
  delta := s.delta
  ee := s.ee
  cnt := c
  r := s.r
  perf := s.perf
  nls := k.nls
  tstop := s.tstop
  h0u := s.h0u
  tretlast := s.tretlast
  epsNewt := s.epsNewt
  tolsf := s.tolsf
  tret := s.tret
  g := s.g

/-- The state with another solver. -/
def State.fit (s : State ν n q K) (k : Gear ν' n K) : State ν' n q K := s.swap k s.cnt

/-- The configuration with another solver. -/
def Cfg.withNls (cfg : Cfg ν n q K) (nls' : NlSolver ν' n K) : Cfg ν' n q K where
  prob := cfg.prob
  ewtSet := cfg.ewtSet
  nls := nls'
  maxord := cfg.maxord
  mxstep := cfg.mxstep
  maxnef := cfg.maxnef
  maxncf := cfg.maxncf
  hmaxInv := cfg.hmaxInv
  hin := cfg.hin
  epcon := cfg.epcon
  suppressalg := cfg.suppressalg
  constraintsSet := cfg.constraintsSet
  id := cfg.id
  rootdir := cfg.rootdir

theorem swap_self (s : State ν n q K) : s.swap s.gear s.cnt = s := rfl
theorem fit_self (s : State ν n q K) : s.fit s.gear = s := rfl

/-- Apply a function to the state of an outcome. -/
def Out.mapS {S : Type u} {S' : Type v} {α : Type w} (f : S → S') : Out S α → Out S' α
  | .ret s r => .ret (f s) r
  | .panic => .panic
  | .diverge => .diverge

def Flow.mapS {S : Type u} {S' : Type v} (f : S → S') : Flow S → Flow S'
  | .go s => .go (f s)
  | .ret s r => .ret (f s) r
  | .panic => .panic
  | .diverge => .diverge

theorem Out.mapS_bind {S : Type u} {S' : Type v} {α β : Type w} (f : S → S') (o : Out S α) (g : S → α → Out S β)
    (g' : S' → α → Out S' β) (h : ∀ s a, g' (f s) a = (g s a).mapS f) : (o.mapS f).bind g' = (o.bind g).mapS f := by
  cases o with
  | ret s r => cases r with
    | error e => rfl
    | ok a => exact h s a
  | panic => rfl
  | diverge => rfl

/-! ## Interpolation -/

section
variable (k : Gear ν' n K) (c : Counters)

theorem getSolution_swap (s : State ν n q K) (t : K) : getSolution (s.swap k c) t = (getSolution s t).mapS (·.swap k c) := by
  unfold getSolution
  have hb : badTime (s.swap k c) t = badTime s t := rfl
  rw [hb]
  by_cases h1 : badTime s t = true
  · rw [if_pos h1, if_pos h1]; rfl
  · rw [if_neg h1, if_neg h1]
    by_cases h2 : kordOf s.c.kused < mxordp1
    · simp only [if_pos h2, if_pos (show kordOf (s.swap k c).c.kused < mxordp1 from h2)]; rfl
    · simp only [if_neg h2, if_neg (show ¬ kordOf (s.swap k c).c.kused < mxordp1 from h2)]; rfl

theorem getSolution'_swap (s : State ν n q K) (t : K) : getSolution' (s.swap k c) t = (getSolution' s t).map (·.swap k c) := by
  unfold getSolution'
  rw [getSolution_swap]
  cases getSolution s t <;> rfl

theorem getDky_swap (s : State ν n q K) (t : K) (j : Nat) : getDky (s.swap k c) t j = (getDky s t j).mapS (·.swap k c) := by
  unfold getDky
  have hb : badTime (s.swap k c) t = badTime s t := rfl
  have hc : (s.swap k c).c = s.c := rfl
  have hh : (s.swap k c).h = s.h := rfl
  have he : (s.swap k c).e = s.e := rfl
  rw [hb, hc, hh, he]
  by_cases h0 : s.c.kused < j
  · rw [if_pos h0, if_pos h0]; rfl
  · rw [if_neg h0, if_neg h0]
    by_cases h1 : badTime s t = true
    · rw [if_pos h1, if_pos h1]; rfl
    · rw [if_neg h1, if_neg h1]
      by_cases h2 : s.c.kused - j + 1 < mxordp1 ∧ s.c.kused < mxordp1
      · rw [if_pos h2, if_pos h2]; rfl
      · rw [if_neg h2, if_neg h2]; rfl

/-! ## Roots -/

variable (cfg : Cfg ν n q K) (nls' : NlSolver ν' n K)

theorem rCheck1_swap (s : State ν n q K) : rCheck1 (cfg.withNls nls') (s.swap k c) = (rCheck1 cfg s).swap k c := by
  rw [show rCheck1 cfg s = ite _ _ _ from rfl, apply_ite (fun s : State ν n q K => s.swap k c)]
  rfl

theorem mapS_ite {S : Type u} {S' : Type v} {α : Type w} (f : S → S') (p : Prop) [Decidable p] (a b : Out S α) :
    (if p then a else b).mapS f = if p then a.mapS f else b.mapS f := by split <;> rfl

/-- The end of `r_check2`. -/
def r2Tail (cfg : Cfg ν n q K) (tplus : K) (s : State ν n q K) : Out (State ν n q K) RootStatus :=
  let (s, ghi) := callRoot cfg s tplus s.m.yy s.m.yp s.r.ghi
  let a := r2Fold s.r.gactive ghi s.r.iroots s.r.glo
  let s := { s with r.ghi := ghi, r.nge := s.r.nge + 1, r.iroots := a.iroots, r.glo := a.glo }
  if a.done then .ret s (.error (.ida .closeRoots))
  else if a.zroot then .ret s (.ok .rootFound)
  else .ret s (.ok .continue_)

/-- The part of `r_check2` after a zero has been found. -/
def r2Zero (cfg : Cfg ν n q K) (s : State ν n q K) : Out (State ν n q K) RootStatus :=
  let s := { s with r.ttol := rootTol s }
  let smallh := s.r.ttol * Scalar.signum s.c.hh
  let tplus := s.r.tlo + smallh
  let s? := if Scalar.ge ((tplus - s.e.tn) * s.c.hh) 0 then
      some { s with m.yy := scaledAdd s.m.yy (smallh / s.c.hh) (s.h.phi 1) }
    else getSolution' s tplus
  match s? with
  | none => .panic
  | some s => r2Tail cfg tplus s

/-- The part of `r_check2` after the interpolation. -/
def r2Eval (cfg : Cfg ν n q K) (s : State ν n q K) : Out (State ν n q K) RootStatus :=
  let (s, glo) := callRoot cfg s s.r.tlo s.m.yy s.m.yp s.r.glo
  let zero : Fin q → Bool := fun i => s.r.gactive i && Scalar.eqb (Scalar.abs (glo i)) 0
  let zroot := Fin.foldl q (fun z i => z || zero i) false
  let s := { s with r.glo := glo, r.nge := s.r.nge + 1, r.iroots := fun i => if zero i then 1 else 0 }
  if zroot then r2Zero cfg s else .ret s (.ok .continue_)

theorem rCheck2_parts (cfg : Cfg ν n q K) (s : State ν n q K) : rCheck2 cfg s =
    if s.r.irfnd = false then .ret s (.ok .continue_) else
      match getSolution' s s.r.tlo with
      | none => .panic
      | some s => r2Eval cfg s := rfl

theorem r2Tail_swap (s : State ν n q K) (t : K) :
    r2Tail (cfg.withNls nls') t (s.swap k c) = (r2Tail cfg t s).mapS (·.swap k c) := by
  rw [show r2Tail cfg t s = ite _ _ (ite _ _ _) from rfl, mapS_ite, mapS_ite]
  rfl

theorem r2Zero_swap (s : State ν n q K) :
    r2Zero (cfg.withNls nls') (s.swap k c) = (r2Zero cfg s).mapS (·.swap k c) := by
  unfold r2Zero
  generalize hs1 : ({ s with r.ttol := rootTol s } : State ν n q K) = s1
  have hs2 : ({ s.swap k c with r.ttol := rootTol (s.swap k c) } : State ν' n q K) = s1.swap k c := by
    rw [← hs1]; rfl
  rw [hs2]
  show (match (if Scalar.ge ((s1.r.tlo + s1.r.ttol * Scalar.signum s1.c.hh - s1.e.tn) * s1.c.hh) 0 = true then
      some (State.swap { s1 with m.yy := scaledAdd s1.m.yy (s1.r.ttol * Scalar.signum s1.c.hh / s1.c.hh) (s1.h.phi 1) } k c)
    else getSolution' (s1.swap k c) (s1.r.tlo + s1.r.ttol * Scalar.signum s1.c.hh)) with
    | none => Out.panic
    | some s => r2Tail (cfg.withNls nls') (s1.r.tlo + s1.r.ttol * Scalar.signum s1.c.hh) s) = _
  rw [getSolution'_swap]
  by_cases h : Scalar.ge ((s1.r.tlo + s1.r.ttol * Scalar.signum s1.c.hh - s1.e.tn) * s1.c.hh) 0 = true
  · simp only [if_pos h]; exact r2Tail_swap k c cfg nls' _ _
  · simp only [if_neg h]
    cases getSolution' s1 (s1.r.tlo + s1.r.ttol * Scalar.signum s1.c.hh) with
    | none => rfl
    | some s => exact r2Tail_swap k c cfg nls' _ _

theorem r2Eval_swap (s : State ν n q K) :
    r2Eval (cfg.withNls nls') (s.swap k c) = (r2Eval cfg s).mapS (·.swap k c) := by
  rw [show r2Eval cfg s = ite _ _ _ from rfl, mapS_ite, ← r2Zero_swap k c cfg nls']
  rfl

theorem rCheck2_swap (s : State ν n q K) :
    rCheck2 (cfg.withNls nls') (s.swap k c) = (rCheck2 cfg s).mapS (·.swap k c) := by
  rw [rCheck2_parts, rCheck2_parts, mapS_ite]
  show (if s.r.irfnd = false then _ else match getSolution' (s.swap k c) s.r.tlo with
    | none => _ | some s => _) = _
  rw [getSolution'_swap]
  cases getSolution' s s.r.tlo with
  | none => rfl
  | some s' =>
    simp only [Option.map_some]
    rw [r2Eval_swap]
    rfl

/-! ### The search -/

def RfPass.mapS {S : Type u} {S' : Type v} {L : Type w} (f : S → S') : RfPass S L → RfPass S' L
  | .stop s => .stop (f s)
  | .more s l => .more (f s) l
  | .panic => .panic

theorem rfMapS_ite {S : Type u} {S' : Type v} {L : Type w} (f : S → S') (p : Prop) [Decidable p] (a b : RfPass S L) :
    (if p then a else b).mapS f = if p then a.mapS f else b.mapS f := by split <;> rfl

theorem rootNarrow_swap (s : State ν n q K) (a : Scan K) (tmid alph : K) (sp : Int) :
    rootNarrow (s.swap k c) a tmid alph sp = (rootNarrow s a tmid alph sp).mapS (·.swap k c) := by
  rw [show rootNarrow s a tmid alph sp = ite _ (ite _ _ _) (ite _ _ (ite _ _ _)) from rfl, rfMapS_ite, rfMapS_ite, rfMapS_ite,
    rfMapS_ite]
  rfl

theorem rootPass_swap (s : State ν n q K) (l : RfLoc K) :
    rootPass (cfg.withNls nls') (s.swap k c) l = (rootPass cfg s l).mapS (·.swap k c) := by
  unfold rootPass
  by_cases hi : l.imax < q
  · simp only [dif_pos hi]
    show (match getSolution' (s.swap k c) (trialPoint s.r.thi s.r.tlo s.r.ttol (s.r.ghi ⟨l.imax, hi⟩) (s.r.glo ⟨l.imax, hi⟩)
      (nextAlph l)) with | none => _ | some s => _) = _
    rw [getSolution'_swap]
    cases getSolution' s (trialPoint s.r.thi s.r.tlo s.r.ttol (s.r.ghi ⟨l.imax, hi⟩) (s.r.glo ⟨l.imax, hi⟩)
      (nextAlph l)) with
    | none => rfl
    | some s' =>
      simp only [Option.map_some]
      rw [← rootNarrow_swap]
      rfl
  · simp only [dif_neg hi]; rfl

theorem rootLoop_swap (fuel : Nat) : ∀ (s : State ν n q K) (l : RfLoc K),
    rootLoop (cfg.withNls nls') fuel (s.swap k c) l = (rootLoop cfg fuel s l).mapS (·.swap k c) := by
  induction fuel with
  | zero => intro s l; rfl
  | succ fuel ih =>
    intro s l
    unfold rootLoop
    rw [mapS_ite, rootPass_swap]
    show (if bracketSmall s.r = true then _ else _) = _
    by_cases h : bracketSmall s.r = true
    · rw [if_pos h, if_pos h]; rfl
    · rw [if_neg h, if_neg h]
      cases rootPass cfg s l with
      | panic => rfl
      | stop s => rfl
      | more s l => exact ih s l

theorem rootFind_swap (fuel : Nat) (s : State ν n q K) :
    rootFind (cfg.withNls nls') fuel (s.swap k c) = (rootFind cfg fuel s).mapS (·.swap k c) := by
  unfold rootFind
  show (if (scan1 cfg s.r.gactive s.r.glo s.r.ghi).sgnchg = false then _ else _) = _
  by_cases h : (scan1 cfg s.r.gactive s.r.glo s.r.ghi).sgnchg = false
  · simp only [if_pos h]
    show (if (scan1 cfg s.r.gactive s.r.glo s.r.ghi).zroot = false then _ else _) = _
    by_cases h' : (scan1 cfg s.r.gactive s.r.glo s.r.ghi).zroot = false
    · simp only [if_pos h']; rfl
    · simp only [if_neg h']; rfl
  · simp only [if_neg h]
    show (rootLoop (cfg.withNls nls') fuel (s.swap k c) { alph := 1, side := 0, sideprev := -1
                                                          imax := (scan1 cfg s.r.gactive s.r.glo s.r.ghi).imax }).bind _ = _
    rw [rootLoop_swap]
    exact Out.mapS_bind _ _ _ _ fun s a => rfl

theorem rCheck3_swap (fuel : Nat) (s : State ν n q K) :
    rCheck3 (cfg.withNls nls') fuel (s.swap k c) = (rCheck3 cfg fuel s).mapS (·.swap k c) := by
  unfold rCheck3
  generalize hs1 : ({ s with r.thi := searchEnd s } : State ν n q K) = s1
  have hs2 : ({ s.swap k c with r.thi := searchEnd (s.swap k c) } : State ν' n q K) = s1.swap k c := by
    rw [← hs1]; rfl
  rw [hs2]
  show (match getSolution' (s1.swap k c) s1.r.thi with | none => _ | some s => _) = _
  rw [getSolution'_swap]
  dsimp only
  cases getSolution' s1 s1.r.thi with
  | none => rfl
  | some s =>
    simp only [Option.map_some]
    generalize hs3 : ({ (callRoot cfg s s.r.thi s.m.yy s.m.yp s.r.ghi).1 with
      r.ghi := (callRoot cfg s s.r.thi s.m.yy s.m.yp s.r.ghi).2, r.nge := s.r.nge + 1, r.ttol := rootTol s } :
      State ν n q K) = s3
    have h3 : rootFind (cfg.withNls nls') fuel (s3.swap k c) = _ := rootFind_swap k c cfg nls' fuel s3
    rw [← hs3] at h3 
    show (rootFind (cfg.withNls nls') fuel (State.swap { (callRoot cfg s s.r.thi s.m.yy s.m.yp s.r.ghi).1 with
      r.ghi := (callRoot cfg s s.r.thi s.m.yy s.m.yp s.r.ghi).2, r.nge := s.r.nge + 1, r.ttol := rootTol s } k c)).bind _ = _
    rw [h3]
    refine Out.mapS_bind _ _ _ _ fun s a => ?_
    by_cases h : a = .rootFound
    · simp only [if_pos h]
      generalize hs4 : ({ s with
        r.gactive := fun i => if !s.r.gactive i && Scalar.neb (s.r.grout i) 0 then true else s.r.gactive i
        r.tlo := s.r.trout
        r.glo := s.r.grout } : State ν n q K) = s4
      show (match getSolution' (State.swap { s with
        r.gactive := fun i => if !s.r.gactive i && Scalar.neb (s.r.grout i) 0 then true else s.r.gactive i
        r.tlo := s.r.trout
        r.glo := s.r.grout } k c) s.r.trout with | none => _ | some s => _) = _
      rw [hs4, getSolution'_swap]
      have : s.r.trout = s4.r.trout := by rw [← hs4]
      rw [this]
      cases getSolution' s4 s4.r.trout <;> rfl
    · simp only [if_neg h]; rfl

/-! ## Stopping tests -/

theorem stopTest1_swap (s : State ν n q K) (tout : K) (task : Task) :
    stopTest1 (s.swap k c) tout task = (stopTest1 s tout task).mapS (·.swap k c) := by
  unfold stopTest1
  rw [mapS_ite]
  show (if pastStop s = true then _ else _) = _
  by_cases h : pastStop s = true
  · rw [if_pos h, if_pos h]; rfl
  · rw [if_neg h, if_neg h]
    cases task with
    | normal =>
      simp only
      rw [mapS_ite]
      show (if Scalar.eqb tout s.tretlast = true then _ else _) = _
      by_cases h : Scalar.eqb tout s.tretlast = true
      · rw [if_pos h, if_pos h]; rfl
      · rw [if_neg h, if_neg h, mapS_ite]
        show (if Scalar.ge ((s.e.tn - tout) * s.c.hh) 0 = true then _ else _) = _
        by_cases h : Scalar.ge ((s.e.tn - tout) * s.c.hh) 0 = true
        · rw [if_pos h, if_pos h, getSolution_swap]
          exact Out.mapS_bind _ _ _ _ fun s a => rfl
        · rw [if_neg h, if_neg h]
          show (match s.tstop with | some tstop => _ | none => _) = _
          cases s.tstop with
          | none => rfl
          | some tstop =>
            simp only
            rw [mapS_ite]
            show (if Scalar.le (Scalar.abs (s.e.tn - tstop)) (stopRoundoff s) = true then _ else _) = _
            by_cases h : Scalar.le (Scalar.abs (s.e.tn - tstop)) (stopRoundoff s) = true
            · rw [if_pos h, if_pos h, getSolution_swap]
              cases getSolution s tstop with
              | ret s r => cases r <;> rfl
              | panic => rfl
              | diverge => rfl
            · rw [if_neg h, if_neg h]
              show Out.ret (clampToStop (s.swap k c) tstop) _ = Out.ret ((clampToStop s tstop).swap k c) _
              unfold clampToStop
              rw [apply_ite (fun s : State ν n q K => s.swap k c)]
              rfl
    | oneStep =>
      simp only
      rw [mapS_ite]
      show (if Scalar.gt ((s.e.tn - s.tretlast) * s.c.hh) 0 = true then _ else _) = _
      by_cases h : Scalar.gt ((s.e.tn - s.tretlast) * s.c.hh) 0 = true
      · rw [if_pos h, if_pos h]
        show (match getSolution' (s.swap k c) s.e.tn with | none => _ | some s => _) = _
        rw [getSolution'_swap]
        cases getSolution' s s.e.tn <;> rfl
      · rw [if_neg h, if_neg h]
        show (match s.tstop with | some tstop => _ | none => _) = _
        cases s.tstop with
        | none => rfl
        | some tstop =>
          simp only
          rw [mapS_ite]
          show (if Scalar.le (Scalar.abs (s.e.tn - tstop)) (stopRoundoff s) = true then _ else _) = _
          by_cases h : Scalar.le (Scalar.abs (s.e.tn - tstop)) (stopRoundoff s) = true
          · rw [if_pos h, if_pos h, getSolution_swap]
            exact Out.mapS_bind _ _ _ _ fun s a => rfl
          · rw [if_neg h, if_neg h]
            show Out.ret (clampToStop (s.swap k c) tstop) _ = Out.ret ((clampToStop s tstop).swap k c) _
            unfold clampToStop
            rw [apply_ite (fun s : State ν n q K => s.swap k c)]
            rfl

theorem clampToStop_swap (s : State ν n q K) (tstop : K) : clampToStop (s.swap k c) tstop = (clampToStop s tstop).swap k c := by
  unfold clampToStop
  rw [apply_ite (fun s : State ν n q K => s.swap k c)]
  rfl

theorem stopTest2_swap (s : State ν n q K) (tout : K) (task : Task) :
    stopTest2 (s.swap k c) tout task = (stopTest2 s tout task).mapS (·.swap k c) := by
  unfold stopTest2
  cases task with
  | normal =>
    simp only
    rw [mapS_ite]
    show (if Scalar.ge ((s.e.tn - tout) * s.c.hh) 0 = true then _ else _) = _
    by_cases h : Scalar.ge ((s.e.tn - tout) * s.c.hh) 0 = true
    · rw [if_pos h, if_pos h]
      show (match getSolution' ((s.setTret tout).swap k c) tout with | none => _ | some s => _) = _
      rw [getSolution'_swap]
      cases getSolution' (s.setTret tout) tout <;> rfl
    · rw [if_neg h, if_neg h]
      show (match s.tstop with | some tstop => _ | none => _) = _
      cases s.tstop with
      | none => rfl
      | some tstop =>
        simp only
        rw [mapS_ite]
        show (if Scalar.le (Scalar.abs (s.e.tn - tstop)) (stopRoundoff s) = true then _ else _) = _
        by_cases h : Scalar.le (Scalar.abs (s.e.tn - tstop)) (stopRoundoff s) = true
        · rw [if_pos h, if_pos h, getSolution'_swap]
          cases getSolution' s tstop <;> rfl
        · rw [if_neg h, if_neg h, clampToStop_swap]; rfl
  | oneStep =>
    show (match s.tstop with | some tstop => _ | none => _) = _
    cases s.tstop with
    | none => rfl
    | some tstop =>
      simp only
      rw [mapS_ite]
      show (if Scalar.le (Scalar.abs (s.e.tn - tstop)) (stopRoundoff s) = true then _ else _) = _
      by_cases h : Scalar.le (Scalar.abs (s.e.tn - tstop)) (stopRoundoff s) = true
      · rw [if_pos h, if_pos h, getSolution'_swap]
        cases getSolution' s tstop <;> rfl
      · rw [if_neg h, if_neg h, clampToStop_swap]; rfl

end

end

end Verif
