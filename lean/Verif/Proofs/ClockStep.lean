import Verif.Spec.Clock
import Verif.Proofs.LsSim
import Verif.Proofs.RescaleRun

/-!
# Another unit of time: one internal step
-/

set_option autoImplicit false
set_option linter.unusedSectionVars false
set_option linter.unusedSimpArgs false
set_option linter.unusedVariables false

namespace Verif

open Verif.Spec

universe u v

namespace Spec.Clock

section
variable {K : Type u} [Scalar K] (U : Clock K)

theorem inj {a b : K} (h : U.f a = U.f b) : a = b := by rw [← U.gf a, h, U.gf]

theorem gzero : U.g 0 = 0 := U.inj (by rw [U.fg, U.zero])
theorem gadd (a b : K) : U.g a + U.g b = U.g (a + b) := U.inj (by rw [← U.add, U.fg, U.fg, U.fg])
theorem gneg (a : K) : -(U.g a) = U.g (-a) := U.inj (by rw [← U.neg, U.fg, U.fg])
theorem gmul (a b : K) : U.g a * b = U.g (a * b) := U.inj (by rw [← U.mul, U.fg, U.fg])
theorem gmul' (a b : K) : a * U.g b = U.g (a * b) := U.inj (by rw [← U.mul', U.fg, U.fg])
theorem gdiv (a b : K) : U.g a / b = U.g (a / b) := U.inj (by rw [← U.div, U.fg, U.fg])
theorem gdiv' (a b : K) : a / U.g b = U.f (a / b) := by
  have h := U.div' a (U.g b)
  rw [U.fg] at h
  rw [h, U.fg]
theorem geqb (a b : K) : Scalar.eqb (U.g a) (U.g b) = Scalar.eqb a b := by rw [← U.eqb, U.fg, U.fg]
theorem glt (a b : K) : Scalar.lt (U.g a) (U.g b) = Scalar.lt a b := by rw [← U.lt, U.fg, U.fg]

theorem fg' (a b : K) : U.f a * U.g b = a * b := by rw [U.mul, U.gmul', U.fg]
theorem gf' (a b : K) : U.g a * U.f b = a * b := by rw [U.mul', U.gmul, U.fg]
theorem dd (a b : K) : U.f a / U.f b = a / b := by rw [U.div, U.div', U.fg]
theorem gdd (a b : K) : U.g a / U.g b = a / b := by rw [U.gdiv, U.gdiv', U.gf]
theorem eqb0 (a : K) : Scalar.eqb (U.f a) 0 = Scalar.eqb a 0 := by
  conv_lhs => rw [← U.zero]
  exact U.eqb _ _
theorem side (a b c : K) : (U.f a - U.f b) * U.f c = U.f (U.f ((a - b) * c)) := by rw [U.sub, U.mul, U.mul']
theorem pos (a : K) : Scalar.lt 0 (U.f a) = Scalar.lt 0 a := by
  conv_lhs => rw [← U.zero]
  exact U.lt _ _
theorem low (a : K) : Scalar.lt (U.f a) 0 = Scalar.lt a 0 := by
  conv_lhs => rw [← U.zero]
  exact U.lt _ _
theorem pose (a : K) : Scalar.le 0 (U.f a) = Scalar.le 0 a := by
  conv_lhs => rw [← U.zero]
  exact U.le _ _
theorem lowe (a : K) : Scalar.le (U.f a) 0 = Scalar.le a 0 := by
  conv_lhs => rw [← U.zero]
  exact U.le _ _
theorem side_gt (a b c : K) : Scalar.gt ((U.f a - U.f b) * U.f c) 0 = Scalar.gt ((a - b) * c) 0 := by
  unfold Scalar.gt; rw [side, pos, pos]
theorem side_ge (a b c : K) : Scalar.ge ((U.f a - U.f b) * U.f c) 0 = Scalar.ge ((a - b) * c) 0 := by
  unfold Scalar.ge; rw [side, pose, pose]
theorem side_lt (a b c : K) : Scalar.lt ((U.f a - U.f b) * U.f c) 0 = Scalar.lt ((a - b) * c) 0 := by
  rw [U.side, U.low, U.low]
theorem side_le (a b c : K) : Scalar.le ((U.f a - U.f b) * U.f c) 0 = Scalar.le ((a - b) * c) 0 := by
  rw [U.side, U.lowe, U.lowe]
theorem dist (a b : K) : Scalar.abs (U.f a - U.f b) = U.f (Scalar.abs (a - b)) := by rw [U.sub, U.abs]

variable {n : Nat}

theorem rate_zero : U.rate (vzero : Vec n K) = vzero := by funext i; exact U.gzero

/-- `y' + c x`. -/
theorem scaled (y x : Vec n K) (c : K) : scaledAdd (U.rate y) (U.g c) x = U.rate (scaledAdd y c x) := by
  funext i
  show U.g (y i) + U.g c * x i = U.g (y i + c * x i)
  rw [U.gmul, U.gadd]

theorem scaled' (y x : Vec n K) (c : K) : scaledAdd y (U.f c) (U.rate x) = scaledAdd y c x := by
  funext i
  show y i + U.f c * U.g (x i) = y i + c * x i
  rw [U.fg']

theorem scale' (x : Vec n K) (c : K) : vscale (U.f c) (U.rate x) = vscale c x := by
  funext i
  show U.g (x i) * U.f c = x i * c
  exact U.gf' _ _

end

theorem iffb {a b : Bool} (h : a = b) : a = true ↔ b = true := by rw [h]

variable {ν : Type v} {n q : Nat} {K : Type u} [Scalar K] (U : Clock K)

/-! ## The states -/

def hist (h : Hist n K) : Hist n K := { h with psi := fun j => U.f (h.psi j), gamma := fun j => U.g (h.gamma j) }

def ctl (c : Ctl K) : Ctl K := { c with hh := U.f c.hh, hused := U.f c.hused, cjlast := U.g c.cjlast }

def env (e : Env n K) : Env n K := { e with tn := U.f e.tn, yppredict := U.rate e.yppredict, cj := U.g e.cj }

def mem (m : Mem n K) : Mem n K := { m with yp := U.rate m.yp, cjold := U.g m.cjold, log := m.log.map U.call }

def rootSt (r : RootSt q K) : RootSt q K := { r with tlo := U.f r.tlo, thi := U.f r.thi, trout := U.f r.trout, toutc := U.f r.toutc, ttol := U.f r.ttol }

def point (p : K × Vec n K) : K × Vec n K := (U.f p.1, p.2)

def att (a : Att n K) : Att n K :=
  { a with
    before := a.before.map U.point
    t0 := U.f a.t0
    tnew := U.f a.tnew
    hh := U.f a.hh
    cj := U.g a.cj
    predp := U.rate a.predp
    yp := U.rate a.yp
    stop := a.stop.map fun T => U.f T }

def ghost (g : Ghost n K) : Ghost n K := { atts := g.atts.map U.att, acc := g.acc.map U.point }

/-- The state with the other unit of time. -/
def state (s : State ν n q K) : State ν n q K where
  setupDone := s.setupDone
  h := U.hist s.h
  c := U.ctl s.c
  e := U.env s.e
  m := U.mem s.m
  delta := s.delta
  ee := s.ee
  cnt := s.cnt
  r := U.rootSt s.r
  perf := s.perf
  nls := s.nls
  tstop := s.tstop.map fun T => U.f T
  h0u := U.f s.h0u
  tretlast := U.f s.tretlast
  epsNewt := s.epsNewt
  tolsf := s.tolsf
  tret := U.f s.tret
  g := U.ghost s.g

/-- The state when `phi[1]` still contains `y'` itself (before the first step). -/
def fresh (s : State ν n q K) : State ν n q K :=
  { U.state s with h := { U.hist s.h with phi := fun j => if j = 1 then U.rate (s.h.phi 1) else s.h.phi j } }

/-- A state with a further result. -/
def pr {α : Type*} (p : State ν n q K × α) : State ν n q K × α := (U.state p.1, p.2)

/-- The outcome of a nonlinear solve. -/
def nlOut : NlOut ν n K → NlOut ν n K
  | .ret N m ee r => .ret N (U.mem m) ee r
  | .panic => .panic
  | .diverge => .diverge

/-- A configuration for the other unit of time. -/
def conf (cfg : Cfg ν n q K) (P' : Problem n q K) (S' : NlSolver ν n K) : Cfg ν n q K :=
  { cfg with prob := P', nls := S', hin := U.f cfg.hin, hmaxInv := U.g cfg.hmaxInv }

/-- The parts of the configuration. -/
structure Fits (cfg : Cfg ν n q K) (P' : Problem n q K) (S' : NlSolver ν n K) : Prop where
  root : ∀ t y yp b, P'.root (U.f t) y (U.rate yp) b = cfg.prob.root t y yp b
  nls : ∀ N e m y0 y w tol b, S'.solve N (U.env e) (U.mem m) y0 y w tol b = U.nlOut (cfg.nls.solve N e m y0 y w tol b)

/-! ## Newton's method -/

section
variable {P P' : Problem n q K} (hP : U.Same P P')
include hP

theorem sys_clock (e : Env n K) (m : Mem n K) (y buf : Vec n K) :
    idaSys P' (U.env e) (U.mem m) y buf = (U.mem (idaSys P e m y buf).1, (idaSys P e m y buf).2) := by
  unfold idaSys
  simp only [env]
  rw [U.scaled, hP.res]
  rfl

theorem lsSetup_clock (e : Env n K) (m : Mem n K) (yy yp r : Vec n K) :
    lsSetup P' (U.env e) (U.mem m) yy (U.rate yp) r = (lsSetup P e m yy yp r).map U.mem := by
  unfold lsSetup
  by_cases hn : n = 0
  · rw [if_pos hn, if_pos hn]
    show (match denseSetup n m.matJ m.piv with
      | .ok a p => some { U.mem m with matJ := a, piv := p }
      | .err _ _ _ => none
      | .panic => none) = Option.map U.mem (match denseSetup n m.matJ m.piv with
      | .ok a p => some { m with matJ := a, piv := p }
      | .err _ _ _ => none
      | .panic => none)
    cases denseSetup n m.matJ m.piv <;> rfl
  · rw [if_neg hn, if_neg hn]
    simp only [env]
    have e1 : P'.jac 0 (U.g e.cj) yy (U.rate yp) r (fun _ _ => 0) = P.jac 0 e.cj yy yp r fun _ _ => 0 := by
      conv_lhs => rw [← U.zero]
      rw [hP.jac, U.zero]
    have e2 : (UCall.jac 0 (U.g e.cj) yy (U.rate yp) r : UCall n K) = U.call (.jac 0 e.cj yy yp r) := by
      show _ = UCall.jac (U.f 0) (U.g e.cj) yy (U.rate yp) r
      rw [U.zero]
    rw [e1, e2]
    show (match denseSetup n (P.jac 0 e.cj yy yp r fun _ _ => 0) m.piv with
      | .ok a p => _
      | .err _ _ _ => none
      | .panic => none) = _
    cases denseSetup n (P.jac 0 e.cj yy yp r fun _ _ => 0) m.piv <;> rfl

theorem pair_clock (e : Env n K) : NLProblem.Pair (idaNLProblem P e) (idaNLProblem P' (U.env e)) (fun m m' => m' = U.mem m)
    (fun m m' => m' = U.mem m) where
  weak s s' h := h
  sys0 s s' y b h := by
    subst h
    exact ⟨_, _, _, rfl, congrArg (fun r => (r.1, r.2, Cb.ok ())) (U.sys_clock hP e s y b), rfl⟩
  sys s s' y b h := by
    subst h
    exact ⟨_, _, _, rfl, congrArg (fun r => (r.1, r.2, Cb.ok ())) (U.sys_clock hP e s y b), rfl⟩
  setup s s' y f j h := by
    subst h
    have h := U.lsSetup_clock hP e { s with nsetups := s.nsetups + 1 } s.yy s.yp f
    have e1 : idaSetup P' (U.env e) (U.mem s) f = (idaSetup P e s f).map U.mem := by
      unfold idaSetup
      rw [show lsSetup P' (U.env e) { U.mem s with nsetups := (U.mem s).nsetups + 1 } (U.mem s).yy (U.mem s).yp f = _ from h]
      cases lsSetup P e { s with nsetups := s.nsetups + 1 } s.yy s.yp f <;> rfl
    show ((match idaSetup P e s f with | none => (s, Cb.panic) | some m => (m, .ok true)).2 = _ ∧
      (match idaSetup P' (U.env e) (U.mem s) f with | none => (U.mem s, Cb.panic) | some m => (m, .ok true)).2 = _) ∨ ∃ t t' c,
      (match idaSetup P e s f with | none => (s, Cb.panic) | some m => (m, .ok true)) = (t, c) ∧
      (match idaSetup P' (U.env e) (U.mem s) f with | none => (U.mem s, Cb.panic) | some m => (m, .ok true)) = (t', c) ∧ _
    rw [e1]
    cases idaSetup P e s f with
    | none => exact .inl ⟨rfl, rfl⟩
    | some m => exact .inr ⟨m, U.mem m, .ok true, rfl, rfl, rfl⟩
  solve s s' y b h := by
    subst h
    show ((match lsSolve s b with | none => (s, b, Cb.panic) | some (m, b) => (m, b, .ok ())).2.2 = _ ∧
      (match lsSolve (U.mem s) b with | none => (U.mem s, b, Cb.panic) | some (m, b) => (m, b, .ok ())).2.2 = _) ∨ ∃ t t' d c,
      (match lsSolve s b with | none => (s, b, Cb.panic) | some (m, b) => (m, b, .ok ())) = (t, d, c) ∧
      (match lsSolve (U.mem s) b with | none => (U.mem s, b, Cb.panic) | some (m, b) => (m, b, .ok ())) = (t', d, c) ∧ _
    have e1 : lsSolve (U.mem s) b = (lsSolve s b).map fun p => (U.mem p.1, p.2) := by
      unfold lsSolve
      show (match denseSolve n s.matJ s.piv b.toFun with | none => none | some x => _) = _
      cases denseSolve n s.matJ s.piv b.toFun <;> rfl
    rw [e1]
    cases lsSolve s b with
    | none => exact .inl ⟨rfl, rfl⟩
    | some p => exact .inr ⟨p.1, U.mem p.1, p.2, .ok (), rfl, rfl, rfl⟩
  ctest s s' v y d t w h := by
    subst h
    refine ⟨_, _, _, rfl, ?_, rfl⟩
    show idaCtest (U.env e) (U.mem s) v d t w = (U.mem (idaCtest e s v d t w).1, (idaCtest e s v d t w).2)
    unfold idaCtest
    by_cases h1 : v.curIter = 0
    · simp only [if_pos h1]
      by_cases h2 : Scalar.le (normWrms d w) (Scalar.pt0001 * e.toldel) = true
      · rw [if_pos h2, if_pos (show Scalar.le (normWrms d w) (Scalar.pt0001 * (U.env e).toldel) = true from h2)]; rfl
      · rw [if_neg h2, if_neg (show ¬ Scalar.le (normWrms d w) (Scalar.pt0001 * (U.env e).toldel) = true from h2)]; rfl
    · simp only [if_neg h1]
      by_cases h2 : Scalar.gt (Scalar.powf (normWrms d w / s.oldnrm) (Scalar.recip (Scalar.ofNat v.curIter))) Scalar.pt9 = true
      · rw [if_pos h2, if_pos (show Scalar.gt (Scalar.powf (normWrms d w / (U.mem s).oldnrm) (Scalar.recip (Scalar.ofNat v.curIter))) Scalar.pt9 = true from h2)]
      · rw [if_neg h2, if_neg (show ¬ Scalar.gt (Scalar.powf (normWrms d w / (U.mem s).oldnrm) (Scalar.recip (Scalar.ofNat v.curIter))) Scalar.pt9 = true from h2)]; rfl

theorem newton_clock (fuel : Nat) (N : Newton (Vec n K)) (e : Env n K) (m : Mem n K) (y0 y w : Vec n K) (tol : K) (b : Bool) :
    (newtonNls P' fuel).solve N (U.env e) (U.mem m) y0 y w tol b = U.nlOut ((newtonNls P fuel).solve N e m y0 y w tol b) := by
  have h := newtonOuter_pair (U.pair_clock hP e) y0 tol w fuel b false N m (U.mem m) y rfl (fun _ => rfl)
  show (match newtonOuter (idaNLProblem P' (U.env e)) y0 tol w fuel b false N (U.mem m) y with
    | .done N m y r => NlOut.ret N m y r
    | .panic => .panic
    | .diverge => .diverge) = U.nlOut (match newtonOuter (idaNLProblem P e) y0 tol w fuel b false N m y with
    | .done N m y r => NlOut.ret N m y r
    | .panic => .panic
    | .diverge => .diverge)
  generalize newtonOuter (idaNLProblem P e) y0 tol w fuel b false N m y = o at h ⊢
  generalize newtonOuter (idaNLProblem P' (U.env e)) y0 tol w fuel b false N (U.mem m) y = o' at h ⊢
  cases h with
  | done N s s' y r h => subst h; rfl
  | panic => rfl
  | diverge => rfl

end

/-! ## Interpolation -/

section
variable (s : State ν n q K)

theorem badTime_clock (t : K) : badTime (U.state s) (U.f t) = badTime s t := by
  unfold badTime
  show Scalar.lt ((U.f t - (U.f s.e.tn - U.f s.c.hused - Scalar.hundred * Scalar.eps * (Scalar.abs (U.f s.e.tn) + Scalar.abs (U.f s.c.hh)) *
    Scalar.signum (U.f s.c.hh))) * U.f s.c.hh) 0 = _
  rw [U.abs, U.abs, U.sub, U.signum, U.add, U.mul' (Scalar.hundred * Scalar.eps), U.mul _ (Scalar.signum s.c.hh), U.sub, U.side_lt]

/-- The coefficients of the interpolation: those for `y'` are rates. -/
def solC (l : SolCoef K) : SolCoef K := { l with d := U.g l.d, dvals := fun j => U.g (l.dvals j) }

theorem solCoefs_clock (psi : Nat → K) (delt : K) (kord : Nat) :
    solCoefs (fun j => U.f (psi j)) (U.f delt) kord = U.solC (solCoefs psi delt kord) := by
  unfold solCoefs
  have e0 : ({ c := 1, d := 0, gam := U.f delt / U.f (psi 0), cvals := upd (fun _ => 0) 0 1, dvals := fun _ => 0 } : SolCoef K) =
      U.solC { c := 1, d := 0, gam := delt / psi 0, cvals := upd (fun _ => 0) 0 1, dvals := fun _ => 0 } := by
    unfold solC
    simp only [U.gzero, U.dd]
  rw [e0]
  refine forUp_conv (fun _ => U.solC) kord (fun j l _ => ?_) _
  unfold solC
  simp only
  have e1 : U.g l.d * l.gam + l.c / U.f (psi (j + 1 - 1)) = U.g (l.d * l.gam + l.c / psi (j + 1 - 1)) := by
    rw [U.gmul, U.div', U.gadd]
  have e2 : (U.f delt + U.f (psi (j + 1 - 1))) / U.f (psi (j + 1)) = (delt + psi (j + 1 - 1)) / psi (j + 1) := by
    rw [U.add, U.dd]
  rw [e1, e2]
  congr 1
  funext i
  unfold upd
  split <;> rfl

theorem solEval_clock (h : Hist n K) (delt : K) (kord : Nat) :
    solEval (U.hist h) (U.f delt) kord = ((solEval h delt kord).1, U.rate (solEval h delt kord).2) := by
  unfold solEval
  rw [show solCoefs (U.hist h).psi (U.f delt) kord = _ from U.solCoefs_clock h.psi delt kord]
  refine Prod.ext rfl ?_
  have e := forUp_conv (f := fun j y => scaledAdd y ((solCoefs h.psi delt kord).dvals j) (h.phi (j + 1)))
    (f' := fun j y => scaledAdd y (U.g ((solCoefs h.psi delt kord).dvals j)) (h.phi (j + 1))) (fun _ (v : Vec n K) => U.rate v) kord
    (fun i x _ => U.scaled _ _ _) vzero
  rw [U.rate_zero] at e
  exact e

theorem getSolution_clock (t : K) : getSolution (U.state s) (U.f t) = (getSolution s t).onS U.state := by
  unfold getSolution
  rw [U.badTime_clock]
  refine ite_conv (Out.onS U.state) Iff.rfl (fun _ => rfl) (fun _ => ?_)
  refine ite_conv (Out.onS U.state) Iff.rfl (fun _ => ?_) (fun _ => rfl)
  rw [show U.f t - (U.state s).e.tn = U.f (t - s.e.tn) from U.sub _ _,
    show solEval (U.state s).h (U.f (t - s.e.tn)) (kordOf (U.state s).c.kused) = _ from U.solEval_clock s.h _ _]
  rfl

theorem getSolution'_clock (t : K) : getSolution' (U.state s) (U.f t) = (getSolution' s t).map U.state := by
  unfold getSolution'
  rw [U.getSolution_clock]
  cases getSolution s t <;> rfl

/-! ## A step -/

theorem firstStepInit_clock : firstStepInit (U.state s) = U.state (firstStepInit s) := by
  unfold firstStepInit
  refine ite_conv U.state Iff.rfl (fun _ => ?_) (fun _ => rfl)
  unfold state hist ctl env
  simp only [U.recip, U.zero]
  congr 2
  funext j
  unfold upd
  split <;> rfl

def coef (l : CoefLoop K) : CoefLoop K := { l with temp1 := U.f l.temp1, psi := fun j => U.f (l.psi j), gamma := fun j => U.g (l.gamma j) }

theorem coefPass_clock (hh : K) (i : Nat) (l : CoefLoop K) : coefPass (U.f hh) i (U.coef l) = U.coef (coefPass hh i l) := by
  unfold coefPass coef
  have e1 : ∀ (f : Nat → K) (j : Nat) (x : K), upd (fun j => U.f (f j)) j (U.f x) = fun i => U.f (upd f j x i) := by
    intro f j x; funext i; unfold upd; split <;> rfl
  simp only [e1, U.add, U.dd]
  have e2 : l.beta (i + 1 - 1) * U.f (upd l.psi (i + 1 - 1) l.temp1 (i + 1 - 1)) / U.f (l.psi (i + 1 - 1)) =
      l.beta (i + 1 - 1) * upd l.psi (i + 1 - 1) l.temp1 (i + 1 - 1) / l.psi (i + 1 - 1) := by rw [U.mul', U.dd]
  have e3 : ∀ a : K, U.g (l.gamma (i + 1 - 1)) + a / U.f hh = U.g (l.gamma (i + 1 - 1) + a / hh) := by intro a; rw [U.div', U.gadd]
  have e4 : ∀ (f : Nat → K) (j : Nat) (x : K), upd (fun j => U.g (f j)) j (U.g x) = fun i => U.g (upd f j x i) := by
    intro f j x; funext i; unfold upd; split <;> rfl
  simp only [e2, e3, e1, e4]

theorem recompute_clock (kk : Nat) (hh : K) (h : Hist n K) : recompute kk (U.f hh) (U.hist h) = U.hist (recompute kk hh h) := by
  unfold recompute
  have e0 : ({ temp1 := U.f hh, psi := (U.hist h).psi, alpha := upd (U.hist h).alpha 0 1, beta := upd (U.hist h).beta 0 1
               sigma := upd (U.hist h).sigma 0 1, gamma := upd (U.hist h).gamma 0 0 } : CoefLoop K) =
      U.coef { temp1 := hh, psi := h.psi, alpha := upd h.alpha 0 1, beta := upd h.beta 0 1, sigma := upd h.sigma 0 1,
               gamma := upd h.gamma 0 0 } := by
    have e : upd (fun j => U.g (h.gamma j)) 0 0 = fun j => U.g (upd h.gamma 0 0 j) := by
      funext i
      unfold upd
      split
      · exact U.gzero.symm
      · rfl
    show ({ temp1 := U.f hh, psi := fun j => U.f (h.psi j), alpha := upd h.alpha 0 1, beta := upd h.beta 0 1
            sigma := upd h.sigma 0 1, gamma := upd (fun j => U.g (h.gamma j)) 0 0 } : CoefLoop K) = _
    rw [e]
    rfl
  have e1 := forUp_conv (f := coefPass hh) (f' := coefPass (U.f hh)) (fun _ => U.coef) kk (fun i l _ => U.coefPass_clock hh i l)
    { temp1 := hh, psi := h.psi, alpha := upd h.alpha 0 1, beta := upd h.beta 0 1, sigma := upd h.sigma 0 1
      gamma := upd h.gamma 0 0 }
  simp only
  rw [e0, e1]
  generalize forUp kk (coefPass hh) { temp1 := hh, psi := h.psi, alpha := upd h.alpha 0 1, beta := upd h.beta 0 1
                                      sigma := upd h.sigma 0 1, gamma := upd h.gamma 0 0 } = l
  have e : upd (U.coef l).psi kk (U.coef l).temp1 = fun j => U.f (upd l.psi kk l.temp1 j) := by
    funext i; unfold upd; split <;> rfl
  rw [e]
  rfl

theorem nextNs_clock (c : Ctl K) : nextNs (U.ctl c) = nextNs c := by
  unfold nextNs ctl
  simp only [Scalar.neb, U.eqb]

theorem setCoeffs_clock : setCoeffs (U.state s) = (setCoeffs s).map U.pr := by
  unfold setCoeffs
  refine ite_conv (Option.map U.pr) Iff.rfl (fun _ => ?_) (fun _ => rfl)
  have e0 : (if (U.state s).c.kk + 1 ≥ nextNs (U.state s).c then recompute (U.state s).c.kk (U.state s).c.hh (U.state s).h else (U.state s).h) =
      U.hist (if s.c.kk + 1 ≥ nextNs s.c then recompute s.c.kk s.c.hh s.h else s.h) := by
    refine ite_conv U.hist ?_ (fun _ => U.recompute_clock _ _ _) (fun _ => rfl)
    rw [show nextNs (U.state s).c = _ from U.nextNs_clock s.c]
    rfl
  have e1 : ∀ a : K, -a / (U.state s).c.hh = U.g (-a / s.c.hh) := fun a => U.div' _ _
  simp only
  rw [e0, e1, show nextNs (U.state s).c = _ from U.nextNs_clock s.c]
  generalize (if s.c.kk + 1 ≥ nextNs s.c then recompute s.c.kk s.c.hh s.h else s.h) = h
  rfl

/-- The step from `s` does not pass the stop time so far that the time would be reset to it, in neither unit. -/
def Clear : Prop := ∀ T, s.tstop = some T → Scalar.lt 1 ((s.e.tn + s.c.hh - T) * s.c.hh) = false ∧
  Scalar.lt 1 (U.f (U.f ((s.e.tn + s.c.hh - T) * s.c.hh))) = false

theorem advanceTime_clock (h : U.Clear s) : advanceTime (U.state s) = U.state (advanceTime s) := by
  unfold advanceTime
  have e : (U.state s).e.tn + (U.state s).c.hh = U.f (s.e.tn + s.c.hh) := U.add _ _
  simp only [e]
  have ht : (U.state s).tstop = s.tstop.map fun T => U.f T := rfl
  cases hs : s.tstop with
  | none =>
    rw [hs] at ht
    simp only [ht, Option.map_none]
    unfold state
    rw [hs]
    rfl
  | some T =>
    obtain ⟨h1, h2⟩ := h T hs
    rw [hs] at ht
    simp only [ht, Option.map_some]
    have e2 : (U.f (s.e.tn + s.c.hh) - U.f T) * (U.state s).c.hh = U.f (U.f ((s.e.tn + s.c.hh - T) * s.c.hh)) := by
      rw [U.sub, U.mul, show (U.state s).c.hh = U.f s.c.hh from rfl, U.mul']
    rw [e2]
    unfold Scalar.gt
    rw [h1, h2]
    unfold state
    rw [hs]
    rfl

theorem predict_clock : predict (U.state s) = (predict s).map U.state := by
  unfold predict
  refine ite_conv (Option.map U.state) Iff.rfl (fun _ => ?_) (fun _ => rfl)
  have e := forUp_conv (f := fun j y => scaledAdd y (s.h.gamma (j + 1)) (s.h.phi (j + 1)))
    (f' := fun j y => scaledAdd y (U.g (s.h.gamma (j + 1))) (s.h.phi (j + 1))) (fun _ (v : Vec n K) => U.rate v) s.c.kk
    (fun i x _ => U.scaled _ _ _) vzero
  rw [U.rate_zero] at e
  rw [show forUp (U.state s).c.kk (fun j y => scaledAdd y ((U.state s).h.gamma (j + 1)) ((U.state s).h.phi (j + 1))) vzero = _ from e]
  rfl

theorem nlsPrepare_clock : nlsPrepare (U.state s) = (U.mem (nlsPrepare s).1, (nlsPrepare s).2) := by
  unfold nlsPrepare
  have e2 : Scalar.neb (U.state s).e.cj (U.state s).c.cjlast = Scalar.neb s.e.cj s.c.cjlast := congrArg (!·) (U.geqb _ _)
  have e3 : ∀ x : K, (U.state s).e.cj / U.g x = s.e.cj / x := fun x => U.gdd _ _
  simp only [e2]
  by_cases h1 : s.cnt.nst = 0
  · simp only [show (U.state s).cnt.nst = s.cnt.nst from rfl, h1, decide_true, if_true, Bool.true_or]
    rw [show (U.state s).e.cj / (U.state s).e.cj = s.e.cj / s.e.cj from U.gdd _ _]
    split <;> rfl
  · simp only [show (U.state s).cnt.nst = s.cnt.nst from rfl, decide_eq_false h1, Bool.false_eq_true, if_false, Bool.false_or]
    rw [show (U.state s).e.cj / (U.state s).m.cjold = s.e.cj / s.m.cjold from U.gdd _ _]
    split <;> rfl

end

section
variable (cfg : Cfg ν n q K) {P' : Problem n q K} {S' : NlSolver ν n K} (H : U.Fits cfg P' S') (s : State ν n q K)

local notation "cfg'" => U.conf cfg P' S'

include H in
theorem nonlinearSolve_clock : nonlinearSolve cfg' (U.state s) = (nonlinearSolve cfg s).onS U.state := by
  unfold nonlinearSolve
  simp only [U.nlsPrepare_clock]
  rw [show (U.conf cfg P' S').nls.solve (U.state s).nls (U.state s).e (U.mem (nlsPrepare s).1) vzero (U.state s).ee
    (U.state s).e.ewt (U.state s).epsNewt (nlsPrepare s).2 = _ from H.nls s.nls s.e (nlsPrepare s).1 vzero s.ee s.e.ewt s.epsNewt (nlsPrepare s).2]
  cases cfg.nls.solve s.nls s.e (nlsPrepare s).1 vzero s.ee s.e.ewt s.epsNewt (nlsPrepare s).2 with
  | panic => rfl
  | diverge => rfl
  | ret N m ee r =>
    simp only [nlOut]
    rw [show scaledAdd (U.state s).e.yppredict (U.state s).e.cj ee = U.rate (scaledAdd s.e.yppredict s.e.cj ee) from U.scaled _ _ _]
    cases r with
    | error e => rfl
    | ok u => exact ite_conv (Out.onS U.state) Iff.rfl (fun _ => rfl) (fun _ => rfl)

theorem testError_clock (ck : K) : testError cfg' (U.state s) ck = (testError cfg s ck).map U.pr := by
  unfold testError
  exact ite_conv (Option.map U.pr) Iff.rfl (fun _ => rfl) (fun _ => rfl)

theorem setCoeffs_stop {s s' : State ν n q K} {ck : K} (h : setCoeffs s = some (s', ck)) :
    s'.tstop = s.tstop ∧ s'.e.tn = s.e.tn ∧ s'.c.hh = s.c.hh := by
  unfold setCoeffs at h
  simp only at h
  split at h
  · cases h; exact ⟨rfl, rfl, rfl⟩
  · cases h

include H in
theorem trial_clock (hT : U.Clear s) : trial cfg' (U.state s) = (trial cfg s).onS U.state := by
  unfold trial
  rw [U.setCoeffs_clock]
  cases h1 : setCoeffs s with
  | none => rfl
  | some p =>
    obtain ⟨s', ck⟩ := p
    have hT' : U.Clear s' := by
      obtain ⟨e1, e2, e3⟩ := setCoeffs_stop h1
      unfold Clear
      rw [e1, e2, e3]
      exact hT
    clear h1 hT
    revert s'
    intro s hT
    simp only [Option.map_some, pr]
    rw [U.advanceTime_clock s hT, U.predict_clock]
    cases predict (advanceTime s) with
    | none => rfl
    | some s =>
      simp only [Option.map_some]
      rw [U.nonlinearSolve_clock cfg H]
      cases nonlinearSolve cfg s with
      | panic => rfl
      | diverge => rfl
      | ret s r' =>
        cases r' with
        | error e => rfl
        | ok u =>
          simp only [Out.onS]
          rw [U.testError_clock]
          cases testError cfg s ck with
          | none => rfl
          | some p => rfl

theorem restore_clock (t : K) : restore (U.state s) (U.f t) = (restore s t).map U.state := by
  unfold restore
  refine ite_conv (Option.map U.state) Iff.rfl (fun _ => ?_) (fun _ => rfl)
  have e := forUp_conv (f := fun j0 p => upd p j0 (p (j0 + 1) - s.c.hh)) (f' := fun j0 p => upd p j0 (p (j0 + 1) - U.f s.c.hh))
    (fun _ (p : Nat → K) => fun j => U.f (p j)) s.c.kk (fun i x _ => by
      rw [U.sub]
      funext j; unfold upd; split <;> rfl) s.h.psi
  simp only
  rw [show forUp (U.state s).c.kk (fun j0 p => upd p j0 (p (j0 + 1) - (U.state s).c.hh)) (U.state s).h.psi = _ from e]
  rfl

theorem handleNFlag_clock (e : Err) (a b : K) (f : Fails) :
    handleNFlag cfg' (U.state s) e a b f = (handleNFlag cfg s e a b f).map U.pr := by
  unfold handleNFlag
  have e1 : ∀ r : K, (U.state s).c.hh * r = U.f (s.c.hh * r) := fun r => U.mul _ _
  cases e with
  | other m => rfl
  | nl e => rfl
  | ida e =>
    cases e with
    | testFail =>
      refine ite_conv (Option.map U.pr) Iff.rfl (fun _ => ?_) (fun _ => ?_)
      · simp only [e1]; rfl
      refine ite_conv (Option.map U.pr) Iff.rfl (fun _ => ?_) (fun _ => ?_)
      · simp only [e1]; rfl
      refine ite_conv (Option.map U.pr) Iff.rfl (fun _ => ?_) (fun _ => ?_)
      · simp only [e1]; rfl
      · rfl
    | recoverableFail rec =>
      simp only [e1]
      exact ite_conv (Option.map U.pr) Iff.rfl (fun _ => rfl) (fun _ => rfl)
    | _ => rfl

theorem reset_clock : reset (U.state s) = U.state (reset s) := by
  unfold reset
  have e : upd (U.state s).h.psi 0 (U.state s).c.hh = fun j => U.f (upd s.h.psi 0 s.c.hh j) := by
    funext j; unfold upd; split <;> rfl
  rw [e]
  rfl

theorem points_clock (t : K) : (U.state s).points (U.f t) = (s.points t).map U.point := by
  unfold State.points
  exact ite_conv (List.map U.point) Iff.rfl (fun _ => rfl) (fun _ => rfl)

theorem note_clock (t ck : K) (o : AttOut) : (U.state s).note (U.f t) ck o = U.state (s.note t ck o) := by
  unfold State.note
  rw [U.points_clock]
  rfl

theorem noteAcc_clock (t : K) : (U.state s).noteAcc (U.f t) = U.state (s.noteAcc t) := by
  unfold State.noteAcc
  rw [U.points_clock]
  rfl

theorem attemptFailed_clock (t : K) (e : Err) (a b : K) (f : Fails) :
    attemptFailed cfg' (U.f t) (U.state s) e a b f = (attemptFailed cfg t s e a b f).onS U.state := by
  unfold attemptFailed
  rw [U.restore_clock]
  cases restore s t with
  | none => rfl
  | some s =>
    simp only [Option.map_some]
    rw [U.handleNFlag_clock]
    cases handleNFlag cfg s e a b f with
    | none => rfl
    | some p =>
      obtain ⟨s, f, r'⟩ := p
      cases r' with
      | error e => rfl
      | ok u =>
        simp only [Option.map_some]
        exact congrArg (fun s => Attempt.again s f) (ite_conv U.state Iff.rfl (fun _ => U.reset_clock s) (fun _ => rfl))

include H in
theorem attempt_clock (hT : U.Clear s) (t : K) (f : Fails) : attempt cfg' (U.f t) (U.state s) f = (attempt cfg t s f).onS U.state := by
  unfold attempt
  rw [U.trial_clock cfg H s hT]
  cases trial cfg s with
  | panic => rfl
  | diverge => rfl
  | nlsFail s ck e =>
    simp only [Trial.onS]
    rw [U.note_clock]
    exact U.attemptFailed_clock cfg (s.note t ck (.nlsFail e)) t e _ _ f
  | tested s ck p =>
    simp only [Trial.onS]
    rw [U.note_clock, U.note_clock, U.noteAcc_clock]
    exact ite_conv (Attempt.onS U.state) Iff.rfl (fun _ => rfl)
      (fun _ => U.attemptFailed_clock cfg (s.note t ck .testFail) t _ _ _ f)

theorem markPhase_clock : markPhase cfg' (U.state s) = U.state (markPhase cfg s) := by
  unfold markPhase
  exact ite_conv U.state Iff.rfl (fun _ => rfl) (fun _ => rfl)

theorem doubled_clock (hh : K) : doubled cfg' (U.f hh) = U.f (doubled cfg hh) := by
  unfold doubled
  simp only [U.mul', U.abs, conf, U.fg']
  exact ite_conv U.f Iff.rfl (fun _ => U.div _ _) (fun _ => rfl)

theorem selectStep_clock (hh : K) (kk : Nat) (err : K) :
    selectStep cfg' (U.f hh) kk err = ((selectStep cfg hh kk err).1, U.f (selectStep cfg hh kk err).2) := by
  unfold selectStep
  refine ite_conv (fun p : K × K => (p.1, U.f p.2)) Iff.rfl (fun _ => ?_) (fun _ => ?_)
  · simp only [U.doubled_clock]
  refine ite_conv (fun p : K × K => (p.1, U.f p.2)) Iff.rfl (fun _ => ?_) (fun _ => rfl)
  simp only [U.mul]

theorem orderAction_clock (d : Bool) (a b : K) : orderAction cfg' (U.state s) d a b = orderAction cfg s d a b := rfl

theorem chooseNext_clock (d : Bool) (a b : K) : chooseNext cfg' (U.state s) d a b = (chooseNext cfg s d a b).map U.state := by
  unfold chooseNext
  rw [U.orderAction_clock]
  refine ite_conv (Option.map U.state) Iff.rfl (fun _ => ?_) (fun _ => ?_)
  · refine ite_conv (Option.map U.state) Iff.rfl (fun _ => ?_) (fun _ => rfl)
    rw [show doubled (U.conf cfg P' S') (U.state s).c.hh = _ from U.doubled_clock cfg s.c.hh]
    rfl
  · cases orderAction cfg s d a b with
    | none => rfl
    | some p =>
      obtain ⟨act, e⟩ := p
      have e1 : ∀ k x, selectStep (U.conf cfg P' S') (U.state s).c.hh k x = ((selectStep cfg s.c.hh k x).1, U.f (selectStep cfg s.c.hh k x).2) :=
        fun k x => U.selectStep_clock cfg s.c.hh k x
      simp only [e1]
      cases act <;> rfl

theorem completeStep_clock (a b : K) : completeStep cfg' (U.state s) a b = (completeStep cfg s a b).map U.state := by
  unfold completeStep
  show (if s.c.kk = 0 then none else
    match chooseNext (U.conf cfg P' S') (markPhase (U.conf cfg P' S')
      (U.state { s with cnt.nst := s.cnt.nst + 1, c.kused := s.c.kk, c.hused := s.c.hh }))
      (decide (s.c.kk = s.c.kused + 1)) a b with
    | none => none
    | some t =>
      if s.c.kk < mxordp1 ∧ (s.c.kk < cfg.maxord → s.c.kk + 1 < mxordp1) then
        some { t with h.phi := updatePhi cfg.maxord s.c.kk t.ee t.h.phi }
      else none) = _
  rw [U.markPhase_clock, U.chooseNext_clock]
  refine ite_conv (Option.map U.state) Iff.rfl (fun _ => rfl) (fun _ => ?_)
  cases chooseNext cfg (markPhase cfg { s with cnt.nst := s.cnt.nst + 1, c.kused := s.c.kk, c.hused := s.c.hh })
    (decide (s.c.kk = s.c.kused + 1)) a b with
  | none => rfl
  | some t => exact ite_conv (Option.map U.state) Iff.rfl (fun _ => rfl) (fun _ => rfl)

/-- All attempts of the step from `s` are clear. -/
def Safe : Prop := ∃ I : State ν n q K → Prop, I (firstStepInit s) ∧ (∀ a, I a → U.Clear a) ∧
  ∀ a f b f', I a → attempt cfg s.e.tn a f = .again b f' → I b

theorem again_stop {t : K} {s s' : State ν n q K} {f f' : Fails} (h : attempt cfg t s f = .again s' f') (hT : s.tstop = none) :
    s'.tstop = none := by
  obtain ⟨s4, err, a, b, s6, hp, hh, rfl⟩ := attempt_again h
  have h6 : (restored s4 t).tstop = s4.tstop := rfl
  have h7 : (if s6.cnt.nst = 0 then reset s6 else s6).tstop = s6.tstop := by split <;> rfl
  rw [h7, (handled_quiet (handleNFlag_handled hh)).tstop, h6, (passFailed_quiet hp).1.tstop, hT]

theorem safe_free (hT : s.tstop = none) : U.Safe cfg s :=
  ⟨fun a => a.tstop = none, (firstStepInit_cnt s).2.2.2.1.trans hT, fun a (ha : a.tstop = none) T h => (by rw [ha] at h; cases h),
    fun a f b f' ha h => again_stop cfg h ha⟩

include H in
theorem stepLoop_clock (t : K) (I : State ν n q K → Prop) (hI : ∀ a, I a → U.Clear a)
    (hA : ∀ a f b f', I a → attempt cfg t a f = .again b f' → I b) (fuel : Nat) : ∀ (s : State ν n q K) (hT : I s) (f : Fails),
    stepLoop cfg' (U.f t) fuel (U.state s) f = (stepLoop cfg t fuel s f).onS U.state := by
  induction fuel with
  | zero => intro s hT f; rfl
  | succ fuel ih =>
    intro s hT f
    unfold stepLoop
    rw [U.attempt_clock cfg H s (hI s hT)]
    cases ha : attempt cfg t s f with
    | panic => rfl
    | diverge => rfl
    | again s f => exact ih _ (hA _ _ _ _ hT ha) _
    | fail s e => rfl
    | done s a b c =>
      simp only [Attempt.onS]
      rw [U.completeStep_clock]
      cases completeStep cfg s b c with
      | none => rfl
      | some s => rfl

include H in
theorem step_clock (hT : U.Safe cfg s) : step cfg' (U.state s) = (step cfg s).onS U.state := by
  obtain ⟨I, h1, h2, h3⟩ := hT
  unfold step
  rw [U.firstStepInit_clock]
  exact U.stepLoop_clock cfg H _ I h2 h3 _ _ h1 _

end

end Spec.Clock

end Verif
