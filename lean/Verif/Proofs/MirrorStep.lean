import Verif.Spec.Mirror
import Verif.Proofs.LsSim
import Verif.Proofs.RescaleRun

/-!
# The other direction of time: one internal step
-/

set_option autoImplicit false
set_option linter.unusedSectionVars false
set_option linter.unusedSimpArgs false
set_option linter.unusedVariables false

namespace Verif

open Verif.Spec

universe u v

namespace Spec.TwoWay

variable {K : Type u} [Scalar K] (L : TwoWay K)
include L

theorem mm (a b : K) : -a * -b = a * b := by rw [L.mul, L.mul', L.neg]
theorem dd (a b : K) : -a / -b = a / b := by rw [L.div, L.div', L.neg]
theorem side (a b c : K) : (-a - -b) * -c = (a - b) * c := by rw [L.sub, L.mm]
theorem dist (a b : K) : Scalar.abs (-a - -b) = Scalar.abs (a - b) := by rw [L.sub, L.abs]

variable {n : Nat}

theorem vneg (v : Vec n K) : - -v = v := by funext i; exact L.neg _
theorem vzero' : -(vzero : Vec n K) = vzero := by funext i; exact L.zero

/-- `y' + c x` with the other sign. -/
theorem scaled (y x : Vec n K) (c : K) : scaledAdd (-y) (-c) x = -(scaledAdd y c x) := by
  funext i
  show -(y i) + -c * x i = -(y i + c * x i)
  rw [L.mul, L.add]

theorem scaled' (y x : Vec n K) (c : K) : scaledAdd y (-c) (-x) = scaledAdd y c x := by
  funext i
  show y i + -c * -(x i) = y i + c * x i
  rw [L.mm]

theorem scale' (x : Vec n K) (c : K) : vscale (-c) (-x) = vscale c x := by
  funext i
  exact L.mm _ _

theorem norm (x w : Vec n K) (id : Fin n → Bool) (b : Bool) : wrmsNorm id (-x) w b = wrmsNorm id x w b := by
  unfold wrmsNorm normWrms normWrmsMasked
  have e1 : (fun i => ((-x) i * w i) * ((-x) i * w i)) = fun i => (x i * w i) * (x i * w i) := by
    funext i
    show (-(x i) * w i) * (-(x i) * w i) = _
    rw [L.mul, L.mm]
  have e2 : ∀ m : Vec n K, (fun i => ((-x) i * w i * m i) * ((-x) i * w i * m i)) = fun i => (x i * w i * m i) * (x i * w i * m i) := by
    intro m
    funext i
    show (-(x i) * w i * m i) * (-(x i) * w i * m i) = _
    rw [L.mul, L.mul, L.mm]
  simp only [e1, e2]

end Spec.TwoWay

namespace Spec.Mirror

theorem iffb {a b : Bool} (h : a = b) : a = true ↔ b = true := by rw [h]

variable {ν : Type v} {n q : Nat} {K : Type u} [Scalar K]

/-! ## The states -/

def hist (h : Hist n K) : Hist n K := { h with psi := fun j => -(h.psi j), gamma := fun j => -(h.gamma j) }

def ctl (c : Ctl K) : Ctl K := { c with hh := -c.hh, hused := -c.hused, cjlast := -c.cjlast }

def env (e : Env n K) : Env n K := { e with tn := -e.tn, yppredict := -e.yppredict, cj := -e.cj }

def mem (m : Mem n K) : Mem n K := { m with yp := -m.yp, cjold := -m.cjold, log := m.log.map call }

def rootSt (r : RootSt q K) : RootSt q K := { r with tlo := -r.tlo, thi := -r.thi, trout := -r.trout, toutc := -r.toutc }

def point (p : K × Vec n K) : K × Vec n K := (-p.1, p.2)

def att (a : Att n K) : Att n K :=
  { a with
    before := a.before.map point
    t0 := -a.t0
    tnew := -a.tnew
    hh := -a.hh
    cj := -a.cj
    predp := -a.predp
    yp := -a.yp
    stop := a.stop.map fun T => -T }

def ghost (g : Ghost n K) : Ghost n K := { atts := g.atts.map att, acc := g.acc.map point }

/-- The state with the time running the other way. -/
def state (s : State ν n q K) : State ν n q K where
  setupDone := s.setupDone
  h := hist s.h
  c := ctl s.c
  e := env s.e
  m := mem s.m
  delta := s.delta
  ee := s.ee
  cnt := s.cnt
  r := rootSt s.r
  perf := s.perf
  nls := s.nls
  tstop := s.tstop.map fun T => -T
  h0u := -s.h0u
  tretlast := -s.tretlast
  epsNewt := s.epsNewt
  tolsf := s.tolsf
  tret := -s.tret
  g := ghost s.g

/-- The state when `phi[1]` still contains `y'` itself (before the first step). -/
def fresh (s : State ν n q K) : State ν n q K :=
  { state s with h := { hist s.h with phi := fun j => if j = 1 then -(s.h.phi 1) else s.h.phi j } }

/-- A state with a further result. -/
def pr {α : Type*} (p : State ν n q K × α) : State ν n q K × α := (state p.1, p.2)

/-- The outcome of a nonlinear solve. -/
def nlOut : NlOut ν n K → NlOut ν n K
  | .ret N m ee r => .ret N (mem m) ee r
  | .panic => .panic
  | .diverge => .diverge

/-- A configuration for the other direction of time. -/
def conf (cfg : Cfg ν n q K) (P' : Problem n q K) (S' : NlSolver ν n K) : Cfg ν n q K :=
  { cfg with prob := P', nls := S', hin := -cfg.hin }

/-- The parts of the configuration. -/
structure Fits (cfg : Cfg ν n q K) (P' : Problem n q K) (S' : NlSolver ν n K) : Prop where
  root : ∀ t y yp b, P'.root (-t) y (-yp) b = cfg.prob.root t y yp b
  nls : ∀ N e m y0 y w tol call, S'.solve N (env e) (mem m) y0 y w tol call = nlOut (cfg.nls.solve N e m y0 y w tol call)

/-! ## Newton's method -/

section
variable (L : TwoWay K) {P P' : Problem n q K} (hP : Same P P')
include L hP

theorem sys_mirror (e : Env n K) (m : Mem n K) (y buf : Vec n K) :
    idaSys P' (env e) (mem m) y buf = (mem (idaSys P e m y buf).1, (idaSys P e m y buf).2) := by
  unfold idaSys
  simp only [env]
  rw [L.scaled, hP.res]
  rfl

theorem lsSetup_mirror (e : Env n K) (m : Mem n K) (yy yp r : Vec n K) :
    lsSetup P' (env e) (mem m) yy (-yp) r = (lsSetup P e m yy yp r).map mem := by
  unfold lsSetup
  by_cases hn : n = 0
  · rw [if_pos hn, if_pos hn]
    show (match denseSetup n m.matJ m.piv with
      | .ok a p => some { mem m with matJ := a, piv := p }
      | .err _ _ _ => none
      | .panic => none) = Option.map mem (match denseSetup n m.matJ m.piv with
      | .ok a p => some { m with matJ := a, piv := p }
      | .err _ _ _ => none
      | .panic => none)
    cases denseSetup n m.matJ m.piv <;> rfl
  · rw [if_neg hn, if_neg hn]
    simp only [env]
    have e1 : P'.jac 0 (-e.cj) yy (-yp) r (fun _ _ => 0) = P.jac 0 e.cj yy yp r fun _ _ => 0 := by
      conv_lhs => rw [← L.zero]
      rw [hP.jac, L.zero]
    have e2 : (UCall.jac 0 (-e.cj) yy (-yp) r : UCall n K) = call (.jac 0 e.cj yy yp r) := by
      show _ = UCall.jac (-0) (-e.cj) yy (-yp) r
      rw [L.zero]
    rw [e1, e2]
    show (match denseSetup n (P.jac 0 e.cj yy yp r fun _ _ => 0) m.piv with
      | .ok a p => _
      | .err _ _ _ => none
      | .panic => none) = _
    cases denseSetup n (P.jac 0 e.cj yy yp r fun _ _ => 0) m.piv <;> rfl

theorem pair_mirror (e : Env n K) : NLProblem.Pair (idaNLProblem P e) (idaNLProblem P' (env e)) (fun m m' => m' = mem m)
    (fun m m' => m' = mem m) where
  weak s s' h := h
  sys0 s s' y b h := by
    subst h
    exact ⟨_, _, _, rfl, congrArg (fun r => (r.1, r.2, Cb.ok ())) (sys_mirror L hP e s y b), rfl⟩
  sys s s' y b h := by
    subst h
    exact ⟨_, _, _, rfl, congrArg (fun r => (r.1, r.2, Cb.ok ())) (sys_mirror L hP e s y b), rfl⟩
  setup s s' y f j h := by
    subst h
    have h := lsSetup_mirror L hP e { s with nsetups := s.nsetups + 1 } s.yy s.yp f
    have e1 : idaSetup P' (env e) (mem s) f = (idaSetup P e s f).map mem := by
      unfold idaSetup
      rw [show lsSetup P' (env e) { mem s with nsetups := (mem s).nsetups + 1 } (mem s).yy (mem s).yp f = _ from h]
      cases lsSetup P e { s with nsetups := s.nsetups + 1 } s.yy s.yp f <;> rfl
    show ((match idaSetup P e s f with | none => (s, Cb.panic) | some m => (m, .ok true)).2 = _ ∧
      (match idaSetup P' (env e) (mem s) f with | none => (mem s, Cb.panic) | some m => (m, .ok true)).2 = _) ∨ ∃ t t' c,
      (match idaSetup P e s f with | none => (s, Cb.panic) | some m => (m, .ok true)) = (t, c) ∧
      (match idaSetup P' (env e) (mem s) f with | none => (mem s, Cb.panic) | some m => (m, .ok true)) = (t', c) ∧ _
    rw [e1]
    cases idaSetup P e s f with
    | none => exact .inl ⟨rfl, rfl⟩
    | some m => exact .inr ⟨m, mem m, .ok true, rfl, rfl, rfl⟩
  solve s s' y b h := by
    subst h
    show ((match lsSolve s b with | none => (s, b, Cb.panic) | some (m, b) => (m, b, .ok ())).2.2 = _ ∧
      (match lsSolve (mem s) b with | none => (mem s, b, Cb.panic) | some (m, b) => (m, b, .ok ())).2.2 = _) ∨ ∃ t t' d c,
      (match lsSolve s b with | none => (s, b, Cb.panic) | some (m, b) => (m, b, .ok ())) = (t, d, c) ∧
      (match lsSolve (mem s) b with | none => (mem s, b, Cb.panic) | some (m, b) => (m, b, .ok ())) = (t', d, c) ∧ _
    have e1 : lsSolve (mem s) b = (lsSolve s b).map fun p => (mem p.1, p.2) := by
      unfold lsSolve
      show (match denseSolve n s.matJ s.piv b.toFun with | none => none | some x => _) = _
      cases denseSolve n s.matJ s.piv b.toFun <;> rfl
    rw [e1]
    cases lsSolve s b with
    | none => exact .inl ⟨rfl, rfl⟩
    | some p => exact .inr ⟨p.1, mem p.1, p.2, .ok (), rfl, rfl, rfl⟩
  ctest s s' v y d t w h := by
    subst h
    refine ⟨_, _, _, rfl, ?_, rfl⟩
    show idaCtest (env e) (mem s) v d t w = (mem (idaCtest e s v d t w).1, (idaCtest e s v d t w).2)
    unfold idaCtest
    by_cases h1 : v.curIter = 0
    · simp only [if_pos h1]
      by_cases h2 : Scalar.le (normWrms d w) (Scalar.pt0001 * e.toldel) = true
      · rw [if_pos h2, if_pos (show Scalar.le (normWrms d w) (Scalar.pt0001 * (env e).toldel) = true from h2)]; rfl
      · rw [if_neg h2, if_neg (show ¬ Scalar.le (normWrms d w) (Scalar.pt0001 * (env e).toldel) = true from h2)]; rfl
    · simp only [if_neg h1]
      by_cases h2 : Scalar.gt (Scalar.powf (normWrms d w / s.oldnrm) (Scalar.recip (Scalar.ofNat v.curIter))) Scalar.pt9 = true
      · rw [if_pos h2, if_pos (show Scalar.gt (Scalar.powf (normWrms d w / (mem s).oldnrm) (Scalar.recip (Scalar.ofNat v.curIter))) Scalar.pt9 = true from h2)]
      · rw [if_neg h2, if_neg (show ¬ Scalar.gt (Scalar.powf (normWrms d w / (mem s).oldnrm) (Scalar.recip (Scalar.ofNat v.curIter))) Scalar.pt9 = true from h2)]; rfl

theorem newton_mirror (fuel : Nat) (N : Newton (Vec n K)) (e : Env n K) (m : Mem n K) (y0 y w : Vec n K) (tol : K) (b : Bool) :
    (newtonNls P' fuel).solve N (env e) (mem m) y0 y w tol b = nlOut ((newtonNls P fuel).solve N e m y0 y w tol b) := by
  have h := newtonOuter_pair (pair_mirror L hP e) y0 tol w fuel b false N m (mem m) y rfl (fun _ => rfl)
  show (match newtonOuter (idaNLProblem P' (env e)) y0 tol w fuel b false N (mem m) y with
    | .done N m y r => NlOut.ret N m y r
    | .panic => .panic
    | .diverge => .diverge) = nlOut (match newtonOuter (idaNLProblem P e) y0 tol w fuel b false N m y with
    | .done N m y r => NlOut.ret N m y r
    | .panic => .panic
    | .diverge => .diverge)
  generalize newtonOuter (idaNLProblem P e) y0 tol w fuel b false N m y = o at h ⊢
  generalize newtonOuter (idaNLProblem P' (env e)) y0 tol w fuel b false N (mem m) y = o' at h ⊢
  cases h with
  | done N s s' y r h => subst h; rfl
  | panic => rfl
  | diverge => rfl

end

/-! ## Interpolation -/

section
variable (L : TwoWay K) (s : State ν n q K)
include L

theorem badTime_mirror (t : K) : badTime (state s) (-t) = badTime s t := by
  unfold badTime
  show Scalar.lt ((-t - (-s.e.tn - -s.c.hused - Scalar.hundred * Scalar.eps * (Scalar.abs (-s.e.tn) + Scalar.abs (-s.c.hh)) *
    Scalar.signum (-s.c.hh))) * -s.c.hh) 0 = _
  rw [L.abs, L.abs, L.sub]
  by_cases h : Scalar.eqb s.c.hh 0 = true
  · rw [L.still (-s.c.hh) _ (by rw [L.eqb]; exact h)]
    exact (L.still s.c.hh _ h).symm
  · rw [L.signum _ (by simpa using h), L.mul' (Scalar.hundred * Scalar.eps * (Scalar.abs s.e.tn + Scalar.abs s.c.hh)), L.sub, L.side]

/-- The coefficients of the interpolation: those for `y'` change their signs. -/
def solC (l : SolCoef K) : SolCoef K := { l with d := -l.d, dvals := fun j => -(l.dvals j) }

theorem solCoefs_mirror (psi : Nat → K) (delt : K) (kord : Nat) :
    solCoefs (fun j => -(psi j)) (-delt) kord = solC (solCoefs psi delt kord) := by
  unfold solCoefs
  have e0 : ({ c := 1, d := 0, gam := -delt / -(psi 0), cvals := upd (fun _ => 0) 0 1, dvals := fun _ => 0 } : SolCoef K) =
      solC { c := 1, d := 0, gam := delt / psi 0, cvals := upd (fun _ => 0) 0 1, dvals := fun _ => 0 } := by
    unfold solC
    simp only [L.zero, L.dd]
  rw [e0]
  refine forUp_conv (fun _ => solC) kord (fun j l _ => ?_) _
  unfold solC
  simp only
  have e1 : -l.d * l.gam + l.c / -(psi (j + 1 - 1)) = -(l.d * l.gam + l.c / psi (j + 1 - 1)) := by
    rw [L.mul, L.div', L.add]
  have e2 : (-delt + -(psi (j + 1 - 1))) / -(psi (j + 1)) = (delt + psi (j + 1 - 1)) / psi (j + 1) := by
    rw [L.add, L.dd]
  rw [e1, e2]
  congr 1
  funext i
  unfold upd
  split <;> rfl

theorem solEval_mirror (h : Hist n K) (delt : K) (kord : Nat) :
    solEval (hist h) (-delt) kord = ((solEval h delt kord).1, -(solEval h delt kord).2) := by
  unfold solEval
  rw [show solCoefs (hist h).psi (-delt) kord = _ from solCoefs_mirror L h.psi delt kord]
  refine Prod.ext rfl ?_
  have e := forUp_conv (f := fun j y => scaledAdd y ((solCoefs h.psi delt kord).dvals j) (h.phi (j + 1)))
    (f' := fun j y => scaledAdd y (-((solCoefs h.psi delt kord).dvals j)) (h.phi (j + 1))) (fun _ (v : Vec n K) => -v) kord
    (fun i x _ => L.scaled _ _ _) vzero
  rw [L.vzero'] at e
  exact e

theorem getSolution_mirror (t : K) : getSolution (state s) (-t) = (getSolution s t).onS state := by
  unfold getSolution
  rw [badTime_mirror L]
  refine ite_conv (Out.onS state) Iff.rfl (fun _ => rfl) (fun _ => ?_)
  refine ite_conv (Out.onS state) Iff.rfl (fun _ => ?_) (fun _ => rfl)
  rw [show -t - (state s).e.tn = -(t - s.e.tn) from L.sub _ _,
    show solEval (state s).h (-(t - s.e.tn)) (kordOf (state s).c.kused) = _ from solEval_mirror L s.h _ _]
  rfl

theorem getSolution'_mirror (t : K) : getSolution' (state s) (-t) = (getSolution' s t).map state := by
  unfold getSolution'
  rw [getSolution_mirror L]
  cases getSolution s t <;> rfl

/-! ## A step -/

theorem firstStepInit_mirror : firstStepInit (state s) = state (firstStepInit s) := by
  unfold firstStepInit
  refine ite_conv state Iff.rfl (fun _ => ?_) (fun _ => rfl)
  unfold state hist ctl env
  simp only [L.recip, L.zero]
  congr 2
  funext j
  unfold upd
  split <;> rfl

def coef (l : CoefLoop K) : CoefLoop K := { l with temp1 := -l.temp1, psi := fun j => -(l.psi j), gamma := fun j => -(l.gamma j) }

theorem coefPass_mirror (hh : K) (i : Nat) (l : CoefLoop K) : coefPass (-hh) i (coef l) = coef (coefPass hh i l) := by
  unfold coefPass coef
  have e1 : ∀ (f : Nat → K) (j : Nat) (x : K), upd (fun j => -(f j)) j (-x) = fun i => -(upd f j x i) := by
    intro f j x; funext i; unfold upd; split <;> rfl
  simp only [e1, L.add, L.dd]
  have e2 : l.beta (i + 1 - 1) * -upd l.psi (i + 1 - 1) l.temp1 (i + 1 - 1) / -l.psi (i + 1 - 1) =
      l.beta (i + 1 - 1) * upd l.psi (i + 1 - 1) l.temp1 (i + 1 - 1) / l.psi (i + 1 - 1) := by rw [L.mul', L.dd]
  have e3 : ∀ a : K, -l.gamma (i + 1 - 1) + a / -hh = -(l.gamma (i + 1 - 1) + a / hh) := by intro a; rw [L.div', L.add]
  simp only [e2, e3, e1]

theorem recompute_mirror (kk : Nat) (hh : K) (h : Hist n K) : recompute kk (-hh) (hist h) = hist (recompute kk hh h) := by
  unfold recompute
  have e0 : ({ temp1 := -hh, psi := (hist h).psi, alpha := upd (hist h).alpha 0 1, beta := upd (hist h).beta 0 1
               sigma := upd (hist h).sigma 0 1, gamma := upd (hist h).gamma 0 0 } : CoefLoop K) =
      coef { temp1 := hh, psi := h.psi, alpha := upd h.alpha 0 1, beta := upd h.beta 0 1, sigma := upd h.sigma 0 1
             gamma := upd h.gamma 0 0 } := by
    have e : upd (fun j => -(h.gamma j)) 0 0 = fun j => -(upd h.gamma 0 0 j) := by
      funext i
      unfold upd
      split
      · exact L.zero.symm
      · rfl
    show ({ temp1 := -hh, psi := fun j => -(h.psi j), alpha := upd h.alpha 0 1, beta := upd h.beta 0 1
            sigma := upd h.sigma 0 1, gamma := upd (fun j => -(h.gamma j)) 0 0 } : CoefLoop K) = _
    rw [e]
    rfl
  have e1 := forUp_conv (f := coefPass hh) (f' := coefPass (-hh)) (fun _ => coef) kk (fun i l _ => coefPass_mirror L hh i l)
    { temp1 := hh, psi := h.psi, alpha := upd h.alpha 0 1, beta := upd h.beta 0 1, sigma := upd h.sigma 0 1
      gamma := upd h.gamma 0 0 }
  simp only
  rw [e0, e1]
  generalize forUp kk (coefPass hh) { temp1 := hh, psi := h.psi, alpha := upd h.alpha 0 1, beta := upd h.beta 0 1
                                      sigma := upd h.sigma 0 1, gamma := upd h.gamma 0 0 } = l
  have e : upd (coef l).psi kk (coef l).temp1 = fun j => -(upd l.psi kk l.temp1 j) := by
    funext i; unfold upd; split <;> rfl
  rw [e]
  rfl

theorem nextNs_mirror (c : Ctl K) : nextNs (ctl c) = nextNs c := by
  unfold nextNs ctl
  simp only [Scalar.neb, L.eq]

theorem setCoeffs_mirror : setCoeffs (state s) = (setCoeffs s).map pr := by
  unfold setCoeffs
  refine ite_conv (Option.map pr) Iff.rfl (fun _ => ?_) (fun _ => rfl)
  have e0 : (if (state s).c.kk + 1 ≥ nextNs (state s).c then recompute (state s).c.kk (state s).c.hh (state s).h else (state s).h) =
      hist (if s.c.kk + 1 ≥ nextNs s.c then recompute s.c.kk s.c.hh s.h else s.h) := by
    refine ite_conv hist ?_ (fun _ => recompute_mirror L _ _ _) (fun _ => rfl)
    rw [show nextNs (state s).c = _ from nextNs_mirror L s.c]
    rfl
  have e1 : ∀ a : K, -a / (state s).c.hh = -(-a / s.c.hh) := fun a => L.div' _ _
  simp only
  rw [e0, e1, show nextNs (state s).c = _ from nextNs_mirror L s.c]
  generalize (if s.c.kk + 1 ≥ nextNs s.c then recompute s.c.kk s.c.hh s.h else s.h) = h
  rfl

theorem advanceTime_mirror : advanceTime (state s) = state (advanceTime s) := by
  unfold advanceTime
  have e : (state s).e.tn + (state s).c.hh = -(s.e.tn + s.c.hh) := L.add _ _
  simp only [e]
  have ht : (state s).tstop = s.tstop.map fun T => -T := rfl
  cases h : s.tstop with
  | none =>
    rw [h] at ht
    simp only [ht, Option.map_none]
    unfold state
    rw [h]
    rfl
  | some T =>
    rw [h] at ht
    simp only [ht, Option.map_some]
    have e2 : (-(s.e.tn + s.c.hh) - -T) * (state s).c.hh = (s.e.tn + s.c.hh - T) * s.c.hh := L.side _ _ _
    rw [e2]
    by_cases hg : Scalar.gt ((s.e.tn + s.c.hh - T) * s.c.hh) 1 = true
    · simp only [if_pos hg]; unfold state; rw [h]; rfl
    · simp only [if_neg hg]; unfold state; rw [h]; rfl

theorem predict_mirror : predict (state s) = (predict s).map state := by
  unfold predict
  refine ite_conv (Option.map state) Iff.rfl (fun _ => ?_) (fun _ => rfl)
  have e := forUp_conv (f := fun j y => scaledAdd y (s.h.gamma (j + 1)) (s.h.phi (j + 1)))
    (f' := fun j y => scaledAdd y (-(s.h.gamma (j + 1))) (s.h.phi (j + 1))) (fun _ (v : Vec n K) => -v) s.c.kk
    (fun i x _ => L.scaled _ _ _) vzero
  rw [L.vzero'] at e
  rw [show forUp (state s).c.kk (fun j y => scaledAdd y ((state s).h.gamma (j + 1)) ((state s).h.phi (j + 1))) vzero = _ from e]
  rfl

theorem nlsPrepare_mirror : nlsPrepare (state s) = (mem (nlsPrepare s).1, (nlsPrepare s).2) := by
  unfold nlsPrepare
  have e2 : Scalar.neb (state s).e.cj (state s).c.cjlast = Scalar.neb s.e.cj s.c.cjlast := congrArg (!·) (L.eq _ _)
  have e3 : ∀ x : K, (state s).e.cj / -x = s.e.cj / x := fun x => L.dd _ _
  simp only [e2]
  by_cases h1 : s.cnt.nst = 0
  · simp only [show (state s).cnt.nst = s.cnt.nst from rfl, h1, decide_true, if_true, Bool.true_or]
    rw [show (state s).e.cj / (state s).e.cj = s.e.cj / s.e.cj from L.dd _ _]
    split <;> rfl
  · simp only [show (state s).cnt.nst = s.cnt.nst from rfl, decide_eq_false h1, Bool.false_eq_true, if_false, Bool.false_or]
    rw [show (state s).e.cj / (state s).m.cjold = s.e.cj / s.m.cjold from L.dd _ _]
    split <;> rfl

end

section
variable (L : TwoWay K) (cfg : Cfg ν n q K) {P' : Problem n q K} {S' : NlSolver ν n K} (H : Fits cfg P' S') (s : State ν n q K)

local notation "cfg'" => conf cfg P' S'

include L H in
theorem nonlinearSolve_mirror : nonlinearSolve cfg' (state s) = (nonlinearSolve cfg s).onS state := by
  unfold nonlinearSolve
  simp only [nlsPrepare_mirror L]
  rw [show (conf cfg P' S').nls.solve (state s).nls (state s).e (mem (nlsPrepare s).1) vzero (state s).ee
    (state s).e.ewt (state s).epsNewt (nlsPrepare s).2 = _ from H.nls s.nls s.e (nlsPrepare s).1 vzero s.ee s.e.ewt s.epsNewt (nlsPrepare s).2]
  cases cfg.nls.solve s.nls s.e (nlsPrepare s).1 vzero s.ee s.e.ewt s.epsNewt (nlsPrepare s).2 with
  | panic => rfl
  | diverge => rfl
  | ret N m ee r =>
    simp only [nlOut]
    rw [show scaledAdd (state s).e.yppredict (state s).e.cj ee = -(scaledAdd s.e.yppredict s.e.cj ee) from L.scaled _ _ _]
    cases r with
    | error e => rfl
    | ok u => exact ite_conv (Out.onS state) Iff.rfl (fun _ => rfl) (fun _ => rfl)

theorem testError_mirror (ck : K) : testError cfg' (state s) ck = (testError cfg s ck).map pr := by
  unfold testError
  exact ite_conv (Option.map pr) Iff.rfl (fun _ => rfl) (fun _ => rfl)

include L H in
theorem trial_mirror : trial cfg' (state s) = (trial cfg s).onS state := by
  unfold trial
  rw [setCoeffs_mirror L]
  cases setCoeffs s with
  | none => rfl
  | some p =>
    obtain ⟨s, ck⟩ := p
    simp only [Option.map_some, pr]
    rw [advanceTime_mirror L, predict_mirror L]
    cases predict (advanceTime s) with
    | none => rfl
    | some s =>
      simp only [Option.map_some]
      rw [nonlinearSolve_mirror L cfg H]
      cases nonlinearSolve cfg s with
      | panic => rfl
      | diverge => rfl
      | ret s r' =>
        cases r' with
        | error e => rfl
        | ok u =>
          simp only [Out.onS]
          rw [testError_mirror]
          cases testError cfg s ck with
          | none => rfl
          | some p => rfl

include L in
theorem restore_mirror (t : K) : restore (state s) (-t) = (restore s t).map state := by
  unfold restore
  refine ite_conv (Option.map state) Iff.rfl (fun _ => ?_) (fun _ => rfl)
  have e := forUp_conv (f := fun j0 p => upd p j0 (p (j0 + 1) - s.c.hh)) (f' := fun j0 p => upd p j0 (p (j0 + 1) - -s.c.hh))
    (fun _ (p : Nat → K) => fun j => -(p j)) s.c.kk (fun i x _ => by
      rw [L.sub]
      funext j; unfold upd; split <;> rfl) s.h.psi
  simp only
  rw [show forUp (state s).c.kk (fun j0 p => upd p j0 (p (j0 + 1) - (state s).c.hh)) (state s).h.psi = _ from e]
  rfl

include L in
theorem handleNFlag_mirror (e : Err) (a b : K) (f : Fails) :
    handleNFlag cfg' (state s) e a b f = (handleNFlag cfg s e a b f).map pr := by
  unfold handleNFlag
  have e1 : ∀ r : K, (state s).c.hh * r = -(s.c.hh * r) := fun r => L.mul _ _
  cases e with
  | other m => rfl
  | nl e => rfl
  | ida e =>
    cases e with
    | testFail =>
      refine ite_conv (Option.map pr) Iff.rfl (fun _ => ?_) (fun _ => ?_)
      · simp only [e1]; rfl
      refine ite_conv (Option.map pr) Iff.rfl (fun _ => ?_) (fun _ => ?_)
      · simp only [e1]; rfl
      refine ite_conv (Option.map pr) Iff.rfl (fun _ => ?_) (fun _ => ?_)
      · simp only [e1]; rfl
      · rfl
    | recoverableFail rec =>
      simp only [e1]
      exact ite_conv (Option.map pr) Iff.rfl (fun _ => rfl) (fun _ => rfl)
    | _ => rfl

theorem reset_mirror : reset (state s) = state (reset s) := by
  unfold reset
  have e : upd (state s).h.psi 0 (state s).c.hh = fun j => -(upd s.h.psi 0 s.c.hh j) := by
    funext j; unfold upd; split <;> rfl
  rw [e]
  rfl

theorem points_mirror (t : K) : (state s).points (-t) = (s.points t).map point := by
  unfold State.points
  exact ite_conv (List.map point) Iff.rfl (fun _ => rfl) (fun _ => rfl)

theorem note_mirror (t ck : K) (o : AttOut) : (state s).note (-t) ck o = state (s.note t ck o) := by
  unfold State.note
  rw [points_mirror]
  rfl

theorem noteAcc_mirror (t : K) : (state s).noteAcc (-t) = state (s.noteAcc t) := by
  unfold State.noteAcc
  rw [points_mirror]
  rfl

include L in
theorem attemptFailed_mirror (t : K) (e : Err) (a b : K) (f : Fails) :
    attemptFailed cfg' (-t) (state s) e a b f = (attemptFailed cfg t s e a b f).onS state := by
  unfold attemptFailed
  rw [restore_mirror L]
  cases restore s t with
  | none => rfl
  | some s =>
    simp only [Option.map_some]
    rw [handleNFlag_mirror L]
    cases handleNFlag cfg s e a b f with
    | none => rfl
    | some p =>
      obtain ⟨s, f, r'⟩ := p
      cases r' with
      | error e => rfl
      | ok u =>
        simp only [Option.map_some]
        exact congrArg (fun s => Attempt.again s f) (ite_conv state Iff.rfl (fun _ => reset_mirror s) (fun _ => rfl))

include L H in
theorem attempt_mirror (t : K) (f : Fails) : attempt cfg' (-t) (state s) f = (attempt cfg t s f).onS state := by
  unfold attempt
  rw [trial_mirror L cfg H]
  cases trial cfg s with
  | panic => rfl
  | diverge => rfl
  | nlsFail s ck e =>
    simp only [Trial.onS]
    rw [note_mirror]
    exact attemptFailed_mirror L cfg (s.note t ck (.nlsFail e)) t e _ _ f
  | tested s ck p =>
    simp only [Trial.onS]
    rw [note_mirror, note_mirror, noteAcc_mirror]
    exact ite_conv (Attempt.onS state) Iff.rfl (fun _ => rfl)
      (fun _ => attemptFailed_mirror L cfg (s.note t ck .testFail) t _ _ _ f)

theorem markPhase_mirror : markPhase cfg' (state s) = state (markPhase cfg s) := by
  unfold markPhase
  exact ite_conv state Iff.rfl (fun _ => rfl) (fun _ => rfl)

include L in
theorem doubled_mirror (hh : K) : doubled cfg' (-hh) = -(doubled cfg hh) := by
  unfold doubled
  simp only [L.mul', L.abs]
  exact ite_conv (fun x : K => -x) Iff.rfl (fun _ => L.div _ _) (fun _ => rfl)

include L in
theorem selectStep_mirror (hh : K) (kk : Nat) (err : K) :
    selectStep cfg' (-hh) kk err = ((selectStep cfg hh kk err).1, -(selectStep cfg hh kk err).2) := by
  unfold selectStep
  refine ite_conv (fun p : K × K => (p.1, -p.2)) Iff.rfl (fun _ => ?_) (fun _ => ?_)
  · simp only [doubled_mirror L]
  refine ite_conv (fun p : K × K => (p.1, -p.2)) Iff.rfl (fun _ => ?_) (fun _ => rfl)
  simp only [L.mul]

theorem orderAction_mirror (d : Bool) (a b : K) : orderAction cfg' (state s) d a b = orderAction cfg s d a b := rfl

include L in
theorem chooseNext_mirror (d : Bool) (a b : K) : chooseNext cfg' (state s) d a b = (chooseNext cfg s d a b).map state := by
  unfold chooseNext
  rw [orderAction_mirror]
  refine ite_conv (Option.map state) Iff.rfl (fun _ => ?_) (fun _ => ?_)
  · refine ite_conv (Option.map state) Iff.rfl (fun _ => ?_) (fun _ => rfl)
    rw [show doubled (conf cfg P' S') (state s).c.hh = _ from doubled_mirror L cfg s.c.hh]
    rfl
  · cases orderAction cfg s d a b with
    | none => rfl
    | some p =>
      obtain ⟨act, e⟩ := p
      have e1 : ∀ k x, selectStep (conf cfg P' S') (state s).c.hh k x = ((selectStep cfg s.c.hh k x).1, -(selectStep cfg s.c.hh k x).2) :=
        fun k x => selectStep_mirror L cfg s.c.hh k x
      simp only [e1]
      cases act <;> rfl

include L in
theorem completeStep_mirror (a b : K) : completeStep cfg' (state s) a b = (completeStep cfg s a b).map state := by
  unfold completeStep
  show (if s.c.kk = 0 then none else
    match chooseNext (conf cfg P' S') (markPhase (conf cfg P' S')
      (state { s with cnt.nst := s.cnt.nst + 1, c.kused := s.c.kk, c.hused := s.c.hh }))
      (decide (s.c.kk = s.c.kused + 1)) a b with
    | none => none
    | some t =>
      if s.c.kk < mxordp1 ∧ (s.c.kk < cfg.maxord → s.c.kk + 1 < mxordp1) then
        some { t with h.phi := updatePhi cfg.maxord s.c.kk t.ee t.h.phi }
      else none) = _
  rw [markPhase_mirror, chooseNext_mirror L]
  refine ite_conv (Option.map state) Iff.rfl (fun _ => rfl) (fun _ => ?_)
  cases chooseNext cfg (markPhase cfg { s with cnt.nst := s.cnt.nst + 1, c.kused := s.c.kk, c.hused := s.c.hh })
    (decide (s.c.kk = s.c.kused + 1)) a b with
  | none => rfl
  | some t => exact ite_conv (Option.map state) Iff.rfl (fun _ => rfl) (fun _ => rfl)

include L H in
theorem stepLoop_mirror (t : K) (fuel : Nat) : ∀ (s : State ν n q K) (f : Fails),
    stepLoop cfg' (-t) fuel (state s) f = (stepLoop cfg t fuel s f).onS state := by
  induction fuel with
  | zero => intro s f; rfl
  | succ fuel ih =>
    intro s f
    unfold stepLoop
    rw [attempt_mirror L cfg H]
    cases attempt cfg t s f with
    | panic => rfl
    | diverge => rfl
    | again s f => exact ih _ _
    | fail s e => rfl
    | done s a b c =>
      simp only [Attempt.onS]
      rw [completeStep_mirror L]
      cases completeStep cfg s b c with
      | none => rfl
      | some s => rfl

include L H in
theorem step_mirror : step cfg' (state s) = (step cfg s).onS state := by
  unfold step
  rw [firstStepInit_mirror L]
  exact stepLoop_mirror L cfg H _ _ _ _

end

end Spec.Mirror

end Verif
