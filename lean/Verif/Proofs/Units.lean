import Verif.Spec.Units
import Verif.Proofs.Norm
import Verif.Model.Solve
import Mathlib.Tactic.FieldSimp

/-! # Change of units: one internal step -/

set_option autoImplicit false
set_option linter.unusedSectionVars false
set_option linter.unusedSimpArgs false
set_option linter.unusedVariables false

namespace Verif

universe u v

section
variable {n q : Nat} {K : Type u} [Field K] [LinearOrder K] [IsStrictOrderedRing K] [ExactParams K]

theorem forUp_map {σ τ : Type u} {f : Nat → σ → σ} {f' : Nat → τ → τ} (c : σ → τ) (h : ∀ i x, f' i (c x) = c (f i x))
    (k : Nat) (x : σ) : forUp k f' (c x) = c (forUp k f x) := by
  induction k with
  | zero => rfl
  | succ k ih => rw [forUp_succ, forUp_succ, ih, h]

theorem upd_map {α β : Type u} (f : α → β) (p : Nat → α) (i : Nat) (v : α) :
    upd (fun j => f (p j)) i (f v) = fun j => f (upd p i v j) := by
  funext j; unfold upd; split <;> rfl

namespace Change
variable (C : Change n K)

/-! ## Vectors -/

theorem vec_vadd (a b : Vec n K) : vadd (C.vec a) (C.vec b) = C.vec (vadd a b) := by
  funext i; simp only [vadd, vec]; ring

theorem vec_vsub (a b : Vec n K) : vsub (C.vec a) (C.vec b) = C.vec (vsub a b) := by
  funext i; simp only [vsub, vec]; ring

theorem vec_vscale (c : K) (a : Vec n K) : vscale c (C.vec a) = C.vec (vscale c a) := by
  funext i; simp only [vscale, vec]; ring

theorem vec_zero : (vzero : Vec n K) = C.vec vzero := by
  funext i; simp only [vzero, vec]; ring

theorem rate_zero : (vzero : Vec n K) = C.rate vzero := by
  funext i; simp only [vzero, rate]; ring

theorem vec_scaledAdd (y : Vec n K) (c : K) (x : Vec n K) : scaledAdd (C.vec y) c (C.vec x) = C.vec (scaledAdd y c x) := by
  funext i; simp only [scaledAdd, vec]; ring

theorem rate_scaledAdd (y : Vec n K) (c : K) (x : Vec n K) :
    scaledAdd (C.rate y) (c / C.σ) (C.vec x) = C.rate (scaledAdd y c x) := by
  funext i; simp only [scaledAdd, vec, rate]; ring

theorem vec_rate (y : Vec n K) (c : K) (x : Vec n K) :
    scaledAdd (C.vec y) (C.σ * c) (C.rate x) = C.vec (scaledAdd y c x) := by
  have := C.hσ
  funext i; simp only [scaledAdd, vec, rate]; field_simp

theorem vscale_rate (c : K) (a : Vec n K) : vscale (C.σ * c) (C.rate a) = C.vec (vscale c a) := by
  have := C.hσ
  funext i; simp only [vscale, vec, rate]; field_simp

theorem wt_zero : (vzero : Vec n K) = C.wt vzero := by
  funext i; simp only [vzero, wt]; ring

theorem term_eq (x w : Vec n K) (i : Fin n) :
    (C.vec x i * C.wt w i) * (C.vec x i * C.wt w i) = (x (C.π i) * w (C.π i)) * (x (C.π i) * w (C.π i)) := by
  have h := C.hd i
  have h2 : |C.d i| ≠ 0 := abs_ne_zero.2 h
  have h3 : |C.d i| * |C.d i| = C.d i * C.d i := abs_mul_abs_self _
  simp only [vec, wt]
  field_simp
  rw [pow_two |C.d i|, h3]; ring

theorem norm_eq (x w : Vec n K) : normWrms (C.vec x) (C.wt w) = normWrms x w := by
  unfold normWrms
  rw [Proofs.Norm.vsum_eq, Proofs.Norm.vsum_eq]
  congr 2
  rw [← Equiv.sum_comp C.π (fun i => (x i * w i) * (x i * w i))]
  exact Finset.sum_congr rfl fun i _ => C.term_eq x w i

theorem normMasked_eq (x w : Vec n K) (id : Fin n → Bool) :
    normWrmsMasked (C.vec x) (C.wt w) (fun i => id (C.π i)) = normWrmsMasked x w id := by
  unfold normWrmsMasked
  dsimp only
  rw [Proofs.Norm.vsum_eq, Proofs.Norm.vsum_eq]
  congr 2
  rw [← Equiv.sum_comp C.π (fun i => (x i * w i * (if id i then (1 : K) else 0)) * (x i * w i * (if id i then (1 : K) else 0)))]
  refine Finset.sum_congr rfl fun i _ => ?_
  have := C.term_eq x w i
  split
  · simpa using this
  · simp

theorem wrms_eq (x w : Vec n K) (id : Fin n → Bool) (b : Bool) :
    wrmsNorm (fun i => id (C.π i)) (C.vec x) (C.wt w) b = wrmsNorm id x w b := by
  unfold wrmsNorm
  split
  · exact C.normMasked_eq x w id
  · exact C.norm_eq x w


/-! ## The parts of the state -/

/-- The data of the nonlinear solver that are not determined by those of the other history. -/
structure Junk (n : Nat) (K : Type u) where
  delta : Vec n K
  matJ : Mat K
  piv : Nat → Nat

/-- `raw`: `phi[1]` still contains the initial derivative. -/
def hist (raw : Bool) (h : Hist n K) : Hist n K where
  phi j := if raw = true ∧ j = 1 then C.rate (h.phi 1) else C.vec (h.phi j)
  psi j := C.σ * h.psi j
  alpha := h.alpha
  beta := h.beta
  sigma := h.sigma
  gamma j := h.gamma j / C.σ

def ctl (c : Ctl K) : Ctl K := { c with hh := C.σ * c.hh, hused := C.σ * c.hused, cjlast := c.cjlast / C.σ }

def env (e : Env n K) : Env n K where
  tn := C.σ * e.tn
  yypredict := C.vec e.yypredict
  yppredict := C.rate e.yppredict
  ewt := C.wt e.ewt
  toldel := e.toldel
  cj := e.cj / C.σ

def ucall : UCall n K → UCall n K
  | .res t y yp => .res (C.σ * t) (C.vec y) (C.rate yp)
  | .jac t cj y yp r => .jac (C.σ * t) (cj / C.σ) (C.vec y) (C.rate yp) (C.E r)
  | .root t y yp => .root (C.σ * t) (C.vec y) (C.rate yp)

def mem (J : Junk n K) (m : Mem n K) : Mem n K :=
  { m with
    yy := C.vec m.yy, yp := C.rate m.yp, savres := C.E m.savres, cjold := m.cjold / C.σ, matJ := J.matJ, piv := J.piv
    x := C.vec m.x, log := m.log.map C.ucall }

def rootSt (r : RootSt q K) : RootSt q K :=
  { r with tlo := C.σ * r.tlo, thi := C.σ * r.thi, trout := C.σ * r.trout, toutc := C.σ * r.toutc, ttol := |C.σ| * r.ttol }

def point (p : K × Vec n K) : K × Vec n K := (C.σ * p.1, C.vec p.2)

def att (a : Att n K) : Att n K where
  before := a.before.map C.point
  t0 := C.σ * a.t0
  tnew := C.σ * a.tnew
  hh := C.σ * a.hh
  kk := a.kk
  ck := a.ck
  cj := a.cj / C.σ
  pred := C.vec a.pred
  predp := C.rate a.predp
  ewt := C.wt a.ewt
  ee := C.vec a.ee
  yy := C.vec a.yy
  yp := C.rate a.yp
  stop := a.stop.map (C.σ * ·)
  out := a.out

abbrev St (n q : Nat) (K : Type u) := State (Newton (Vec n K)) n q K

def st (raw : Bool) (J : Junk n K) (s : St n q K) : St n q K where
  setupDone := s.setupDone
  h := C.hist raw s.h
  c := C.ctl s.c
  e := C.env s.e
  m := C.mem J s.m
  delta := C.vec s.delta
  ee := C.vec s.ee
  cnt := s.cnt
  r := C.rootSt s.r
  perf := s.perf
  nls := { s.nls with delta := J.delta }
  tstop := s.tstop.map (C.σ * ·)
  h0u := C.σ * s.h0u
  tretlast := C.σ * s.tretlast
  epsNewt := s.epsNewt
  tolsf := s.tolsf
  tret := C.σ * s.tret
  g := { atts := s.g.atts.map C.att, acc := s.g.acc.map C.point }

/-! ## Coefficients -/

theorem hist_phi (h : Hist n K) : (C.hist false h).phi = fun j => C.vec (h.phi j) := by
  funext j; simp [hist]

def coefLoop (l : CoefLoop K) : CoefLoop K :=
  { l with temp1 := C.σ * l.temp1, psi := fun j => C.σ * l.psi j, gamma := fun j => l.gamma j / C.σ }

theorem coefPass_conv (hh : K) (i : Nat) (l : CoefLoop K) :
    coefPass (C.σ * hh) i (C.coefLoop l) = C.coefLoop (coefPass hh i l) := by
  have hσ := C.hσ
  have e1 : C.σ * l.psi i + C.σ * hh = C.σ * (l.psi i + hh) := by ring
  have e2 : l.beta i * (C.σ * l.temp1) / (C.σ * l.psi i) = l.beta i * l.temp1 / l.psi i := by
    rw [mul_left_comm, mul_div_mul_left _ _ hσ]
  have e3 : C.σ * hh / (C.σ * (l.psi i + hh)) = hh / (l.psi i + hh) := mul_div_mul_left _ _ hσ
  simp only [coefPass, coefLoop, Nat.add_sub_cancel, upd_same, e1, e2, e3, CoefLoop.mk.injEq, true_and]
  refine ⟨upd_map (C.σ * ·) l.psi i l.temp1, ?_⟩
  rw [← upd_map (· / C.σ) l.gamma (i + 1)]
  congr 1
  rw [add_div, div_div, mul_comm hh]

theorem recompute_conv (kk : Nat) (hh : K) (h : Hist n K) :
    recompute kk (C.σ * hh) (C.hist false h) = C.hist false (recompute kk hh h) := by
  have key := forUp_map C.coefLoop (C.coefPass_conv hh) kk
    { temp1 := hh, psi := h.psi, alpha := upd h.alpha 0 1, beta := upd h.beta 0 1, sigma := upd h.sigma 0 1
      gamma := upd h.gamma 0 0 }
  have e0 : (upd (fun j => h.gamma j / C.σ) 0 (0 : K)) = fun j => upd h.gamma 0 0 j / C.σ := by
    rw [← upd_map (· / C.σ)]; simp
  simp only [recompute, hist, e0]
  simp only [coefLoop] at key
  rw [key]
  simp only [Hist.mk.injEq, true_and, and_true]
  exact upd_map (C.σ * ·) _ _ _

theorem nextNs_conv (c : Ctl K) : nextNs (C.ctl c) = nextNs c := by
  have : (C.σ * c.hh = C.σ * c.hused) ↔ c.hh = c.hused := mul_right_inj' C.hσ
  have h : (decide (C.σ * c.hh = C.σ * c.hused)) = decide (c.hh = c.hused) := decide_eq_decide.2 this
  simp only [nextNs, ctl, Scalar.neb, ex_eqb, h]
  rfl

theorem scalePhi_conv (phi : Nat → Vec n K) (c : Nat → K) (lo hi : Nat) :
    scalePhi (fun j => C.vec (phi j)) c lo hi = fun j => C.vec (scalePhi phi c lo hi j) := by
  funext j
  unfold scalePhi
  split
  · exact C.vec_vscale _ _
  · rfl

theorem setCoeffs_conv (J : Junk n K) (s : St n q K) :
    setCoeffs (C.st false J s) = (setCoeffs s).map fun p => (C.st false J p.1, p.2) := by
  unfold setCoeffs
  have e1 : (C.st false J s).c = C.ctl s.c := rfl
  simp only [e1, C.nextNs_conv]
  have e2 : (C.ctl s.c).kk = s.c.kk := rfl
  have e3 : (C.ctl s.c).hh = C.σ * s.c.hh := rfl
  have e4 : (C.st false J s).h = C.hist false s.h := rfl
  simp only [e2, e3, e4, C.recompute_conv]
  split
  · simp only [Option.map_some, Option.some.injEq]
    have e5 : (if s.c.kk + 1 ≥ nextNs s.c then C.hist false (recompute s.c.kk s.c.hh s.h) else C.hist false s.h) =
        C.hist false (if s.c.kk + 1 ≥ nextNs s.c then recompute s.c.kk s.c.hh s.h else s.h) := by split <;> rfl
    rw [e5]
    generalize (if s.c.kk + 1 ≥ nextNs s.c then recompute s.c.kk s.c.hh s.h else s.h) = h
    have e6 : (C.hist false h).alpha = h.alpha := rfl
    have e7 : (C.hist false h).beta = h.beta := rfl
    rw [e6, e7, C.hist_phi, C.scalePhi_conv]
    have e8 : (if nextNs s.c ≤ s.c.kk then fun j => C.vec (scalePhi h.phi h.beta (nextNs s.c) s.c.kk j) else
        fun j => C.vec (h.phi j)) =
        fun j => C.vec ((if nextNs s.c ≤ s.c.kk then scalePhi h.phi h.beta (nextNs s.c) s.c.kk else h.phi) j) := by
      split <;> rfl
    have e9 : -(alphaSums h.alpha s.c.kk).1 / (C.σ * s.c.hh) = -(alphaSums h.alpha s.c.kk).1 / s.c.hh / C.σ := by
      rw [div_div, mul_comm]
    rw [e8, e9]
    simp [st, hist, ctl, env]
  · rfl

theorem predict_conv (J : Junk n K) (s : St n q K) :
    predict (C.st false J s) = (predict s).map (C.st false J) := by
  unfold predict
  have e2 : (C.st false J s).c.kk = s.c.kk := rfl
  rw [e2]
  split
  · simp only [Option.map_some, Option.some.injEq]
    have e4 : (C.st false J s).h = C.hist false s.h := rfl
    have k1 := forUp_map C.vec (f := fun j y => vadd y (s.h.phi j)) (f' := fun j y => vadd y (C.vec (s.h.phi j)))
      (fun i x => C.vec_vadd _ _) (s.c.kk + 1) vzero
    have k2 := forUp_map C.rate (f := fun j y => scaledAdd y (s.h.gamma (j + 1)) (s.h.phi (j + 1)))
      (f' := fun j y => scaledAdd y (s.h.gamma (j + 1) / C.σ) (C.vec (s.h.phi (j + 1))))
      (fun i x => C.rate_scaledAdd _ _ _) s.c.kk vzero
    rw [← C.vec_zero] at k1
    rw [← C.rate_zero] at k2
    have e5 : (C.hist false s.h).gamma = fun j => s.h.gamma j / C.σ := rfl
    rw [e4, C.hist_phi, e5]
    simp only [k1, k2]
    rfl
  · rfl

theorem advanceTime_conv (J : Junk n K) (s : St n q K) (ht : s.tstop = none) :
    advanceTime (C.st false J s) = C.st false J (advanceTime s) := by
  have e : (C.st false J s).tstop = none := by simp [st, ht]
  unfold advanceTime
  rw [e, ht]
  have : C.σ * s.e.tn + C.σ * s.c.hh = C.σ * (s.e.tn + s.c.hh) := by ring
  simp [st, env, ctl, this, ht]

/-- The configurations of the two histories. -/
structure Cfgs (cfg cfg' : Cfg (Newton (Vec n K)) n q K) : Prop where
  prob : C.Problems cfg.prob cfg'.prob
  ewt : ∀ y b b', cfg'.ewtSet (C.vec y) b' = C.wt (cfg.ewtSet y b)
  nls : ∃ fuel, cfg.nls = newtonNls cfg.prob fuel ∧ cfg'.nls = newtonNls cfg'.prob fuel
  maxord : cfg'.maxord = cfg.maxord
  mxstep : cfg'.mxstep = cfg.mxstep
  maxnef : cfg'.maxnef = cfg.maxnef
  maxncf : cfg'.maxncf = cfg.maxncf
  hmaxInv : cfg'.hmaxInv = cfg.hmaxInv / |C.σ|
  hin : cfg'.hin = C.σ * cfg.hin
  epcon : cfg'.epcon = cfg.epcon
  suppressalg : cfg'.suppressalg = cfg.suppressalg
  constraintsSet : cfg'.constraintsSet = cfg.constraintsSet
  id : cfg'.id = fun i => cfg.id (C.π i)
  rootdir : cfg'.rootdir = cfg.rootdir

variable {C} {cfg cfg' : Cfg (Newton (Vec n K)) n q K}

theorem testError_conv (hc : C.Cfgs cfg cfg') (J : Junk n K) (s : St n q K) (ck : K) :
    testError cfg' (C.st false J s) ck = (testError cfg s ck).map fun p => (C.st false J p.1, p.2) := by
  unfold testError
  have e2 : (C.st false J s).c.kk = s.c.kk := rfl
  have e3 : (C.st false J s).e.ewt = C.wt s.e.ewt := rfl
  have e4 : (C.st false J s).h.phi = fun j => C.vec (s.h.phi j) := C.hist_phi s.h
  have e5 : (C.st false J s).ee = C.vec s.ee := rfl
  have e6 : (C.st false J s).h.sigma = s.h.sigma := rfl
  have e7 : (C.st false J s).delta = C.vec s.delta := rfl
  simp only [e2, e3, e4, e5, e6, e7, hc.suppressalg, hc.id, C.vec_vadd, C.wrms_eq]
  split
  · simp only [Option.map_some, Option.some.injEq]
    split
    · split <;> rfl
    · rfl
  · rfl

theorem restore_conv (J : Junk n K) (s : St n q K) (t : K) :
    restore (C.st false J s) (C.σ * t) = (restore s t).map (C.st false J) := by
  unfold restore
  have e1 : (C.st false J s).c.kk = s.c.kk := rfl
  have e2 : (C.st false J s).c.ns = s.c.ns := rfl
  have e3 : (C.st false J s).c.hh = C.σ * s.c.hh := rfl
  have e4 : (C.st false J s).h.phi = fun j => C.vec (s.h.phi j) := C.hist_phi s.h
  have e5 : (C.st false J s).h.beta = s.h.beta := rfl
  have e6 : (C.st false J s).h.psi = fun j => C.σ * s.h.psi j := rfl
  simp only [e1, e2, e3, e4, e5, e6]
  split
  · simp only [Option.map_some, Option.some.injEq]
    have k := forUp_map (fun (p : Nat → K) j => C.σ * p j) (f := fun j0 p => upd p j0 (p (j0 + 1) - s.c.hh))
      (f' := fun j0 p => upd p j0 (p (j0 + 1) - C.σ * s.c.hh))
      (fun i x => by rw [← mul_sub]; exact upd_map (C.σ * ·) _ _ _) s.c.kk s.h.psi
    rw [k, C.scalePhi_conv]
    have e8 : (if s.c.ns ≤ s.c.kk then fun j => C.vec (scalePhi s.h.phi (fun j => Scalar.recip (s.h.beta j)) s.c.ns s.c.kk j)
        else fun j => C.vec (s.h.phi j)) =
        fun j => C.vec ((if s.c.ns ≤ s.c.kk then scalePhi s.h.phi (fun j => Scalar.recip (s.h.beta j)) s.c.ns s.c.kk
          else s.h.phi) j) := by split <;> rfl
    rw [e8]
    simp [st, hist, env]
  · rfl

theorem handleNFlag_conv (hc : C.Cfgs cfg cfg') (J : Junk n K) (s : St n q K) (err : Err) (errk errkm1 : K) (f : Fails) :
    handleNFlag cfg' (C.st false J s) err errk errkm1 f =
      (handleNFlag cfg s err errk errkm1 f).map fun p => (C.st false J p.1, p.2) := by
  unfold handleNFlag
  have a : ∀ r : K, C.σ * s.c.hh * r = C.σ * (s.c.hh * r) := fun r => mul_assoc _ _ _
  cases err with
  | ida e =>
    cases e with
    | testFail =>
      dsimp only
      rw [hc.maxnef]
      simp only [st, ctl, a]
      split
      · rfl
      · split
        · rfl
        · split <;> rfl
    | recoverableFail rec =>
      dsimp only
      rw [hc.maxncf]
      simp only [st, ctl, a]
      split <;> rfl
    | _ => rfl
  | nl e => rfl
  | other m => rfl

theorem reset_conv (J : Junk n K) (s : St n q K) : reset (C.st false J s) = C.st false J (reset s) := by
  unfold reset
  have e1 : (C.st false J s).h.phi = fun j => C.vec (s.h.phi j) := C.hist_phi s.h
  have e2 : (C.st false J s).h.psi = fun j => C.σ * s.h.psi j := rfl
  have e3 : (C.st false J s).c.hh = C.σ * s.c.hh := rfl
  have e4 : (C.st false J s).c.rr = s.c.rr := rfl
  have e5 : (upd (fun j => C.σ * s.h.psi j) 0 (C.σ * s.c.hh)) = fun j => C.σ * upd s.h.psi 0 s.c.hh j :=
    upd_map (C.σ * ·) _ _ _
  simp only [e1, e2, e3, e4, e5, C.vec_vscale]
  simp only [st, hist, State.mk.injEq, Hist.mk.injEq, true_and, and_true]
  funext j
  simp only [Bool.false_eq_true, false_and, if_false]
  split <;> rfl

theorem doubled_conv (hc : C.Cfgs cfg cfg') (hh : K) : doubled cfg' (C.σ * hh) = C.σ * doubled cfg hh := by
  have h2 : |C.σ| ≠ 0 := abs_ne_zero.2 C.hσ
  unfold doubled
  have e : Scalar.abs (Scalar.two * (C.σ * hh)) * cfg'.hmaxInv = Scalar.abs (Scalar.two * hh) * cfg.hmaxInv := by
    rw [hc.hmaxInv]
    simp only [ex_abs, ex_two]
    rw [mul_left_comm, abs_mul C.σ]
    field_simp
  simp only [e]
  split
  · rw [mul_left_comm, mul_div_assoc]
  · rw [mul_left_comm]

theorem orderAction_conv (hc : C.Cfgs cfg cfg') (J : Junk n K) (s : St n q K) (kd : Bool) (errk errkm1 : K) :
    orderAction cfg' (C.st false J s) kd errk errkm1 = orderAction cfg s kd errk errkm1 := by
  unfold orderAction
  have e1 : (C.st false J s).c.kk = s.c.kk := rfl
  have e2 : (C.st false J s).c.knew = s.c.knew := rfl
  have e3 : (C.st false J s).c.ns = s.c.ns := rfl
  have e4 : (C.st false J s).h.phi = fun j => C.vec (s.h.phi j) := C.hist_phi s.h
  have e5 : (C.st false J s).ee = C.vec s.ee := rfl
  have e6 : (C.st false J s).e.ewt = C.wt s.e.ewt := rfl
  simp only [e1, e2, e3, e4, e5, e6, hc.maxord, hc.suppressalg, hc.id, C.vec_vsub, C.wrms_eq]

theorem selectStep_conv (hc : C.Cfgs cfg cfg') (hh : K) (kk : Nat) (errknew : K) :
    selectStep cfg' (C.σ * hh) kk errknew = ((selectStep cfg hh kk errknew).1, C.σ * (selectStep cfg hh kk errknew).2) := by
  unfold selectStep
  rw [doubled_conv hc]
  dsimp only
  split
  · rfl
  · split
    · simp only [mul_assoc]
    · rfl

theorem updatePhi_conv (maxord kused : Nat) (ee : Vec n K) (phi : Nat → Vec n K) :
    updatePhi maxord kused (C.vec ee) (fun j => C.vec (phi j)) = fun j => C.vec (updatePhi maxord kused ee phi j) := by
  unfold updatePhi
  have e : (if kused < maxord then upd (fun j => C.vec (phi j)) (kused + 1) (C.vec ee) else fun j => C.vec (phi j)) =
      fun j => C.vec ((if kused < maxord then upd phi (kused + 1) ee else phi) j) := by
    split
    · exact upd_map C.vec _ _ _
    · rfl
  simp only [e]
  generalize (if kused < maxord then upd phi (kused + 1) ee else phi) = p
  have k := forUp_map (fun (a : Vec n K × (Nat → Vec n K)) => (C.vec a.1, fun j => C.vec (a.2 j)))
    (f := fun i (a : Vec n K × (Nat → Vec n K)) => (vadd a.1 (a.2 (kused - i)), upd a.2 (kused - i) (vadd a.1 (a.2 (kused - i)))))
    (f' := fun i (a : Vec n K × (Nat → Vec n K)) => (vadd a.1 (a.2 (kused - i)), upd a.2 (kused - i) (vadd a.1 (a.2 (kused - i)))))
    (fun i x => by simp only [C.vec_vadd]; rw [upd_map C.vec]) (kused + 1) (ee, p)
  exact congrArg Prod.snd k

theorem markPhase_conv (hc : C.Cfgs cfg cfg') (J : Junk n K) (s : St n q K) :
    markPhase cfg' (C.st false J s) = C.st false J (markPhase cfg s) := by
  unfold markPhase
  rw [hc.maxord]
  have e1 : (C.st false J s).c.kk = s.c.kk := rfl
  have e2 : (C.st false J s).c.knew = s.c.knew := rfl
  rw [e1, e2]
  split <;> rfl

theorem chooseNext_conv (hc : C.Cfgs cfg cfg') (J : Junk n K) (s : St n q K) (kd : Bool) (errk errkm1 : K) :
    chooseNext cfg' (C.st false J s) kd errk errkm1 = (chooseNext cfg s kd errk errkm1).map (C.st false J) := by
  unfold chooseNext
  rw [orderAction_conv hc]
  have e1 : (C.st false J s).c.kk = s.c.kk := rfl
  have e2 : (C.st false J s).c.phase = s.c.phase := rfl
  have e3 : (C.st false J s).c.hh = C.σ * s.c.hh := rfl
  have e4 : (C.st false J s).cnt = s.cnt := rfl
  simp only [e1, e2, e3, e4, doubled_conv hc, selectStep_conv hc]
  split
  · split <;> rfl
  · cases orderAction cfg s kd errk errkm1 with
    | none => rfl
    | some p => rfl

theorem completeStep_conv (hc : C.Cfgs cfg cfg') (J : Junk n K) (s : St n q K) (errk errkm1 : K) :
    completeStep cfg' (C.st false J s) errk errkm1 = (completeStep cfg s errk errkm1).map (C.st false J) := by
  unfold completeStep
  have e1 : (C.st false J s).c.kk = s.c.kk := rfl
  have e2 : (C.st false J s).c.kused = s.c.kused := rfl
  simp only [e1, e2, hc.maxord]
  split
  · rfl
  · have e3 := chooseNext_conv hc J
      (markPhase cfg { s with cnt.nst := s.cnt.nst + 1, c.kused := s.c.kk, c.hused := s.c.hh })
      (decide (s.c.kk = s.c.kused + 1)) errk errkm1
    rw [← markPhase_conv hc] at e3
    erw [e3]
    cases chooseNext cfg (markPhase cfg { s with cnt.nst := s.cnt.nst + 1, c.kused := s.c.kk, c.hused := s.c.hh })
      (decide (s.c.kk = s.c.kused + 1)) errk errkm1 with
    | none => rfl
    | some s1 =>
      simp only [Option.map_some]
      split
      · simp only [Option.map_some, Option.some.injEq]
        have e4 : (C.st false J s1).h.phi = fun j => C.vec (s1.h.phi j) := C.hist_phi s1.h
        have e5 : (C.st false J s1).ee = C.vec s1.ee := rfl
        rw [e4, e5, updatePhi_conv]
        simp [st, hist]
      · rfl

theorem firstStepInit_conv (J : Junk n K) (s : St n q K) :
    firstStepInit (C.st false J s) = C.st false J (firstStepInit s) := by
  unfold firstStepInit
  have e1 : (C.st false J s).cnt = s.cnt := rfl
  rw [e1]
  split
  · have e5 : (upd (fun j => C.σ * s.h.psi j) 0 (C.σ * s.c.hh)) = fun j => C.σ * upd s.h.psi 0 s.c.hh j :=
      upd_map (C.σ * ·) _ _ _
    have e6 : (C.σ * s.c.hh)⁻¹ = s.c.hh⁻¹ / C.σ := by rw [mul_inv, mul_comm, div_eq_mul_inv]
    simp [st, hist, ctl, env, e5, e6]
  · rfl

theorem points_conv (J : Junk n K) (s : St n q K) (t0 : K) :
    (C.st false J s).points (C.σ * t0) = (s.points t0).map C.point := by
  unfold State.points
  have e1 : (C.st false J s).cnt = s.cnt := rfl
  rw [e1]
  split
  · have e4 : (C.st false J s).h.phi = fun j => C.vec (s.h.phi j) := C.hist_phi s.h
    rw [e4]; rfl
  · rfl

theorem note_conv (J : Junk n K) (s : St n q K) (t0 ck : K) (o : AttOut) :
    (C.st false J s).note (C.σ * t0) ck o = C.st false J (s.note t0 ck o) := by
  unfold State.note
  rw [points_conv]
  rfl

theorem noteAcc_conv (J : Junk n K) (s : St n q K) (t0 : K) :
    (C.st false J s).noteAcc (C.σ * t0) = C.st false J (s.noteAcc t0) := by
  unfold State.noteAcc
  rw [points_conv]
  rfl

end Change

end

end Verif
