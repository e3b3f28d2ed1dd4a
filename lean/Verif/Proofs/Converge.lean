import Verif.Proofs.CallLog
import Verif.Proofs.Order
import Verif.Proofs.FirstCall
import Verif.Proofs.Nls
import Verif.Spec.Converge

/-! # The convergence test in every history (any scalar type) -/

set_option autoImplicit false
set_option linter.unusedSectionVars false
set_option linter.unusedSimpArgs false
set_option linter.unusedVariables false

namespace Verif

open Verif.Spec

universe u v

section
variable {n q : Nat} {K : Type u} [Scalar K]

/-- The environment of the nonlinear solve of the attempt `x`. -/
structure EnvAt (e : Env n K) (x : Att n K) : Prop where
  tn : e.tn = x.tnew
  pred : e.yypredict = x.pred
  predp : e.yppredict = x.predp
  cj : e.cj = x.cj

theorem idaSys_at {P : Problem n q K} {e : Env n K} {x : Att n K} (he : EnvAt e x) (m : Mem n K) (c buf : Vec n K) :
    (idaSys P e m c buf).1.log = resAt x c :: m.log ∧ (idaSys P e m c buf).1.ss = m.ss ∧
    (idaSys P e m c buf).1.oldnrm = m.oldnrm ∧ (idaSys P e m c buf).1.yy = vadd x.pred c ∧
    (idaSys P e m c buf).1.yp = scaledAdd x.predp x.cj c := by
  unfold idaSys resAt
  simp only
  rw [he.tn, he.pred, he.predp, he.cj]
  simp

theorem idaCtest_test (e : Env n K) (m : Mem n K) (vw : NlsView) (d : Vec n K) (tol : K) (w : Vec n K)
    (ds : List (Vec n K)) (hc : vw.curIter = ds.length) (ho : ∀ d0 t, ds = d0 :: t → m.oldnrm = normWrms d0 w) :
    (idaCtest e m vw d tol w).1.log = m.log ∧
    (idaCtest e m vw d tol w).1.ss = (convTest w e.toldel tol m.ss ds d).1 ∧
    (∀ d0 t, ds ++ [d] = d0 :: t → (idaCtest e m vw d tol w).1.oldnrm = normWrms d0 w) ∧
    (idaCtest e m vw d tol w).2 = (match (convTest w e.toldel tol m.ss ds d).2 with
      | some b => .ok b
      | none => .err (.nl .convergenceRecover)) := by
  unfold idaCtest convTest
  simp only
  cases ds with
  | nil =>
    rw [if_pos (show vw.curIter = 0 from hc)]
    simp only
    by_cases h : Scalar.le (normWrms d w) (Scalar.pt0001 * e.toldel) = true
    · rw [if_pos h, h]
      refine ⟨rfl, rfl, fun d0 t he => ?_, rfl⟩
      simp only [List.nil_append, List.cons.injEq] at he
      rw [← he.1]
    · rw [if_neg h, Bool.eq_false_iff.2 h, Bool.false_or]
      refine ⟨rfl, rfl, fun d0 t he => ?_, rfl⟩
      simp only [List.nil_append, List.cons.injEq] at he
      rw [← he.1]
  | cons d0 t =>
    rw [if_neg (by rw [hc]; simp)]
    unfold rate
    rw [hc, ho d0 t rfl]
    simp only
    split
    · refine ⟨rfl, rfl, fun d1 t' he => ?_, rfl⟩
      simp only [List.cons_append, List.cons.injEq] at he
      rw [← he.1]
      exact ho d0 t rfl
    · refine ⟨rfl, rfl, fun d1 t' he => ?_, rfl⟩
      simp only [List.cons_append, List.cons.injEq] at he
      rw [← he.1]

theorem lsSolve_keeps {m m' : Mem n K} {b d : Vec n K} (h : lsSolve m b = some (m', d)) :
    m'.log = m.log ∧ m'.ss = m.ss ∧ m'.oldnrm = m.oldnrm := by
  unfold lsSolve at h
  split at h
  · cases h
  · cases h; exact ⟨rfl, rfl, rfl⟩

theorem corr_append (ds : List (Vec n K)) (d : Vec n K) : corr (ds ++ [d]) = corr ds + d := by
  unfold corr
  rw [List.foldl_append]
  rfl

/-- `'inner: loop`. -/
theorem newtonInner_conv {P : Problem n q K} {e : Env n K} {x : Att n K} {l : List (UCall n K)} (he : EnvAt e x)
    {tol S0 : K} (fuel : Nat) {N N' : Newton (Vec n K)} {m m' : Mem n K} {y' : Vec n K} {r : Except Err Unit}
    {calls : List (UCall n K)} {ds : List (Vec n K)} (hlog : m.log = calls ++ l)
    (hc : ConvCalls x e.toldel tol S0 calls (.residual ds m.ss)) (hcur : N.curiter = ds.length)
    (ho : ∀ d0 t, ds = d0 :: t → m.oldnrm = normWrms d0 x.ewt)
    (hd : newtonInner (idaNLProblem P e) tol x.ewt fuel N m (corr ds) = .done N' m' y' r) :
    ∃ calls' ds' v, m'.log = calls' ++ l ∧ ConvCalls x e.toldel tol S0 calls' (.tested ds' m'.ss v) ∧ y' = corr ds' ∧
      (r = .ok () → v = some true) ∧ (∀ err, r = .error err → v ≠ some true) := by
  induction fuel generalizing N m calls ds with
  | zero => cases hd
  | succ fuel ih =>
    unfold newtonInner at hd
    simp only at hd
    split at hd
    · cases hd
    · rename_i s1 d e' h1
      unfold idaNLProblem at h1
      simp only at h1
      split at h1 <;> cases h1
    · rename_i m1 d _ h1
      have h2 : lsSolve m (-N.delta) = some (m1, d) := by
        unfold idaNLProblem at h1
        simp only at h1
        split at h1
        · cases h1
        · rename_i hs
          cases h1
          exact hs
      obtain ⟨k1, k2, k3⟩ := lsSolve_keeps h2
      rw [← corr_append] at hd
      have hT := idaCtest_test e m1 (Newton.view { N with niters := N.niters + 1, delta := d }) d tol x.ewt ds hcur
        (fun d0 t h => k3.trans (ho d0 t h))
      obtain ⟨t1, t2, t3, t4⟩ := hT
      have hup := ConvCalls.update calls ds m.ss d hc
      rw [← k2, ← t2] at hup
      have hct : (idaNLProblem P e).ctest m1 (Newton.view { N with niters := N.niters + 1, delta := d }) (corr (ds ++ [d])) d tol
          x.ewt = idaCtest e m1 (Newton.view { N with niters := N.niters + 1, delta := d }) d tol x.ewt := rfl
      rw [hct] at hd
      generalize hI : idaCtest e m1 (Newton.view { N with niters := N.niters + 1, delta := d }) d tol x.ewt = I at hd t1 t2 t3 t4 hup
      obtain ⟨m2, cb⟩ := I
      simp only at t1 t2 t3 t4 hup
      cases hv : (convTest x.ewt e.toldel tol m1.ss ds d).2 with
      | none =>
        rw [hv] at t4 hup
        subst t4
        cases hd
        exact ⟨calls, ds ++ [d], none, by rw [t1, k1, hlog], hup, rfl, by simp, by simp⟩
      | some b =>
        rw [hv] at t4 hup
        subst t4
        cases b with
        | true =>
          cases hd
          exact ⟨calls, ds ++ [d], some true, by rw [t1, k1, hlog], hup, rfl, by simp, by simp⟩
        | false =>
          simp only at hd
          split at hd
          · cases hd
            exact ⟨calls, ds ++ [d], some false, by rw [t1, k1, hlog], hup, rfl, by simp, by simp⟩
          · split at hd
            · cases hd
            · rename_i h6; cases h6
            · rename_i m3 d3 _ h6
              have h7 : idaSys P e m2 (corr (ds ++ [d])) d = (m3, d3) := by
                have := h6
                unfold idaNLProblem at this
                simp only [Prod.mk.injEq] at this
                exact Prod.ext this.1 this.2.1
              obtain ⟨j1, j2, j3, -, -⟩ := idaSys_at (P := P) he m2 (corr (ds ++ [d])) d
              rw [h7] at j1 j2 j3
              simp only at j1 j2 j3
              have hnext := ConvCalls.next calls (ds ++ [d]) _ hup
              rw [← j2] at hnext
              exact ih (N := { N with delta := d3, curiter := N.curiter + 1, niters := N.niters + 1 })
                (calls := resAt x (corr (ds ++ [d])) :: calls) (by rw [j1, t1, k1, hlog]; rfl) hnext
                (by show N.curiter + 1 = _; rw [hcur, List.length_append]; rfl) (fun d0 t h => j3.trans (t3 d0 t h)) hd

/-- Where a solve is between two passes of the outer loop; `c` says whether the Jacobian is evaluated next. -/
inductive ConvPass (x : Att n K) (toldel tol S0 : K) (c : Bool) (S : K) (calls : List (UCall n K)) : Prop
  | fresh : calls = [] → (c = false → S = S0) → ConvPass x toldel tol S0 c S calls
  | failed (ds : List (Vec n K)) (v : Option Bool) : v ≠ some true → ConvCalls x toldel tol S0 calls (.tested ds S v) →
      ConvPass x toldel tol S0 c S calls

theorem newtonAttempt_conv (hn : n ≠ 0) {P : Problem n q K} {e : Env n K} {x : Att n K} {l : List (UCall n K)}
    (he : EnvAt e x) {tol S0 : K} {c jb : Bool} {N N' : Newton (Vec n K)} {m m' : Mem n K} {y y' : Vec n K}
    {r : Except Err Unit} {calls : List (UCall n K)} (hl : m.log = calls ++ l)
    (hc : ConvPass x e.toldel tol S0 c m.ss calls)
    (hd : newtonAttempt (idaNLProblem P e) vzero tol x.ewt c jb N m y = .done N' m' y' r) :
    ∃ calls' ds' v, m'.log = calls' ++ l ∧ ConvCalls x e.toldel tol S0 calls' (.tested ds' m'.ss v) ∧ y' = corr ds' ∧
      (r = .ok () → v = some true) ∧ (∀ err, r = .error err → v ≠ some true) := by
  unfold newtonAttempt at hd
  split at hd
  · cases hd
  · rename_i h1; cases h1
  · rename_i m1 d _ h1
    have h2 : idaSys P e m vzero N.delta = (m1, d) := by
      have := h1
      unfold idaNLProblem at this
      simp only [Prod.mk.injEq] at this
      exact Prod.ext this.1 this.2.1
    obtain ⟨j1, j2, j3, j4, j5⟩ := idaSys_at (P := P) he m vzero N.delta
    rw [h2] at j1 j2 j3 j4 j5
    simp only at j1 j2 j3 j4 j5
    have hstart : ∃ S, ConvCalls x e.toldel tol S0 (resAt x vzero :: calls) (.residual [] S) ∧ (c = false → S = m1.ss) := by
      rw [j2]
      cases hc with
      | fresh h h' => rw [h]; exact ⟨S0, .start, fun hc => (h' hc).symm⟩
      | failed ds v hv h => exact ⟨_, .restart _ ds _ v hv h, fun _ => rfl⟩
    obtain ⟨S, hstart, hS⟩ := hstart
    have hlog : m1.log = (resAt x vzero :: calls) ++ l := by rw [j1, hl]; rfl
    simp only at hd
    split at hd
    · rename_i hct
      split at hd
      · cases hd
      · rename_i h5
        unfold idaNLProblem at h5
        simp only at h5
        split at h5 <;> cases h5
      · rename_i m2 j h5
        have h6 : idaSetup P e m1 d = some m2 := by
          unfold idaNLProblem at h5
          simp only at h5
          split at h5
          · cases h5
          · rename_i hs; cases h5; exact hs
        have h7 : m2.ss = Scalar.twenty ∧
            m2.log = .jac 0 x.cj (vadd x.pred vzero) (scaledAdd x.predp x.cj vzero) d :: m1.log := by
          unfold idaSetup lsSetup at h6
          simp only at h6
          rw [if_neg hn] at h6
          split at h6
          · cases h6
          · rename_i m3 h8
            cases h6
            split at h8
            · cases h8
              refine ⟨rfl, ?_⟩
              show UCall.jac 0 e.cj m1.yy m1.yp d :: m1.log = _
              rw [he.cj, j4, j5]
            · cases h8
            · cases h8
        have hjac := ConvCalls.jac calls S d hstart
        rw [← h7.1] at hjac
        exact newtonInner_conv he _ (N := { N with delta := d, jcur := j, curiter := 0 }) (ds := [])
          (by rw [h7.2, hlog]; rfl) hjac rfl (fun _ _ h => by cases h) hd
    · rename_i hct
      rw [hS (by simpa using hct)] at hstart
      exact newtonInner_conv he _ (N := { N with delta := d, curiter := 0 }) (ds := []) hlog hstart rfl
        (fun _ _ h => by cases h) hd

/-- `Newton::solve` on the integrator's problem. -/
theorem newtonOuter_conv (hn : n ≠ 0) {P : Problem n q K} {e : Env n K} {x : Att n K} {l : List (UCall n K)}
    (he : EnvAt e x) {tol S0 : K} (fuel : Nat) {c jb : Bool} {N N' : Newton (Vec n K)} {m m' : Mem n K} {y y' : Vec n K}
    {calls : List (UCall n K)} (hl : m.log = calls ++ l) (hc : ConvPass x e.toldel tol S0 c m.ss calls)
    (hd : newtonOuter (idaNLProblem P e) vzero tol x.ewt fuel c jb N m y = .done N' m' y' (.ok ())) :
    ∃ calls' ds', m'.log = calls' ++ l ∧ ConvCalls x e.toldel tol S0 calls' (.tested ds' m'.ss (some true)) ∧
      y' = corr ds' := by
  induction fuel generalizing c jb N m y calls with
  | zero => cases hd
  | succ fuel ih =>
    unfold newtonOuter at hd
    split at hd
    · cases hd
    · cases hd
    · rename_i h1
      cases hd
      obtain ⟨c', ds, v, g1, g2, g3, g4, -⟩ := newtonAttempt_conv hn he hl hc h1
      rw [g4 rfl] at g2
      exact ⟨c', ds, g1, g2, g3⟩
    · rename_i N1 m1 y1 err h1
      obtain ⟨c', ds, v, g1, g2, g3, -, g5⟩ := newtonAttempt_conv hn he hl hc h1
      split at hd
      · split at hd
        · exact ih g1 (.failed ds v (g5 _ rfl) g2) hd
        · exact ih g1 (.failed ds v (g5 _ rfl) g2) hd
      · cases hd

/-! ## Histories -/

/-- An attempt keeps the tolerances and leaves its leading coefficient. -/
def EnvKept (s s' : State (Newton (Vec n K)) n q K) : Prop :=
  s'.epsNewt = s.epsNewt ∧ s'.e.toldel = s.e.toldel ∧ s'.e.cj = leadCoef s

theorem passFailed_env {cfg : Cfg (Newton (Vec n K)) n q K} {t0 : K} {s s4 : State (Newton (Vec n K)) n q K} {err : Err}
    {a b : K} (h : PassFailed cfg t0 s s4 err a b) : EnvKept s s4 := by
  obtain ⟨s3, r, out, h1, -, -, rfl⟩ := h.tried
  refine ⟨h1.epsNewt, ?_, ?_⟩
  · show s3.e.toldel = _
    rw [h1.e]; rfl
  · show s3.e.cj = _
    rw [h1.e]; rfl

theorem handleNFlag_env {cfg : Cfg (Newton (Vec n K)) n q K} {s s' : State (Newton (Vec n K)) n q K} {err : Err} {a b : K}
    {f f' : Fails} {r : Except Err Unit} (h : handleNFlag cfg s err a b f = some (s', f', r)) :
    s'.epsNewt = s.epsNewt ∧ s'.e = s.e := by
  have := handleNFlag_handled h
  cases this <;> exact ⟨rfl, rfl⟩

theorem attempt_again_env {cfg : Cfg (Newton (Vec n K)) n q K} {t0 : K} {s s' : State (Newton (Vec n K)) n q K}
    {f f' : Fails} (h : attempt cfg t0 s f = .again s' f') : EnvKept s s' := by
  obtain ⟨s4, err, a, b, s6, h1, h2, rfl⟩ := attempt_again h
  obtain ⟨g1, g2, g3⟩ := passFailed_env h1
  obtain ⟨e1, e2⟩ := handleNFlag_env h2
  have : ∀ p : Prop, [Decidable p] → (if p then reset s6 else s6).epsNewt = s6.epsNewt ∧
      (if p then reset s6 else s6).e = s6.e := by
    intro p _; split <;> exact ⟨rfl, rfl⟩
  obtain ⟨k1, k2⟩ := this (s6.cnt.nst = 0)
  unfold EnvKept
  rw [k1, k2, e1, e2]
  exact ⟨g1, g2, g3⟩

theorem attempt_fail_env {cfg : Cfg (Newton (Vec n K)) n q K} {t0 : K} {s s' : State (Newton (Vec n K)) n q K}
    {f : Fails} {e : Err} (h : attempt cfg t0 s f = .fail s' e) : EnvKept s s' := by
  obtain ⟨s4, err, a, b, f', h1, h2⟩ := attempt_fail h
  obtain ⟨g1, g2, g3⟩ := passFailed_env h1
  obtain ⟨e1, e2⟩ := handleNFlag_env h2
  unfold EnvKept
  rw [e1, e2]
  exact ⟨g1, g2, g3⟩

theorem attempt_done_env {cfg : Cfg (Newton (Vec n K)) n q K} {t0 : K} {s s' : State (Newton (Vec n K)) n q K}
    {f : Fails} {ck a b : K} (h : attempt cfg t0 s f = .done s' ck a b) : EnvKept s s' := by
  obtain ⟨s3, h1, -, -, -, -, rfl⟩ := attempt_done h
  refine ⟨h1.epsNewt, ?_, ?_⟩
  · show s3.e.toldel = _
    rw [h1.e]; rfl
  · show s3.e.cj = _
    rw [h1.e]; rfl

/-- The story so far. -/
abbrev Told (s : State (Newton (Vec n K)) n q K) : Prop :=
  ConvStory (Scalar.pt0001 * Scalar.epcon) (Scalar.epcon : K) s.m.log s.g.atts s.m.ss

/-- The constants of the test have been set. -/
def Tuned (s : State (Newton (Vec n K)) n q K) : Prop :=
  s.epsNewt = Scalar.epcon ∧ s.e.toldel = Scalar.pt0001 * Scalar.epcon

/-- The current leading coefficient is that of the last attempt. -/
def CjLast (s : State (Newton (Vec n K)) n q K) : Prop := ∃ x a, s.g.atts = x :: a ∧ s.e.cj = x.cj

theorem nlsPrepare_ss (s : State (Newton (Vec n K)) n q K) :
    (nlsPrepare s).1.log = s.m.log ∧ ((nlsPrepare s).2 = false → s.cnt.nst ≠ 0) ∧
    (s.cnt.nst ≠ 0 → (nlsPrepare s).1.ss = if Scalar.neb s.e.cj s.c.cjlast then Scalar.hundred else s.m.ss) := by
  unfold nlsPrepare
  by_cases hn : s.cnt.nst = 0
  · simp only [hn, decide_true, if_true, Bool.true_or]
    split <;> exact ⟨rfl, by simp, fun h => absurd rfl h⟩
  · simp only [hn, decide_false, Bool.false_eq_true, if_false, Bool.false_or]
    split <;> exact ⟨rfl, fun _ => hn, fun _ => rfl⟩

theorem told_attempted (hn : n ≠ 0) {P : Problem n q K} {tol : TolControl n K} {fuel : Nat}
    {s s' : State (Newton (Vec n K)) n q K} (hI : Told s) (ht : Tuned s) (hc : 0 < s.cnt.nst → CjLast s)
    (h : Attempted (Cfg.newton P tol fuel) s s') : Told s' := by
  obtain ⟨t0, m1, ee, r, out, h1, h2, h3, h4⟩ := h
  have h5 : (newtonNls P fuel).solve s.nls (tried s).e (nlsPrepare (tried s)).1 vzero s.ee s.e.ewt s.epsNewt
    (nlsPrepare (tried s)).2 = .ret s'.nls m1 ee r := h1
  have hr : r = .ok () := by
    cases r with
    | ok u => rfl
    | error err => exact absurd h5 (newton_no_error P fuel)
  subst hr
  unfold newtonNls at h5
  simp only at h5
  split at h5
  · rename_i h6
    cases h5
    unfold newtonSolve at h6
    obtain ⟨e1, e2, e3⟩ := nlsPrepare_ss (tried s)
    have he : EnvAt (tried s).e (attRec s t0 ee out) := ⟨rfl, rfl, rfl, rfl⟩
    have hlog : (nlsPrepare (tried s)).1.log = [] ++ s.m.log := e1
    have hp : ConvPass (attRec s t0 ee out) (tried s).e.toldel s.epsNewt (startFactor (attRec s t0 ee out).cj s.g.atts s.m.ss)
        (nlsPrepare (tried s)).2 (nlsPrepare (tried s)).1.ss [] := by
      refine .fresh rfl (fun hf => ?_)
      have hn0 := e2 hf
      obtain ⟨x, a, g1, g2⟩ := hc (Nat.pos_of_ne_zero hn0)
      rw [e3 hn0, g1]
      show (if Scalar.neb (leadCoef s) s.e.cj then Scalar.hundred else s.m.ss) =
        if Scalar.neb (leadCoef s) x.cj then Scalar.hundred else s.m.ss
      rw [g2]
    obtain ⟨calls, ds, h7, h8, h9⟩ := newtonOuter_conv hn he _ hlog hp h6
    have ht1 : (tried s).e.toldel = Scalar.pt0001 * Scalar.epcon := ht.2
    rw [ht1, ht.1] at h8
    unfold Told
    rw [h3, h2]
    show ConvStory _ _ m1.log _ m1.ss
    rw [h7]
    exact .attempt _ _ _ _ _ _ ds hI h8 h9
  · cases h5
  · cases h5

/-- What holds between two steps. -/
structure ConvInv (s : State (Newton (Vec n K)) n q K) : Prop where
  told : Told s
  later : 0 < s.cnt.nst → Tuned s ∧ CjLast s

/-- What holds between two attempts. -/
structure ConvMid (s : State (Newton (Vec n K)) n q K) : Prop where
  told : Told s
  tuned : Tuned s
  cj : 0 < s.cnt.nst → CjLast s

theorem convMid_attempted (hn : n ≠ 0) {P : Problem n q K} {tol : TolControl n K} {fuel : Nat}
    {s s' : State (Newton (Vec n K)) n q K} (hI : ConvMid s) (h : Attempted (Cfg.newton P tol fuel) s s')
    (hk : EnvKept s s') : ConvMid s' ∧ CjLast s' := by
  have hcj : CjLast s' := by
    obtain ⟨t0, m1, ee, r, out, h1, h2, h3, h4⟩ := h
    exact ⟨_, _, h3, hk.2.2⟩
  exact ⟨⟨told_attempted hn hI.told hI.tuned hI.cj h, ⟨hk.1.trans hI.tuned.1, hk.2.1.trans hI.tuned.2⟩, fun _ => hcj⟩, hcj⟩

theorem step_conv (hn : n ≠ 0) {P : Problem n q K} {tol : TolControl n K} {fuel : Nat}
    {s s' : State (Newton (Vec n K)) n q K} {r : Except Err Unit} (hI : Told s) (ht : Tuned s)
    (hc : 0 < s.cnt.nst → CjLast s) (h : step (Cfg.newton P tol fuel) s = .ret s' r) : ConvInv s' := by
  have h0 : ConvMid (firstStepInit s) := by
    unfold firstStepInit
    split
    · rename_i h0
      exact ⟨hI, ht, fun h => absurd h (by show ¬ 0 < s.cnt.nst; omega)⟩
    · exact ⟨hI, ht, hc⟩
  have := step_rule (cfg := Cfg.newton P tol fuel) (fun s1 _ => ConvMid s1) (fun s1 => ConvInv s1) (fun s1 _ => ConvInv s1) h0
    (fun s1 f s' f' hI h => (convMid_attempted hn hI (attempt_again_attempted h) (attempt_again_env h)).1)
    (fun s1 f s2 ck a b s' hI h hc => by
      have hC := completeStep_eq hc
      obtain ⟨h1, h2⟩ := convMid_attempted hn hI (attempt_done_attempted h) (attempt_done_env h)
      refine ⟨?_, fun _ => ⟨⟨?_, ?_⟩, ?_⟩⟩
      · show ConvStory _ _ s'.m.log s'.g.atts s'.m.ss
        rw [hC.m, hC.g]; exact h1.told
      · show s'.epsNewt = _
        rw [hC.epsNewt]; exact h1.tuned.1
      · show s'.e.toldel = _
        rw [hC.e]; exact h1.tuned.2
      · obtain ⟨x, b, g1, g2⟩ := h2
        exact ⟨x, b, by show s'.g.atts = _; rw [hC.g]; exact g1, by show s'.e.cj = _; rw [hC.e]; exact g2⟩)
    (fun s1 f s' e hI h => by
      obtain ⟨h1, h2⟩ := convMid_attempted hn hI (attempt_fail_attempted h) (attempt_fail_env h)
      exact ⟨h1.told, fun _ => ⟨h1.tuned, h2⟩⟩) h
  rcases this with ⟨-, h⟩ | ⟨e, -, h⟩ <;> exact h

theorem convStory_roots {toldel tol : K} {l l' : List (UCall n K)} {a : List (Att n K)} {S : K}
    (h : ConvStory toldel tol l a S) (hr : ∀ x ∈ l', x.isRoot = true) : ConvStory toldel tol (l' ++ l) a S := by
  induction l' with
  | nil => exact h
  | cons x l' ih =>
    have hx := hr x (by simp)
    have := ih (fun y hy => hr y (by simp [hy]))
    cases x with
    | root t y yp => exact .root t y yp _ _ _ this
    | res t y yp => cases hx
    | jac t c y yp r => cases hx

theorem ConvInv.frame {s s' : State (Newton (Vec n K)) n q K} (hI : ConvInv s) (hf : Frame s s') : ConvInv s' := by
  obtain ⟨l, h1, h2, -⟩ := hf.log
  have h3 : s'.m.ss = s.m.ss := by have := congrArg Mem.ss hf.m; exact this
  refine ⟨?_, ?_⟩
  · unfold Told
    rw [h1, h3, hf.g]
    exact convStory_roots hI.told h2
  · unfold Tuned CjLast
    rw [hf.cnt, hf.epsNewt, hf.e, hf.g]
    exact hI.later

theorem firstCall_tuned {P : Problem n q K} {tol : TolControl n K} {fuel : Nat} {s s' : State (Newton (Vec n K)) n q K}
    {tout : K} (h : firstCall (Cfg.newton P tol fuel) s tout = .ret s' (.ok ())) : Tuned s' := by
  have hq : ∀ s : State (Newton (Vec n K)) n q K, Tuned (firstReady (Cfg.newton P tol fuel) s) := by
    intro s
    exact ⟨rfl, rfl⟩
  rcases firstCall_cases h with ⟨-, -, h⟩ | ⟨-, -, h⟩ | ⟨hh, -, -, -, ⟨-, -, h⟩ | ⟨s1, h1, h, -⟩⟩ <;>
    first | (cases h; done) | (rw [h]; exact hq s1)

theorem ConvInv.firstCall {P : Problem n q K} {tol : TolControl n K} {fuel : Nat} {s s' : State (Newton (Vec n K)) n q K}
    {tout : K} {r : Except Err Unit} (hI : ConvInv s) (h0 : s.cnt.nst = 0)
    (h : Verif.firstCall (Cfg.newton P tol fuel) s tout = .ret s' r) : ConvInv s' := by
  obtain ⟨h1, l, h2, h3⟩ := firstCall_log h
  have h4 := firstCall_same h
  have h5 : s'.m.ss = s.m.ss := by have := congrArg Mem.ss h1; exact this
  refine ⟨?_, fun hp => ?_⟩
  · unfold Told
    rw [h2, h5, h4.2]
    exact convStory_roots hI.told h3
  · rw [h4.1] at hp; omega

theorem convInv_reach (hn : n ≠ 0) {P : Problem n q K} {tol : TolControl n K} {fuel : Nat}
    {s : State (Newton (Vec n K)) n q K} (h : Reach (Cfg.newton P tol fuel) s) : ConvInv s := by
  have first : ∀ {s s1 s2 s' : State (Newton (Vec n K)) n q K} {tout : K} {r : Except Err Unit}, ConvInv s →
      s.cnt.nst = 0 → Verif.firstCall (Cfg.newton P tol fuel) s tout = .ret s1 (.ok ()) → Frame (perfReset s1) s2 →
      step (Cfg.newton P tol fuel) s2 = .ret s' r → ConvInv s' := by
    intro s s1 s2 s' tout r hI h1 h2 h3 h4
    have h5 := hI.firstCall h1 h2
    have h6 := firstCall_tuned h2
    have h7 : ConvInv s2 := ConvInv.frame (s := perfReset s1) ⟨h5.told, h5.later⟩ h3
    refine step_conv hn h7.told ?_ (fun hp => (h7.later hp).2) h4
    unfold Tuned
    rw [h3.epsNewt, h3.e]
    exact h6
  refine Reach.inv (cfg := Cfg.newton P tol fuel) ConvInv ?_ ?_ ?_ h
  · intro a b c d
    exact ⟨.new _, fun h => absurd h (Nat.lt_irrefl 0)⟩
  · intro s s' hI hm
    cases hm with
    | frame hf => exact hI.frame hf
    | perf => exact ⟨hI.told, hI.later⟩
    | clear => exact ⟨hI.told, hI.later⟩
    | clamp ts h1 h2 h3 =>
      unfold clampToStop
      split
      · exact ⟨hI.told, hI.later⟩
      · exact ⟨hI.told, hI.later⟩
    | ewt h => exact ⟨hI.told, hI.later⟩
    | first tout r h1 h2 => exact hI.firstCall h1 h2
    | firstStep tout h1 h2 h3 h4 => exact first hI h1 h2 h3 h4
    | step h1 h2 h3 h4 => exact step_conv hn hI.told (hI.later h1).1 (fun _ => (hI.later h1).2) h3
  · intro s e s' hI hm
    cases hm with
    | firstStep tout _ h1 h2 h3 h4 => exact first hI h1 h2 h3 h4
    | step _ h1 h2 h3 h4 => exact step_conv hn hI.told (hI.later h1).1 (fun _ => (hI.later h1).2) h3

end

end Verif
