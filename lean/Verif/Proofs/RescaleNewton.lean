import Verif.Proofs.RescaleDense

/-!
# Other units, any scalar type: the nonlinear solver
-/

set_option autoImplicit false
set_option linter.unusedSectionVars false
set_option linter.unusedSimpArgs false
set_option linter.unusedVariables false

namespace Verif

open Verif.Spec

universe u v

namespace Spec.Rescale

variable {n q : Nat} {K : Type u} [Scalar K] (C : Rescale n q K)

/-! ## Vectors -/

theorem vec_add (a b : Vec n K) : vadd (C.vec a) (C.vec b) = C.vec (vadd a b) := by funext i; exact (C.y i).add _ _
theorem vec_sub (a b : Vec n K) : vsub (C.vec a) (C.vec b) = C.vec (vsub a b) := by funext i; exact (C.y i).sub _ _
theorem vec_scale (c : K) (a : Vec n K) : vscale c (C.vec a) = C.vec (vscale c a) := by funext i; exact (C.y i).mul _ _
theorem vec_zero : C.vec vzero = vzero := by funext i; exact (C.y i).zero
theorem wt_zero : C.wt vzero = vzero := by funext i; exact (C.y i).u.gzero
theorem eqn_zero : C.eqn vzero = vzero := by funext i; exact C.e.zero
theorem rts_zero : C.rts vzero = vzero := by funext i; exact (C.r i).zero
theorem vec_scaled (a : Vec n K) (c : K) (b : Vec n K) : scaledAdd (C.vec a) c (C.vec b) = C.vec (scaledAdd a c b) := by
  funext i
  show (C.y i).f (a i) + c * (C.y i).f (b i) = _
  rw [(C.y i).mul', (C.y i).add]
  rfl
theorem eqn_neg (a : Vec n K) : -(C.eqn a) = C.eqn (-a) := by funext i; exact C.e.neg _
theorem vec_plus (a b : Vec n K) : C.vec a + C.vec b = C.vec (a + b) := by funext i; exact (C.y i).add _ _

theorem norm_conv (x w : Vec n K) : normWrms (C.vec x) (C.wt w) = normWrms x w := by
  unfold normWrms
  have e : (fun i => (C.vec x i * C.wt w i) * (C.vec x i * C.wt w i)) = fun i => (x i * w i) * (x i * w i) := by
    funext i; exact (C.y i).square _ _
  rw [e]

theorem wrms_conv (id : Fin n → Bool) (x w : Vec n K) (b : Bool) : wrmsNorm id (C.vec x) (C.wt w) b = wrmsNorm id x w b := by
  unfold wrmsNorm
  split
  · unfold normWrmsMasked
    have e : ∀ m : Vec n K, (fun i => (C.vec x i * C.wt w i * m i) * (C.vec x i * C.wt w i * m i)) =
        fun i => (x i * w i * m i) * (x i * w i * m i) := by
      intro m; funext i; exact (C.y i).square_mask _ _ _
    simp only [e]
  · exact C.norm_conv x w

theorem tol_conv (T : TolControl n K) (y : Vec n K) : (C.tol T).ewtSet (C.vec y) = C.wt (T.ewtSet y) := by
  cases T with
  | ss rtol atol =>
    funext i
    show Scalar.recip (rtol * Scalar.abs ((C.y i).f (y i)) + (C.y i).u.f atol) = _
    rw [(C.y i).abs, (C.y i).u.mul', (C.y i).u.add, (C.y i).u.recip]
    rfl
  | sv rtol atol =>
    funext i
    show Scalar.recip (rtol * Scalar.abs ((C.y i).f (y i)) + (C.y i).u.f (atol i)) = _
    rw [(C.y i).abs, (C.y i).u.mul', (C.y i).u.add, (C.y i).u.recip]
    rfl

/-! ## The memory of the nonlinear problem -/

def env (e : Env n K) : Env n K :=
  { e with yypredict := C.vec e.yypredict, yppredict := C.vec e.yppredict, ewt := C.wt e.ewt }

def mem (m : Mem n K) : Mem n K :=
  { m with
    yy := C.vec m.yy
    yp := C.vec m.yp
    savres := C.eqn m.savres
    matJ := C.lu n m.matJ
    x := C.vec m.x
    log := m.log.map C.call }

variable {P P' : Problem n q K} (hP : C.Same P P')
include hP

theorem sys_conv (e : Env n K) (m : Mem n K) (y buf buf' : Vec n K) :
    idaSys P' (C.env e) (C.mem m) (C.vec y) buf' = (C.mem (idaSys P e m y buf).1, C.eqn (idaSys P e m y buf).2) := by
  unfold idaSys
  simp only [env]
  rw [C.vec_add, C.vec_scaled, hP.res _ _ _ buf]
  rfl

theorem lsSetup_conv (e : Env n K) (m : Mem n K) (yy yp r : Vec n K) :
    lsSetup P' (C.env e) (C.mem m) (C.vec yy) (C.vec yp) (C.eqn r) = (lsSetup P e m yy yp r).map C.mem := by
  unfold lsSetup
  by_cases hn : n = 0
  · rw [if_pos hn, if_pos hn]
    simp only
    have e0 : (C.mem m).matJ = C.mat m.matJ := by
      show C.lu n m.matJ = _
      rw [← C.lu_zero]
      funext i j
      unfold lu
      rw [if_neg (by omega), if_neg (by omega)]
    have h := C.setup_lu m.matJ m.piv
    rw [e0]
    generalize denseSetup n m.matJ m.piv = o at h ⊢
    cases o with
    | panic => rw [show denseSetup n (C.mat m.matJ) (C.mem m).piv = .panic from h]; rfl
    | err c M p => obtain ⟨M', p', h⟩ := h; rw [show denseSetup n (C.mat m.matJ) (C.mem m).piv = .err c M' p' from h]; rfl
    | ok M p => rw [show denseSetup n (C.mat m.matJ) (C.mem m).piv = .ok (C.lu n M) p from h]; rfl
  · rw [if_neg hn, if_neg hn]
    simp only [env]
    rw [hP.jac]
    have h := C.setup_lu (P.jac 0 e.cj yy yp r fun _ _ => 0) m.piv
    generalize denseSetup n (P.jac 0 e.cj yy yp r fun _ _ => 0) m.piv = o at h ⊢
    cases o with
    | panic =>
      rw [show denseSetup n (C.mat (P.jac 0 e.cj yy yp r fun _ _ => 0)) (C.mem m).piv = .panic from h]; rfl
    | err c M p =>
      obtain ⟨M', p', h⟩ := h
      rw [show denseSetup n (C.mat (P.jac 0 e.cj yy yp r fun _ _ => 0)) (C.mem m).piv = .err c M' p' from h]; rfl
    | ok M p =>
      rw [show denseSetup n (C.mat (P.jac 0 e.cj yy yp r fun _ _ => 0)) (C.mem m).piv = .ok (C.lu n M) p from h]; rfl

theorem idaSetup_conv (e : Env n K) (m : Mem n K) (r : Vec n K) :
    idaSetup P' (C.env e) (C.mem m) (C.eqn r) = (idaSetup P e m r).map C.mem := by
  unfold idaSetup
  have h := C.lsSetup_conv hP e { m with nsetups := m.nsetups + 1 } m.yy m.yp r
  rw [show lsSetup P' (C.env e) { C.mem m with nsetups := (C.mem m).nsetups + 1 } (C.mem m).yy (C.mem m).yp (C.eqn r) = _ from h]
  cases lsSetup P e { m with nsetups := m.nsetups + 1 } m.yy m.yp r with
  | none => rfl
  | some m => rfl

omit hP in
theorem toFun_eqn (b : Vec n K) : (C.eqn b).toFun = C.rhs b.toFun := by
  funext i
  show (if h : i < n then C.eqn b ⟨i, h⟩ else 0) = C.e.f (if h : i < n then b ⟨i, h⟩ else 0)
  split
  · rfl
  · exact C.e.zero.symm

omit hP in
theorem ofFun_part (x : Nat → K) : (Vec.ofFun (C.part 0 x) : Vec n K) = C.vec (Vec.ofFun x) := by
  funext i
  show C.part 0 x i.val = _
  unfold part
  rw [dif_pos i.2, if_pos (Nat.zero_le _)]
  rfl

omit hP in
theorem lsSolve_conv (m : Mem n K) (b : Vec n K) :
    lsSolve (C.mem m) (C.eqn b) = (lsSolve m b).map fun p => (C.mem p.1, C.vec p.2) := by
  unfold lsSolve
  rw [C.toFun_eqn, show denseSolve n (C.mem m).matJ (C.mem m).piv (C.rhs b.toFun) = _ from C.solve_part m.matJ m.piv b.toFun]
  cases denseSolve n m.matJ m.piv b.toFun with
  | none => rfl
  | some x =>
    simp only [Option.map_some]
    rw [C.ofFun_part, show (C.mem m).cjratio = m.cjratio from rfl]
    by_cases h : Scalar.neb m.cjratio 1 = true
    · rw [if_pos h, if_pos h, C.vec_scale]; rfl
    · rw [if_neg h, if_neg h]; rfl

omit hP in
theorem ctest_conv (e : Env n K) (m : Mem n K) (vw : NlsView) (del : Vec n K) (tol : K) (w : Vec n K) :
    idaCtest (C.env e) (C.mem m) vw (C.vec del) tol (C.wt w) =
      (C.mem (idaCtest e m vw del tol w).1, (idaCtest e m vw del tol w).2) := by
  unfold idaCtest
  simp only [C.norm_conv]
  show (if vw.curIter = 0 then
      (if Scalar.le (normWrms del w) (Scalar.pt0001 * e.toldel) = true then _ else _)
    else if Scalar.gt (Scalar.powf (normWrms del w / m.oldnrm) (Scalar.recip (Scalar.ofNat vw.curIter))) Scalar.pt9 = true then
      _ else _) = _
  by_cases h1 : vw.curIter = 0
  · rw [if_pos h1, if_pos h1]
    by_cases h2 : Scalar.le (normWrms del w) (Scalar.pt0001 * e.toldel) = true
    · rw [if_pos h2, if_pos h2]; rfl
    · rw [if_neg h2, if_neg h2]; rfl
  · rw [if_neg h1, if_neg h1]
    by_cases h2 : Scalar.gt (Scalar.powf (normWrms del w / m.oldnrm) (Scalar.recip (Scalar.ofNat vw.curIter))) Scalar.pt9 = true
    · rw [if_pos h2, if_pos h2]
    · rw [if_neg h2, if_neg h2]; rfl

/-! ## Newton's method -/

omit hP in
/-- The solver object (its buffer contains a correction). -/
def newton (N : Newton (Vec n K)) : Newton (Vec n K) := { N with delta := C.vec N.delta }

omit hP in
/-- The solver object when its buffer contains a residual. -/
def newtonE (N : Newton (Vec n K)) : Newton (Vec n K) := { N with delta := C.eqn N.delta }

omit hP in
def nout : NOut (Mem n K) (Vec n K) → NOut (Mem n K) (Vec n K)
  | .done N m y r => .done (C.newton N) (C.mem m) (C.vec y) r
  | .panic => .panic
  | .diverge => .diverge

theorem inner_conv (e : Env n K) (tol : K) (w : Vec n K) (fuel : Nat) : ∀ (N : Newton (Vec n K)) (m : Mem n K) (y : Vec n K),
    newtonInner (idaNLProblem P' (C.env e)) tol (C.wt w) fuel (C.newtonE N) (C.mem m) (C.vec y) =
      C.nout (newtonInner (idaNLProblem P e) tol w fuel N m y) := by
  induction fuel with
  | zero => intro N m y; rfl
  | succ fuel ih =>
    intro N m y
    simp only [newtonInner]
    have h1 : (idaNLProblem P' (C.env e)).solve (C.mem m) (C.vec y) (-(C.newtonE N).delta) =
        match lsSolve m (-N.delta) with
        | none => (C.mem m, C.eqn (-N.delta), .panic)
        | some (m, b) => (C.mem m, C.vec b, .ok ()) := by
      show (match lsSolve (C.mem m) (-(C.eqn N.delta)) with
        | none => (C.mem m, -(C.eqn N.delta), Cb.panic)
        | some (m, b) => (m, b, .ok ())) = _
      rw [C.eqn_neg, C.lsSolve_conv]
      cases lsSolve m (-N.delta) with
      | none => rfl
      | some p => rfl
    have h2 : (idaNLProblem P e).solve m y (-N.delta) =
        match lsSolve m (-N.delta) with
        | none => (m, -N.delta, .panic)
        | some (m, b) => (m, b, .ok ()) := rfl
    rw [h1, h2]
    cases lsSolve m (-N.delta) with
    | none => rfl
    | some p =>
      obtain ⟨m, d⟩ := p
      simp only
      rw [C.vec_plus]
      have h3 := C.ctest_conv e m (Newton.view { N with niters := N.niters + 1, delta := d }) d tol w
      have h4 : (idaNLProblem P' (C.env e)).ctest (C.mem m)
          (Newton.view { C.newtonE N with niters := (C.newtonE N).niters + 1, delta := C.vec d }) (C.vec (y + d)) (C.vec d) tol
          (C.wt w) = (C.mem (idaCtest e m (Newton.view { N with niters := N.niters + 1, delta := d }) d tol w).1,
            (idaCtest e m (Newton.view { N with niters := N.niters + 1, delta := d }) d tol w).2) := h3
      have h5 : (idaNLProblem P e).ctest m
          (Newton.view { N with niters := N.niters + 1, delta := d }) (y + d) d tol w =
          idaCtest e m (Newton.view { N with niters := N.niters + 1, delta := d }) d tol w := rfl
      rw [h4, h5]
      generalize idaCtest e m (Newton.view { N with niters := N.niters + 1, delta := d }) d tol w = o
      obtain ⟨m, c⟩ := o
      simp only
      cases c with
      | panic => rfl
      | err e' => rfl
      | ok b =>
        cases b with
        | true => rfl
        | false =>
          simp only
          by_cases hc : N.curiter + 1 ≥ N.maxiters
          · rw [if_pos hc, if_pos (show (C.newtonE N).curiter + 1 ≥ (C.newtonE N).maxiters from hc)]; rfl
          · rw [if_neg hc, if_neg (show ¬ (C.newtonE N).curiter + 1 ≥ (C.newtonE N).maxiters from hc)]
            have h6 := C.sys_conv hP e m (y + d) d (C.vec d)
            show newtonInner (idaNLProblem P' (C.env e)) tol (C.wt w) fuel
              { C.newtonE N with niters := (C.newtonE N).niters + 1, curiter := (C.newtonE N).curiter + 1
                                 delta := (idaSys P' (C.env e) (C.mem m) (C.vec (y + d)) (C.vec d)).2 }
              (idaSys P' (C.env e) (C.mem m) (C.vec (y + d)) (C.vec d)).1 (C.vec (y + d)) = _
            rw [h6]
            exact ih { N with niters := N.niters + 1, curiter := N.curiter + 1, delta := (idaSys P e m (y + d) d).2 }
              (idaSys P e m (y + d) d).1 (y + d)

theorem attempt_conv (e : Env n K) (tol : K) (y0 w : Vec n K) (cl jb : Bool) (N : Newton (Vec n K)) (m : Mem n K) (y : Vec n K) :
    newtonAttempt (idaNLProblem P' (C.env e)) (C.vec y0) tol (C.wt w) cl jb (C.newton N) (C.mem m) (C.vec y) =
      C.nout (newtonAttempt (idaNLProblem P e) y0 tol w cl jb N m y) := by
  unfold newtonAttempt
  have h1 : (idaNLProblem P' (C.env e)).sys (C.mem m) (C.vec y0) (C.newton N).delta =
      (C.mem (idaSys P e m y0 N.delta).1, C.eqn (idaSys P e m y0 N.delta).2, .ok ()) := by
    show (let r := idaSys P' (C.env e) (C.mem m) (C.vec y0) (C.vec N.delta); (r.1, r.2, Cb.ok ())) = _
    rw [C.sys_conv hP e m y0 N.delta]
  have h2 : (idaNLProblem P e).sys m y0 N.delta = ((idaSys P e m y0 N.delta).1, (idaSys P e m y0 N.delta).2, .ok ()) := rfl
  rw [h1, h2]
  generalize idaSys P e m y0 N.delta = o
  obtain ⟨m, d⟩ := o
  simp only
  cases cl with
  | false =>
    simp only [Bool.false_eq_true, if_false]
    exact C.inner_conv hP e tol w _ { N with delta := d, curiter := 0 } m y0
  | true =>
    simp only [if_true]
    have h3 : (idaNLProblem P' (C.env e)).setup (C.mem m) (C.vec y0) (C.eqn d) jb =
        match idaSetup P e m d with
        | none => (C.mem m, .panic)
        | some m => (C.mem m, .ok true) := by
      show (match idaSetup P' (C.env e) (C.mem m) (C.eqn d) with
        | none => (C.mem m, Cb.panic)
        | some m => (m, .ok true)) = _
      rw [C.idaSetup_conv hP]
      cases idaSetup P e m d with
      | none => rfl
      | some p => rfl
    have h4 : (idaNLProblem P e).setup m y0 d jb =
        match idaSetup P e m d with
        | none => (m, .panic)
        | some m => (m, .ok true) := rfl
    rw [h3, h4]
    cases idaSetup P e m d with
    | none => rfl
    | some m =>
      simp only
      exact C.inner_conv hP e tol w _ { N with delta := d, jcur := true, curiter := 0 } m y0

theorem outer_conv (e : Env n K) (tol : K) (y0 w : Vec n K) (fuel : Nat) : ∀ (cl jb : Bool) (N : Newton (Vec n K)) (m : Mem n K)
    (y : Vec n K), newtonOuter (idaNLProblem P' (C.env e)) (C.vec y0) tol (C.wt w) fuel cl jb (C.newton N) (C.mem m) (C.vec y) =
      C.nout (newtonOuter (idaNLProblem P e) y0 tol w fuel cl jb N m y) := by
  induction fuel with
  | zero => intro cl jb N m y; rfl
  | succ fuel ih =>
    intro cl jb N m y
    simp only [newtonOuter]
    rw [C.attempt_conv hP]
    cases newtonAttempt (idaNLProblem P e) y0 tol w cl jb N m y with
    | panic => rfl
    | diverge => rfl
    | done N m y r =>
      cases r with
      | ok a => rfl
      | error e' =>
        simp only [nout]
        by_cases h1 : e'.isConvRecover = true
        · rw [if_pos h1, if_pos h1]
          by_cases hj : (!N.jcur) = true
          · rw [if_pos hj, if_pos (show (!(C.newton N).jcur) = true from hj)]
            exact ih true true { N with nconvfails := N.nconvfails + 1 } m y
          · rw [if_neg hj, if_neg (show ¬ (!(C.newton N).jcur) = true from hj)]
            exact ih cl jb N m y
        · rw [if_neg h1, if_neg h1]
          rfl

end Spec.Rescale

end Verif
