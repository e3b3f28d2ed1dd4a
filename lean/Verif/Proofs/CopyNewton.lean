import Verif.Proofs.RescaleRun
import Verif.Spec.Copies
import Verif.Props.Ls
import Verif.Proofs.Norm
import Mathlib.Data.Matrix.Block
import Mathlib.LinearAlgebra.Matrix.NonsingularInverse

/-!
# Copies side by side: norms, linear systems, and the nonlinear solver
-/

set_option autoImplicit false
set_option linter.unusedSectionVars false
set_option linter.unusedSimpArgs false
set_option linter.unusedVariables false

namespace Verif

open Verif.Spec Verif.Props

universe u v

/-- The norm of a vector is an average over its components. -/
class Averages (K : Type u) [Scalar K] : Prop where
  norm : ∀ {n nn : Nat} (C : Copies n nn) (x w : Vec n K), normWrms (C.vec x) (C.vec w) = normWrms x w
  masked : ∀ {n nn : Nat} (C : Copies n nn) (x w : Vec n K) (id : Fin n → Bool),
    normWrmsMasked (C.vec x) (C.vec w) (fun i => id (C.e i).1) = normWrmsMasked x w id

namespace Spec.Copies

theorem card_eq {n nn : Nat} (C : Copies n nn) : nn = n * C.c := by
  have h := Fintype.card_congr C.e
  simpa using h

theorem sum_vec {K : Type u} [Field K] {n nn : Nat} (C : Copies n nn) (f : Fin n → K) :
    ∑ i : Fin nn, f (C.e i).1 = C.c * ∑ i : Fin n, f i := by
  rw [Equiv.sum_comp C.e (fun p => f p.1), Fintype.sum_prod_type]
  simp [Finset.mul_sum]

end Spec.Copies

/-- In exact arithmetic it is. -/
instance exactAverages {K : Type u} [Field K] [LinearOrder K] [IsStrictOrderedRing K] [ExactParams K] : Averages K where
  norm C x w := by
    have hc : (C.c : K) ≠ 0 := Nat.cast_ne_zero.2 C.pos.ne'
    unfold normWrms
    congr 1
    rw [Proofs.Norm.vsum_eq, Proofs.Norm.vsum_eq]
    rw [show (∑ i, C.vec x i * C.vec w i * (C.vec x i * C.vec w i)) = _ from C.sum_vec (fun i => (x i * w i) * (x i * w i))]
    have hm : (Scalar.ofNat _ : K) = ((_ * C.c : Nat) : K) := congrArg Nat.cast C.card_eq
    rw [hm, ex_ofNat, Nat.cast_mul, mul_comm (_ : K) (C.c : K), mul_div_mul_left _ _ hc]
  masked C x w id := by
    have hc : (C.c : K) ≠ 0 := Nat.cast_ne_zero.2 C.pos.ne'
    unfold normWrmsMasked
    simp only
    congr 1
    rw [Proofs.Norm.vsum_eq, Proofs.Norm.vsum_eq]
    rw [show (∑ i, (C.vec x i * C.vec w i * if id (C.e i).1 = true then 1 else 0) *
      (C.vec x i * C.vec w i * if id (C.e i).1 = true then 1 else 0)) = _ from C.sum_vec (fun i => (x i * w i * (if id i then 1 else 0)) * (x i * w i * (if id i then 1 else 0)))]
    have hm : (Scalar.ofNat _ : K) = ((_ * C.c : Nat) : K) := congrArg Nat.cast C.card_eq
    rw [hm, ex_ofNat, Nat.cast_mul, mul_comm (_ : K) (C.c : K), mul_div_mul_left _ _ hc]

namespace Spec.Copies

section
variable {n nn q : Nat} {K : Type u} [Scalar K] (C : Copies n nn)

/-- Error weights, the same in all copies. -/
def wt (v : Vec n K) : Vec nn K := C.vec v

/-- Residuals, the same in all copies. -/
def eqn (v : Vec n K) : Vec nn K := C.vec v

/-- The values of the root functions. -/
def rts (C : Copies n nn) (v : Vec q K) : Vec q K := v

/-! ## Vectors -/

theorem vec_add (a b : Vec n K) : vadd (C.vec a) (C.vec b) = C.vec (vadd a b) := rfl
theorem vec_sub (a b : Vec n K) : vsub (C.vec a) (C.vec b) = C.vec (vsub a b) := rfl
theorem vec_scale (c : K) (a : Vec n K) : vscale c (C.vec a) = C.vec (vscale c a) := rfl
theorem vec_zero : C.vec (vzero : Vec n K) = vzero := rfl
theorem wt_zero : C.wt (vzero : Vec n K) = vzero := rfl
theorem eqn_zero : C.eqn (vzero : Vec n K) = vzero := rfl
theorem rts_zero : C.rts (vzero : Vec q K) = vzero := rfl
theorem vec_scaled (a : Vec n K) (c : K) (b : Vec n K) : scaledAdd (C.vec a) c (C.vec b) = C.vec (scaledAdd a c b) := rfl
theorem eqn_neg (a : Vec n K) : -(C.eqn a) = C.eqn (-a) := rfl
theorem vec_plus (a b : Vec n K) : C.vec a + C.vec b = C.vec (a + b) := rfl

theorem norm_conv [Averages K] (x w : Vec n K) : normWrms (C.vec x) (C.wt w) = normWrms x w := Averages.norm C x w

theorem wrms_conv [Averages K] (id : Fin n → Bool) (x w : Vec n K) (b : Bool) :
    wrmsNorm (fun i => id (C.e i).1) (C.vec x) (C.wt w) b = wrmsNorm id x w b := by
  unfold wrmsNorm
  split
  · exact Averages.masked C x w id
  · exact C.norm_conv x w

theorem tol_conv (T : TolControl n K) (y : Vec n K) : (C.tol T).ewtSet (C.vec y) = C.wt (T.ewtSet y) := by
  cases T <;> rfl

/-! ## The memory of the nonlinear problem -/

def env (e : Env n K) : Env nn K :=
  { e with yypredict := C.vec e.yypredict, yppredict := C.vec e.yppredict, ewt := C.wt e.ewt }

def mem (m : Mem n K) : Mem nn K :=
  { m with
    yy := C.vec m.yy
    yp := C.vec m.yp
    savres := C.eqn m.savres
    matJ := C.block m.matJ
    x := C.vec m.x
    log := m.log.map C.call }

end

/-! ## Linear systems -/

section
variable {n nn q : Nat} {K : Type u} [Field K] [LinearOrder K] [IsStrictOrderedRing K] [ExactParams K] (C : Copies n nn)

/-- The matrix with one matrix in the blocks of all copies. -/
def blocks (M : Matrix (Fin n) (Fin n) K) : Matrix (Fin nn) (Fin nn) K :=
  (Matrix.blockDiagonal fun _ : Fin C.c => M).submatrix C.e C.e

theorem asMatrix_block (A : Mat K) : asMatrix nn (C.block A) = C.blocks (asMatrix n A) := by
  ext i j
  simp only [asMatrix, Matrix.of_apply, blocks, Matrix.submatrix_apply, Matrix.blockDiagonal_apply, block]
  rw [dif_pos ⟨i.2, j.2⟩]

theorem det_blocks (M : Matrix (Fin n) (Fin n) K) : (C.blocks M).det = M.det ^ C.c := by
  unfold blocks
  rw [Matrix.det_submatrix_equiv_self, Matrix.det_blockDiagonal]
  simp

theorem det_zero (M : Matrix (Fin n) (Fin n) K) : (C.blocks M).det = 0 ↔ M.det = 0 := by
  rw [C.det_blocks, pow_eq_zero_iff C.pos.ne']

theorem blocks_mul (M N : Matrix (Fin n) (Fin n) K) : C.blocks M * C.blocks N = C.blocks (M * N) := by
  unfold blocks
  rw [Matrix.submatrix_mul_equiv, ← Matrix.blockDiagonal_mul]

theorem blocks_one : C.blocks (1 : Matrix (Fin n) (Fin n) K) = 1 := by
  unfold blocks
  rw [show (fun _ : Fin C.c => (1 : Matrix (Fin n) (Fin n) K)) = 1 from rfl, Matrix.blockDiagonal_one, Matrix.submatrix_one_equiv]

theorem blocks_zero : C.blocks (0 : Matrix (Fin n) (Fin n) K) = 0 := by
  unfold blocks
  rw [show (fun _ : Fin C.c => (0 : Matrix (Fin n) (Fin n) K)) = 0 from rfl, Matrix.blockDiagonal_zero]
  rfl

theorem blocks_inv (M : Matrix (Fin n) (Fin n) K) : (C.blocks M)⁻¹ = C.blocks M⁻¹ := by
  by_cases h : M.det = 0
  · rw [Matrix.nonsing_inv_apply_not_isUnit _ (by rw [isUnit_iff_ne_zero, not_not]; exact (C.det_zero M).2 h),
      Matrix.nonsing_inv_apply_not_isUnit _ (by rw [isUnit_iff_ne_zero, not_not]; exact h), C.blocks_zero]
  · refine Matrix.inv_eq_right_inv ?_
    rw [C.blocks_mul, Matrix.mul_nonsing_inv _ (isUnit_iff_ne_zero.2 h), C.blocks_one]

theorem blocks_mulVec (M : Matrix (Fin n) (Fin n) K) (b : Vec n K) : (C.blocks M).mulVec (C.vec b) = C.vec (M.mulVec b) := by
  funext i
  simp only [Matrix.mulVec, dotProduct, blocks, Matrix.submatrix_apply, vec]
  rw [Equiv.sum_comp C.e (fun p => Matrix.blockDiagonal (fun _ => M) (C.e i) p * b p.1), Fintype.sum_prod_type]
  refine Finset.sum_congr rfl fun j _ => ?_
  simp [Matrix.blockDiagonal_apply]

/-- The linear solver of the large system. -/
def lsm (l : LsMem (Matrix (Fin n) (Fin n) K)) : LsMem (Matrix (Fin nn) (Fin nn) K) := { ls := C.blocks l.ls, nli := l.nli }

def mems (p : Mem n K × LsMem (Matrix (Fin n) (Fin n) K)) : Mem nn K × LsMem (Matrix (Fin nn) (Fin nn) K) := (C.mem p.1, C.lsm p.2)

variable {P : Problem n q K} {P' : Problem nn q K} (hP : C.Copied P P')
include hP

theorem sys_conv (e : Env n K) (m : Mem n K) (y buf : Vec n K) (buf' : Vec nn K) :
    idaSys P' (C.env e) (C.mem m) (C.vec y) buf' = (C.mem (idaSys P e m y buf).1, C.eqn (idaSys P e m y buf).2) := by
  unfold idaSys
  simp only [env]
  rw [C.vec_add, C.vec_scaled, hP.res _ _ _ buf]
  rfl

theorem lsSetup_conv (hn : n ≠ 0) (e : Env n K) (m : Mem n K) (l : LsMem (Matrix (Fin n) (Fin n) K)) (yy yp r : Vec n K) :
    lsSetupWith (inverseLs nn K) P' (C.env e) (C.mem m) (C.lsm l) (C.vec yy) (C.vec yp) (C.eqn r) =
      (lsSetupWith (inverseLs n K) P e m l yy yp r).map C.mems := by
  have hnn : nn ≠ 0 := by rw [C.card_eq]; exact Nat.mul_ne_zero hn C.pos.ne'
  unfold lsSetupWith
  rw [if_neg hn, if_neg hnn]
  simp only [env, inverseLs, eqn]
  rw [hP.jac, C.asMatrix_block]
  by_cases h : (asMatrix n (P.jac 0 e.cj yy yp r fun _ _ => 0)).det = 0
  · rw [if_pos h, if_pos ((C.det_zero _).2 h)]; rfl
  · rw [if_neg h, if_neg (fun g => h ((C.det_zero _).1 g))]; rfl

theorem idaSetup_conv (hn : n ≠ 0) (e : Env n K) (m : Mem n K) (l : LsMem (Matrix (Fin n) (Fin n) K)) (r : Vec n K) :
    idaSetupWith (inverseLs nn K) P' (C.env e) (C.mem m) (C.lsm l) (C.eqn r) =
      (idaSetupWith (inverseLs n K) P e m l r).map C.mems := by
  unfold idaSetupWith
  have h := C.lsSetup_conv hP hn e { m with nsetups := m.nsetups + 1 } l m.yy m.yp r
  rw [show lsSetupWith (inverseLs nn K) P' (C.env e) { C.mem m with nsetups := (C.mem m).nsetups + 1 } (C.lsm l) (C.mem m).yy
    (C.mem m).yp (C.eqn r) = _ from h]
  cases lsSetupWith (inverseLs n K) P e { m with nsetups := m.nsetups + 1 } l m.yy m.yp r with
  | none => rfl
  | some m => rfl

omit hP in
theorem lsSolve_conv (e : Env n K) (m : Mem n K) (l : LsMem (Matrix (Fin n) (Fin n) K)) (b : Vec n K) :
    lsSolveWith (inverseLs nn K) (C.env e) (C.mem m) (C.lsm l) (C.eqn b) =
      (lsSolveWith (inverseLs n K) e m l b).map fun p => (C.mem p.1, C.lsm p.2.1, C.vec p.2.2) := by
  have h : (C.blocks l.ls)⁻¹.mulVec (C.vec b) = C.vec (l.ls⁻¹.mulVec b) := by rw [C.blocks_inv, C.blocks_mulVec]
  unfold lsSolveWith
  simp only [inverseLs, lsm, eqn]
  rw [h]
  unfold lsResult
  simp only [Option.map_some]
  rw [show (C.mem m).cjratio = m.cjratio from rfl]
  by_cases hc : Scalar.neb m.cjratio 1 = true
  · simp [hc]; exact ⟨rfl, rfl⟩
  · simp [hc]; rfl

omit hP in
theorem ctest_conv (e : Env n K) (m : Mem n K) (vw : NlsView) (del : Vec n K) (tol : K) (w : Vec n K) :
    idaCtest (C.env e) (C.mem m) vw (C.vec del) tol (C.wt w) =
      (C.mem (idaCtest e m vw del tol w).1, (idaCtest e m vw del tol w).2) := by
  unfold idaCtest
  simp only [C.norm_conv]
  show (if vw.curIter = 0 then
      (if Scalar.le (normWrms del w) (Scalar.pt0001 * e.toldel) = true then _ else _)
    else if Scalar.gt (Scalar.powf (normWrms del w / m.oldnrm) (Scalar.recip (Scalar.ofNat vw.curIter))) Scalar.pt9 = true then
      _ else _) = _
  by_cases h1 : vw.curIter = 0
  · rw [if_pos h1, if_pos h1]
    by_cases h2 : Scalar.le (normWrms del w) (Scalar.pt0001 * e.toldel) = true
    · rw [if_pos h2, if_pos h2]; rfl
    · rw [if_neg h2, if_neg h2]; rfl
  · rw [if_neg h1, if_neg h1]
    by_cases h2 : Scalar.gt (Scalar.powf (normWrms del w / m.oldnrm) (Scalar.recip (Scalar.ofNat vw.curIter))) Scalar.pt9 = true
    · rw [if_pos h2, if_pos h2]
    · rw [if_neg h2, if_neg h2]; rfl

/-! ## Newton's method -/

omit hP in
/-- The solver object. -/
def newton (N : Newton (Vec n K)) : Newton (Vec nn K) := { N with delta := C.vec N.delta }

omit hP in
def nout : NOut (Mem n K × LsMem (Matrix (Fin n) (Fin n) K)) (Vec n K) → NOut (Mem nn K × LsMem (Matrix (Fin nn) (Fin nn) K)) (Vec nn K)
  | .done N m y r => .done (C.newton N) (C.mems m) (C.vec y) r
  | .panic => .panic
  | .diverge => .diverge

theorem inner_conv (e : Env n K) (tol : K) (w : Vec n K) (fuel : Nat) : ∀ (N : Newton (Vec n K))
    (m : Mem n K × LsMem (Matrix (Fin n) (Fin n) K)) (y : Vec n K),
    newtonInner (idaNLProblemWith (inverseLs nn K) P' (C.env e)) tol (C.wt w) fuel (C.newton N) (C.mems m) (C.vec y) =
      C.nout (newtonInner (idaNLProblemWith (inverseLs n K) P e) tol w fuel N m y) := by
  induction fuel with
  | zero => intro N m y; rfl
  | succ fuel ih =>
    intro N m y
    simp only [newtonInner]
    have h1 : (idaNLProblemWith (inverseLs nn K) P' (C.env e)).solve (C.mems m) (C.vec y) (-(C.newton N).delta) =
        match lsSolveWith (inverseLs n K) e m.1 m.2 (-N.delta) with
        | none => (C.mems m, C.vec (-N.delta), .panic)
        | some (m, l, b) => (C.mems (m, l), C.vec b, .ok ()) := by
      show (match lsSolveWith (inverseLs nn K) (C.env e) (C.mem m.1) (C.lsm m.2) (C.eqn (-N.delta)) with
        | none => (C.mems m, C.vec (-N.delta), Cb.panic)
        | some (m, l, b) => ((m, l), b, .ok ())) = _
      rw [C.lsSolve_conv]
      cases lsSolveWith (inverseLs n K) e m.1 m.2 (-N.delta) with
      | none => rfl
      | some p => rfl
    have h2 : (idaNLProblemWith (inverseLs n K) P e).solve m y (-N.delta) =
        match lsSolveWith (inverseLs n K) e m.1 m.2 (-N.delta) with
        | none => (m, -N.delta, .panic)
        | some (m, l, b) => ((m, l), b, .ok ()) := rfl
    rw [h1, h2]
    cases lsSolveWith (inverseLs n K) e m.1 m.2 (-N.delta) with
    | none => rfl
    | some p =>
      obtain ⟨m, l, d⟩ := p
      simp only
      rw [C.vec_plus]
      have h3 := C.ctest_conv e m (Newton.view { N with niters := N.niters + 1, delta := d }) d tol w
      have h4 : (idaNLProblemWith (inverseLs nn K) P' (C.env e)).ctest (C.mems (m, l))
          (Newton.view { C.newton N with niters := (C.newton N).niters + 1, delta := C.vec d }) (C.vec (y + d)) (C.vec d) tol
          (C.wt w) = (C.mems ((idaCtest e m (Newton.view { N with niters := N.niters + 1, delta := d }) d tol w).1, l),
            (idaCtest e m (Newton.view { N with niters := N.niters + 1, delta := d }) d tol w).2) := by
        show (((idaCtest (C.env e) (C.mem m) (Newton.view { N with niters := N.niters + 1, delta := d }) (C.vec d) tol (C.wt w)).1,
          C.lsm l), (idaCtest (C.env e) (C.mem m) (Newton.view { N with niters := N.niters + 1, delta := d }) (C.vec d) tol
            (C.wt w)).2) = _
        rw [h3]
        rfl
      have h5 : (idaNLProblemWith (inverseLs n K) P e).ctest (m, l)
          (Newton.view { N with niters := N.niters + 1, delta := d }) (y + d) d tol w =
          (((idaCtest e m (Newton.view { N with niters := N.niters + 1, delta := d }) d tol w).1, l),
            (idaCtest e m (Newton.view { N with niters := N.niters + 1, delta := d }) d tol w).2) := rfl
      rw [h4, h5]
      generalize idaCtest e m (Newton.view { N with niters := N.niters + 1, delta := d }) d tol w = o
      obtain ⟨m, c⟩ := o
      simp only
      cases c with
      | panic => rfl
      | err e' => rfl
      | ok b =>
        cases b with
        | true => rfl
        | false =>
          simp only
          by_cases hc : N.curiter + 1 ≥ N.maxiters
          · rw [if_pos hc, if_pos (show (C.newton N).curiter + 1 ≥ (C.newton N).maxiters from hc)]; rfl
          · rw [if_neg hc, if_neg (show ¬ (C.newton N).curiter + 1 ≥ (C.newton N).maxiters from hc)]
            have h6 := C.sys_conv hP e m (y + d) d (C.vec d)
            show newtonInner (idaNLProblemWith (inverseLs nn K) P' (C.env e)) tol (C.wt w) fuel
              { C.newton N with niters := (C.newton N).niters + 1, curiter := (C.newton N).curiter + 1
                                delta := (idaSys P' (C.env e) (C.mem m) (C.vec (y + d)) (C.vec d)).2 }
              ((idaSys P' (C.env e) (C.mem m) (C.vec (y + d)) (C.vec d)).1, C.lsm l) (C.vec (y + d)) = _
            rw [h6]
            exact ih { N with niters := N.niters + 1, curiter := N.curiter + 1, delta := (idaSys P e m (y + d) d).2 }
              ((idaSys P e m (y + d) d).1, l) (y + d)

theorem attempt_conv (hn : n ≠ 0) (e : Env n K) (tol : K) (y0 w : Vec n K) (cl jb : Bool) (N : Newton (Vec n K))
    (m : Mem n K × LsMem (Matrix (Fin n) (Fin n) K)) (y : Vec n K) :
    newtonAttempt (idaNLProblemWith (inverseLs nn K) P' (C.env e)) (C.vec y0) tol (C.wt w) cl jb (C.newton N) (C.mems m) (C.vec y) =
      C.nout (newtonAttempt (idaNLProblemWith (inverseLs n K) P e) y0 tol w cl jb N m y) := by
  obtain ⟨m, l⟩ := m
  unfold newtonAttempt
  have h1 : (idaNLProblemWith (inverseLs nn K) P' (C.env e)).sys (C.mems (m, l)) (C.vec y0) (C.newton N).delta =
      (C.mems ((idaSys P e m y0 N.delta).1, l), C.eqn (idaSys P e m y0 N.delta).2, .ok ()) := by
    show (let r := idaSys P' (C.env e) (C.mem m) (C.vec y0) (C.vec N.delta); ((r.1, C.lsm l), r.2, Cb.ok ())) = _
    rw [C.sys_conv hP e m y0 N.delta]
    rfl
  have h2 : (idaNLProblemWith (inverseLs n K) P e).sys (m, l) y0 N.delta =
    (((idaSys P e m y0 N.delta).1, l), (idaSys P e m y0 N.delta).2, .ok ()) := rfl
  rw [h1, h2]
  generalize idaSys P e m y0 N.delta = o
  obtain ⟨m, d⟩ := o
  simp only
  cases cl with
  | false =>
    simp only [Bool.false_eq_true, if_false]
    exact C.inner_conv hP e tol w _ { N with delta := d, curiter := 0 } (m, l) y0
  | true =>
    simp only [if_true]
    have h3 : (idaNLProblemWith (inverseLs nn K) P' (C.env e)).setup (C.mems (m, l)) (C.vec y0) (C.eqn d) jb =
        match idaSetupWith (inverseLs n K) P e m l d with
        | none => (C.mems (m, l), .panic)
        | some m => (C.mems m, .ok true) := by
      simp only [idaNLProblemWith, mems]
      rw [C.idaSetup_conv hP hn]
      cases idaSetupWith (inverseLs n K) P e m l d with
      | none => rfl
      | some p => rfl
    have h4 : (idaNLProblemWith (inverseLs n K) P e).setup (m, l) y0 d jb =
        match idaSetupWith (inverseLs n K) P e m l d with
        | none => ((m, l), .panic)
        | some m => (m, .ok true) := by
      simp only [idaNLProblemWith]
      cases idaSetupWith (inverseLs n K) P e m l d with
      | none => rfl
      | some p => rfl
    rw [h3, h4]
    cases idaSetupWith (inverseLs n K) P e m l d with
    | none => rfl
    | some m =>
      simp only
      exact C.inner_conv hP e tol w _ { N with delta := d, jcur := true, curiter := 0 } m y0

theorem outer_conv (hn : n ≠ 0) (e : Env n K) (tol : K) (y0 w : Vec n K) (fuel : Nat) : ∀ (cl jb : Bool) (N : Newton (Vec n K))
    (m : Mem n K × LsMem (Matrix (Fin n) (Fin n) K)) (y : Vec n K),
    newtonOuter (idaNLProblemWith (inverseLs nn K) P' (C.env e)) (C.vec y0) tol (C.wt w) fuel cl jb (C.newton N) (C.mems m) (C.vec y) =
      C.nout (newtonOuter (idaNLProblemWith (inverseLs n K) P e) y0 tol w fuel cl jb N m y) := by
  induction fuel with
  | zero => intro cl jb N m y; rfl
  | succ fuel ih =>
    intro cl jb N m y
    simp only [newtonOuter]
    rw [C.attempt_conv hP hn]
    cases newtonAttempt (idaNLProblemWith (inverseLs n K) P e) y0 tol w cl jb N m y with
    | panic => rfl
    | diverge => rfl
    | done N m y r =>
      cases r with
      | ok a => rfl
      | error e' =>
        simp only [nout]
        by_cases h1 : e'.isConvRecover = true
        · rw [if_pos h1, if_pos h1]
          by_cases hj : (!N.jcur) = true
          · rw [if_pos hj, if_pos (show (!(C.newton N).jcur) = true from hj)]
            exact ih true true { N with nconvfails := N.nconvfails + 1 } m y
          · rw [if_neg hj, if_neg (show ¬ (!(C.newton N).jcur) = true from hj)]
            exact ih cl jb N m y
        · rw [if_neg h1, if_neg h1]
          rfl

end

end Spec.Copies

end Verif
