import Verif.Proofs.LsAny
import Verif.Proofs.Returns
import Verif.Witness

/-!
# C70 - C73: the linear solver is exchangeable; what happens when it fails

`Ida<P, LS, Newton, _>` for any implementation `LS` of the trait `LSolver`.
-/

set_option autoImplicit false
set_option linter.unusedSectionVars false
set_option linter.unusedVariables false

namespace Verif.Props

open Verif.Spec Verif.Witness

universe u v w

/-! ## C70 -/

section
variable {n q : Nat} {K : Type u} [Scalar K] {L : Type v}

/-- **C70, `Dense` through the trait.** The integrator with `Dense` plugged in through the trait `LSolver` gives in every
session the results, statistics and user calls of `Model/Nls.lean`, where `Dense` is built in (any scalar type, any size). -/
theorem c70_dense_is_an_instance (P : Problem n q K) (tol : TolControl n K) (fuel rf sf : Nat) (y0 yp0 : Vec n K) (ts : Option K)
    (ops : List (Op K)) :
    session (Cfg.newtonWith (denseLs n K) P tol fuel) rf sf { State.new (newtonWith0 (fun _ => 0)) y0 yp0 with tstop := ts } ops =
      session (Cfg.newton P tol fuel) rf sf { State.new newton0 y0 yp0 with tstop := ts } ops := by
  have h0 : FitSim (R0 := DenseGear) (R := DenseGear) { State.new newton0 y0 yp0 with tstop := ts }
      ({ State.new (newtonWith0 (fun _ => 0)) y0 yp0 with tstop := ts } : State _ n q K) :=
    ⟨State.gear ({ State.new (newtonWith0 (fun _ => 0)) y0 yp0 with tstop := ts } : State _ n q K), rfl, ⟨rfl, rfl, rfl⟩,
      fun h => absurd rfl h⟩
  refine session_fit (cfg := Cfg.newton P tol fuel) (dense_nlsSim P fuel) (fun g k h => ?_) rf sf ops _ _ h0
  show g.nls.niters = k.nls.1.niters
  rw [h.1]

/-- **C70, what holds for every linear solver.** Whatever the linear solver does, Newton's method only passes on errors the
integrator can handle (in fact none), calls only the residual and the Jacobian, and does not read the output vectors: the
theorems of this development about an arbitrary nonlinear solver apply. -/
theorem c70_any_linear_solver (S : LSolver L n K) (P : Problem n q K) (tol : TolControl n K) (fuel : Nat) :
    NlsLegal (Cfg.newtonWith S P tol fuel) ∧ NlsKeepsLog (Cfg.newtonWith S P tol fuel) ∧
    NlsNoRoot (Cfg.newtonWith S P tol fuel) ∧ NlsBlind (Cfg.newtonWith S P tol fuel) :=
  ⟨newtonWith_legal S P tol fuel, newtonWith_keepsLog S P tol fuel, newtonWith_noRoot S P tol fuel,
    newtonWith_nlsBlind S P tol fuel⟩

end

section
variable {K : Type u} [Field K] [LinearOrder K] [IsStrictOrderedRing K] [ExactParams K] {n q : Nat} {L : Type v} {L' : Type w}

/-- **C70, any two correct linear solvers.** With two correct direct linear solvers every session on every problem is the same:
results of the calls, everything the getters return, calls of the user's functions. -/
theorem c70_same_session (hn : n ≠ 0) {S : LSolver L n K} {Ok : L → Prop} {Holds : L → Mat K → Mat K → Prop}
    (hS : ExactLs S Ok Holds) {S' : LSolver L' n K} {Ok' : L' → Prop} {Holds' : L' → Mat K → Mat K → Prop}
    (hS' : ExactLs S' Ok' Holds') (P : Problem n q K) (tol : TolControl n K) (fuel rf sf : Nat) (y0 yp0 : Vec n K)
    (ts : Option K) (l : L) (hl : Ok l) (l' : L') (hl' : Ok' l') (ops : List (Op K)) :
    session (Cfg.newtonWith S' P tol fuel) rf sf { State.new (newtonWith0 l') y0 yp0 with tstop := ts } ops =
      session (Cfg.newtonWith S P tol fuel) rf sf { State.new (newtonWith0 l) y0 yp0 with tstop := ts } ops := by
  have h0 : FitSim (R0 := LsGear0 fun l l' => Ok l ∧ Ok' l')
      (R := LsGear fun l a l' a' => (Ok l ∧ Ok' l') ∧ ∃ A, Regular A n ∧ Holds l a A ∧ Holds' l' a' A)
      { State.new (newtonWith0 l) y0 yp0 with tstop := ts }
      ({ State.new (newtonWith0 l') y0 yp0 with tstop := ts } : State _ n q K) :=
    ⟨State.gear ({ State.new (newtonWith0 l') y0 yp0 with tstop := ts } : State _ n q K), rfl, ⟨rfl, hl, hl'⟩,
      fun h => absurd rfl h⟩
  refine session_fit (cfg := Cfg.newtonWith S P tol fuel) (ls_nlsSim hn (exact_lsSim hS hS') P fuel) (fun g k h => ?_) rf sf ops
    _ _ h0
  show g.nls.1.niters = k.nls.1.niters
  rw [h.1]

/-- **C70, any correct linear solver behaves like `Dense`.** -/
theorem c70_like_dense (hn : n ≠ 0) {S : LSolver L n K} {Ok : L → Prop} {Holds : L → Mat K → Mat K → Prop}
    (hS : ExactLs S Ok Holds) (P : Problem n q K) (tol : TolControl n K) (fuel rf sf : Nat) (y0 yp0 : Vec n K)
    (ts : Option K) (l : L) (hl : Ok l) (ops : List (Op K)) :
    session (Cfg.newtonWith S P tol fuel) rf sf { State.new (newtonWith0 l) y0 yp0 with tstop := ts } ops =
      session (Cfg.newton P tol fuel) rf sf { State.new newton0 y0 yp0 with tstop := ts } ops := by
  rw [← c70_dense_is_an_instance P tol fuel rf sf y0 yp0 ts ops]
  exact c70_same_session hn (dense_exact (Nat.pos_of_ne_zero hn)) hS P tol fuel rf sf y0 yp0 ts _ trivial l hl ops

/-- A linear solver that keeps the matrix and multiplies by its inverse. -/
noncomputable def inverseLs (n : Nat) (K : Type u) [Field K] [LinearOrder K] [ExactParams K] :
    LSolver (Matrix (Fin n) (Fin n) K) n K where
  kind _ := .direct
  setScaling l _ _ := l
  setup _ A := (asMatrix n A, A, if (asMatrix n A).det = 0 then .err else .ok)
  solve l _ _ b _ := (l, l⁻¹.mulVec b, .ok)
  numIters _ := 0

/-- Non-vacuity: besides `Dense` the solver by inverses is correct. -/
theorem inverse_exact : ExactLs (inverseLs n K) (fun _ => True) (fun l _ A => l = asMatrix n A ∧ Regular A n) := by
  refine ⟨fun _ _ => by simp [inverseLs], ?_, ?_, fun l w w' _ => ⟨trivial, rfl, fun _ _ h => h⟩, ?_⟩
  · intro l A _ hA
    refine ⟨asMatrix n A, A, ?_, trivial, rfl, hA⟩
    simp only [inverseLs, if_neg ((regular_iff_det A).1 hA)]
  · intro l A _ hA h
    apply hA
    rw [regular_iff_det]
    intro h0
    simp only [inverseLs, if_pos h0] at h
    cases h
  · rintro l a A x b tol - ⟨rfl, hA⟩
    refine ⟨_, _, rfl, trivial, ⟨rfl, hA⟩, fun i => ?_, by simp [inverseLs]⟩
    have hdet : IsUnit (asMatrix n A).det := isUnit_iff_ne_zero.2 ((regular_iff_det A).1 hA)
    have h1 : (asMatrix n A).mulVec ((asMatrix n A)⁻¹.mulVec b) = b := by
      rw [Matrix.mulVec_mulVec, Matrix.mul_nonsing_inv _ hdet, Matrix.one_mulVec]
    have h2 := congrFun h1 i
    simpa [Matrix.mulVec, dotProduct, asMatrix] using h2

/-- C70 for the solver by inverses. -/
example (hn : n ≠ 0) (P : Problem n q K) (tol : TolControl n K) (fuel rf sf : Nat) (y0 yp0 : Vec n K) (ops : List (Op K)) :
    session (Cfg.newtonWith (inverseLs n K) P tol fuel) rf sf { State.new (newtonWith0 0) y0 yp0 with tstop := none } ops =
      session (Cfg.newton P tol fuel) rf sf { State.new newton0 y0 yp0 with tstop := none } ops :=
  c70_like_dense hn inverse_exact P tol fuel rf sf y0 yp0 none 0 trivial ops

end

/-! ## Witnesses -/

/-- A linear solver under another name: it calls itself `k` and reports `it` iterations for every solve. -/
def relabel {L : Type v} {n : Nat} {K : Type u} (S : LSolver L n K) (k : LsType) (it : Nat) : LSolver L n K :=
  { S with kind := fun _ => k, numIters := fun _ => it }

/-- A linear solver whose `solve` always returns `Err` and leaves the initial guess alone. -/
def brokenLs : LSolver Unit 1 ℚ where
  kind _ := .direct
  setScaling l _ _ := l
  setup l a := (l, a, .ok)
  solve l _ x _ _ := (l, x, .err)
  numIters _ := 0

/-- `Ida::new` with `y(0) = 1`, `y'(0) = -1`. -/
def start1 {L : Type} (l0 : L) : State (Newton (Vec 1 ℚ) × LsMem L) 1 0 ℚ := State.new (newtonWith0 l0) (fun _ => 1) (fun _ => -1)

/-- Absolute and relative tolerance `1/100`. -/
def tol1 : TolControl 1 ℚ := .ss (1 / 100) (1 / 100)

def Res.success {n : Nat} {K : Type u} : Res n K → Bool
  | .solved (.ok .success) => true
  | _ => false

/-! ## C71 -/

/-- **C71 is refuted.** `y' + y = 0`, `y(0) = 1` on `[0, 1]` with tolerances `1/100` and a linear solver that reports failure
for every system it is asked to solve: `solve(1)` returns `Ok(Success)` with `y(1) = 0`, where the solution is `exp(-1) > 1/3`,
and a residual of `-1`; no failure of any kind is reported by the statistics. -/
theorem c71_failures_hidden : ∃ s', run (Cfg.newtonWith brokenLs decay tol1 3) 10 30 [.solve 1 0 .normal] (start1 ()) =
      some (s', [.solved (.ok .success)]) ∧ s'.tret = 1 ∧ getYy s' 0 = 0 ∧ getYp s' 0 + getYy s' 0 = -1 ∧ 0 < getNumSteps s' ∧
    getNumNonlinSolvConvFails s' = 0 ∧ getNumErrTestFails s' = 0 := by
  have h : ((run (Cfg.newtonWith brokenLs decay tol1 3) 10 30 [.solve 1 0 .normal] (start1 ())).map fun p =>
      p.2.length == 1 && p.2.all Res.success && decide (p.1.tret = 1) && decide (getYy p.1 0 = 0) &&
      decide (getYp p.1 0 + getYy p.1 0 = -1) && decide (0 < getNumSteps p.1) &&
      decide (getNumNonlinSolvConvFails p.1 = 0) && decide (getNumErrTestFails p.1 = 0)) = some true := by decide +kernel
  obtain ⟨s', l, h1, h2⟩ := run_witness (P := fun s l => l.length == 1 && l.all Res.success && decide (s.tret = 1) &&
    decide (getYy s 0 = 0) && decide (getYp s 0 + getYy s 0 = -1) && decide (0 < getNumSteps s) &&
    decide (getNumNonlinSolvConvFails s = 0) && decide (getNumErrTestFails s = 0)) h
  simp only [Bool.and_eq_true, decide_eq_true_eq, beq_iff_eq] at h2
  obtain ⟨⟨⟨⟨⟨⟨⟨a, b⟩, c⟩, d⟩, d'⟩, e⟩, f⟩, g⟩ := h2
  refine ⟨s', ?_, c, d, d', e, f, g⟩
  rw [h1]
  match l, a, b with
  | [.solved (.ok .success)], _, _ => rfl

section
variable {K : Type u} [Field K] [LinearOrder K] [IsStrictOrderedRing K] [ExactParams K] {n q : Nat} {L : Type v}

/-- **C71, in general.** A direct linear solver whose `solve` fails and leaves the initial guess alone makes Newton's method
report success with the correction it started from, for every equation, after one iteration. -/
theorem c71_failed_solves_accepted (h0 : ExactParams.sqrt (0 : K) = 0) (S : LSolver L n K)
    (hk : ∀ l, S.kind l = .direct) (hs : ∀ l a x b tol, (S.solve l a x b tol).2 = (x, .err))
    (hu : ∀ l A, (S.setup l A).2.2 = .ok) (P : Problem n q K) (fuel : Nat) (N : Newton (Vec n K) × LsMem L) (e : Env n K)
    (he : 0 ≤ e.toldel) (m : Mem n K) (y0 y w : Vec n K) (tol : K) (call : Bool) :
    ∃ N' m', (newtonNlsWith S P (fuel + 1)).solve N e m y0 y w tol call = .ret N' m' y0 (.ok ()) ∧ m'.ncfl = m.ncfl + 1 := by
  have hsolve : ∀ (m : Mem n K) (l : LsMem L) (b : Vec n K), ∃ m' l', lsSolveWith S e m l b = some (m', l', vzero) ∧
      m'.ncfl = m.ncfl + 1 := by
    intro m l b
    unfold lsSolveWith
    simp only [hk]
    have h1 := hs (S.setScaling l.ls e.ewt e.ewt) m.matJ vzero b (lsTol n .direct)
    generalize S.solve (S.setScaling l.ls e.ewt e.ewt) m.matJ vzero b (lsTol n .direct) = z at h1 ⊢
    obtain ⟨l1, x, r⟩ := z
    cases h1
    have h2 : lsResult .direct (S.numIters l1) m.cjratio (vzero : Vec n K) b = vzero := by
      unfold lsResult
      simp only [ne_eq, not_true, false_and, if_false]
      split
      · funext i; simp [vscale, vzero]
      · rfl
    simp only [h2]
    exact ⟨_, _, rfl, rfl⟩
  have hinner : ∀ (k : Nat) (N : Newton (Vec n K)) (m : Mem n K) (l : LsMem L), N.curiter = 0 →
      ∃ N' m' l', newtonInner (idaNLProblemWith S P e) tol w (k + 1) N (m, l) y0 = .done N' (m', l') y0 (.ok ()) ∧
        m'.ncfl = m.ncfl + 1 := by
    intro k N m l hN
    obtain ⟨m1, l1, h1, h2⟩ := hsolve m l (-N.delta)
    unfold newtonInner
    have h3 : y0 + (vzero : Vec n K) = y0 := by funext i; exact add_zero _
    have h4 : normWrms (vzero : Vec n K) w = 0 := by
      have := wrmsNorm_zero h0 (fun _ => true) w false
      exact this
    have h5 : Scalar.le (0 : K) (Scalar.pt0001 * e.toldel) = true := by
      have : (0 : K) ≤ Scalar.pt0001 * e.toldel := mul_nonneg (by simp) he
      simpa using this
    simp only [idaNLProblemWith, h1, h3, idaCtest, Newton.view, hN, h4, if_true, h5]
    exact ⟨_, _, _, rfl, h2⟩
  have hsetup : ∀ (m : Mem n K) (l : LsMem L) (f : Vec n K), ∃ m' l', idaSetupWith S P e m l f = some (m', l') ∧
      m'.ncfl = m.ncfl := by
    intro m l f
    unfold idaSetupWith lsSetupWith
    by_cases hn : n = 0
    · simp only [if_pos hn]
      have h2 := hu l.ls m.matJ
      generalize S.setup l.ls m.matJ = z at h2 ⊢
      obtain ⟨l1, a, r⟩ := z
      cases h2
      exact ⟨_, _, rfl, rfl⟩
    · simp only [if_neg hn]
      have h2 := hu l.ls (P.jac 0 e.cj m.yy m.yp f (fun _ _ => 0))
      generalize S.setup l.ls (P.jac 0 e.cj m.yy m.yp f (fun _ _ => 0)) = z at h2 ⊢
      obtain ⟨l1, a, r⟩ := z
      cases h2
      exact ⟨_, _, rfl, rfl⟩
  have hatt : ∃ N' m' l', newtonAttempt (idaNLProblemWith S P e) y0 tol w call false N.1 (m, N.2) y =
      .done N' (m', l') y0 (.ok ()) ∧ m'.ncfl = m.ncfl + 1 := by
    unfold newtonAttempt
    cases call with
    | false => exact hinner _ _ _ _ rfl
    | true =>
      obtain ⟨m1, l1, h1, h2⟩ := hsetup (idaSys P e m y0 N.1.delta).1 N.2 (idaSys P e m y0 N.1.delta).2
      obtain ⟨N', m', l', h3, h4⟩ := hinner N.1.maxiters { N.1 with delta := (idaSys P e m y0 N.1.delta).2, jcur := true, curiter := 0 }
        m1 l1 rfl
      refine ⟨N', m', l', ?_, h4.trans (by rw [h2]; rfl)⟩
      have hsys : (idaNLProblemWith S P e).sys (m, N.2) y0 N.1.delta =
        (((idaSys P e m y0 N.1.delta).1, N.2), (idaSys P e m y0 N.1.delta).2, .ok ()) := rfl
      have hset : (idaNLProblemWith S P e).setup ((idaSys P e m y0 N.1.delta).1, N.2) y0 (idaSys P e m y0 N.1.delta).2 false =
        ((m1, l1), .ok true) := by simp only [idaNLProblemWith, h1]
      simp only [hsys, hset, if_true]
      exact h3
  obtain ⟨N', m', l', h1, h2⟩ := hatt
  refine ⟨(N', l'), m', ?_, h2⟩
  unfold newtonNlsWith newtonSolve newtonOuter
  simp only [h1]

end

section
variable {n q : Nat} {K : Type u} [Scalar K] {L : Type v}

/-- Newton's method does not return if the linear solver cannot be set up. -/
theorem newtonWith_stuck {S : LSolver L n K} (hS : ∀ l A, (S.setup l A).2.2 ≠ .ok) (P : Problem n q K) (fuel : Nat)
    (N : Newton (Vec n K) × LsMem L) (e : Env n K) (m : Mem n K) (y0 y w : Vec n K) (tol : K) :
    ∀ N' m' ee r, (newtonNlsWith S P fuel).solve N e m y0 y w tol true ≠ .ret N' m' ee r := by
  intro N' m' ee r
  unfold newtonNlsWith newtonSolve
  cases fuel with
  | zero => simp [newtonOuter]
  | succ fuel =>
    have h : newtonAttempt (idaNLProblemWith S P e) y0 tol w true false N.1 (m, N.2) y = .panic := by
      have h1 : ∀ (m : Mem n K) (l : LsMem L) (f : Vec n K), idaSetupWith S P e m l f = none := by
        intro m l f
        unfold idaSetupWith lsSetupWith
        simp only
        generalize (if n = 0 then _ else _ : Mem n K) = m1
        have h2 := hS l.ls m1.matJ
        generalize S.setup l.ls m1.matJ = z at h2 ⊢
        obtain ⟨l1, a, r⟩ := z
        cases r
        · exact absurd rfl h2
        · rfl
        · rfl
      unfold newtonAttempt
      simp [idaNLProblemWith, h1]
    simp [newtonOuter, h]

theorem step_stuck {ν : Type w} {cfg : Cfg ν n q K} (hN : ∀ N e m y0 y w tol N' m' ee r,
    cfg.nls.solve N e m y0 y w tol true ≠ .ret N' m' ee r) {s : State ν n q K} (h0 : s.cnt.nst = 0) (s' : State ν n q K)
    (r : Except Err Unit) : step cfg s ≠ .ret s' r := by
  have h1 : ∀ s : State ν n q K, s.cnt.nst = 0 → ∀ s' r, nonlinearSolve cfg s ≠ .ret s' r := by
    intro s h0 s' r
    have hc : (nlsPrepare s).2 = true := by
      by_contra hc
      exact nlsPrepare_call (by simpa using hc) h0
    unfold nonlinearSolve
    simp only [hc]
    generalize hz : cfg.nls.solve s.nls s.e (nlsPrepare s).1 vzero s.ee s.e.ewt s.epsNewt true = z
    cases z with
    | panic => simp
    | diverge => simp
    | ret N m ee r => exact absurd hz (hN _ _ _ _ _ _ _ _ _ _ _)
  unfold step stepLoop attempt trial
  intro h
  have h2 := (firstStepInit_cnt s).1
  generalize firstStepInit s = s0 at h h2
  cases hs : setCoeffs s0 with
  | none => rw [hs] at h; cases h
  | some p =>
    obtain ⟨s1, ck⟩ := p
    rw [hs] at h
    simp only at h
    have h3 := (setCoeffs_keeps hs).2
    cases hp : predict (advanceTime s1) with
    | none => rw [hp] at h; cases h
    | some s2 =>
      rw [hp] at h
      simp only at h
      have h4 := (predict_keeps hp).2
      have h5 : s2.cnt.nst = 0 := by
        rw [h4]; show s1.cnt.nst = 0; rw [h3, h2]; exact h0
      cases hz : nonlinearSolve cfg s2 with
      | panic => rw [hz] at h; cases h
      | diverge => rw [hz] at h; cases h
      | ret s3 r => exact h1 s2 h5 _ _ hz

theorem solve_stuck {ν : Type w} {cfg : Cfg ν n q K} (hN : ∀ N e m y0 y w tol N' m' ee r,
    cfg.nls.solve N e m y0 y w tol true ≠ .ret N' m' ee r) {rf sf : Nat} {s s' : State ν n q K} (h0 : s.cnt.nst = 0) {tout : K}
    {task : Task} {r : Except Err Status} (h : solve cfg rf sf s tout task = .ret s' r) : s'.cnt.nst = 0 ∧ ∃ e, r = .error e := by
  rw [solve_parts] at h
  have e1 : ({ (if task = .normal then { s with r.toutc := tout } else s) with r.taskc := task } : State ν n q K).cnt.nst = 0 := by
    split <;> exact h0
  generalize ({ (if task = .normal then { s with r.toutc := tout } else s) with r.taskc := task } : State ν n q K) = s1 at e1 h
  unfold solveRest at h
  rw [if_pos e1] at h
  cases hf : firstCall cfg s1 tout with
  | panic => rw [hf] at h; cases h
  | diverge => rw [hf] at h; cases h
  | ret s2 r2 =>
    have h2 : s2.cnt.nst = 0 := by rw [firstCall_cnt hf]; exact e1
    rw [hf] at h
    cases r2 with
    | error e => cases h; exact ⟨h2, e, rfl⟩
    | ok u =>
      simp only [Out.bind] at h
      have h3 : (perfReset s2).cnt.nst = 0 := h2
      generalize perfReset s2 = s3 at h3 h
      rw [if_neg (by omega)] at h
      simp only [Flow.andThen] at h
      cases sf with
      | zero => cases h
      | succ sf =>
        unfold solveLoop solvePass at h
        cases hp : preStep cfg s3 0 with
        | panic => rw [hp] at h; cases h
        | diverge => rw [hp] at h; cases h
        | go s4 =>
          rw [hp] at h
          simp only at h
          have h4 : s4.cnt.nst = 0 := by rw [((preStep_micro).1 s4 hp).2.1]; exact h3
          cases hs : step cfg s4 with
          | panic => rw [hs] at h; cases h
          | diverge => rw [hs] at h; cases h
          | ret s5 r5 => exact absurd hs (step_stuck hN h4 _ _)
        | ret s4 r4 =>
          rw [hp] at h
          cases h
          obtain ⟨-, h4, -, h5⟩ := (preStep_micro).2 s' r hp
          exact ⟨by rw [(h4 h3).cnt]; exact h3, h5⟩

/-- **C71, partial: a failed `setup` is not hidden.** If the linear solver cannot be set up, no call of `solve` takes a step or
returns `Ok`, in any history (any scalar type).  What is missing: failures of the linear solver's `solve`, which
are ignored. -/
theorem c71_setup_failure_partial (S : LSolver L n K) (hS : ∀ l A, (S.setup l A).2.2 ≠ .ok) (P : Problem n q K)
    (tol : TolControl n K) (fuel : Nat) (s : State (Newton (Vec n K) × LsMem L) n q K)
    (h : Reach (Cfg.newtonWith S P tol fuel) s) :
    getNumSteps s = 0 ∧ ∀ rf sf tout tret task s' r,
      exec (Cfg.newtonWith S P tol fuel) rf sf s (.solve tout tret task) = some (s', .solved r) → ∃ e, r = .error e := by
  have hN : ∀ N e m y0 y w tol' N' m' ee r, (Cfg.newtonWith S P tol fuel).nls.solve N e m y0 y w tol' true ≠ .ret N' m' ee r :=
    fun N e m y0 y w tol' N' m' ee r => newtonWith_stuck hS P fuel N e m y0 y w tol' N' m' ee r
  have key : ∀ s : State (Newton (Vec n K) × LsMem L) n q K, s.cnt.nst = 0 → ∀ rf sf op s' r,
      exec (Cfg.newtonWith S P tol fuel) rf sf s op = some (s', r) →
        s'.cnt.nst = 0 ∧ ∀ r', r = .solved r' → ∃ e, r' = .error e := by
    intro s h0 rf sf op s' r h
    cases op with
    | solve tout tret task =>
      unfold exec at h
      simp only at h
      split at h
      · rename_i h1
        cases h
        obtain ⟨h2, h3⟩ := solve_stuck hN (by exact h0) h1
        exact ⟨h2, fun r' hr => by cases hr; exact h3⟩
      · cases h
    | getSolution t =>
      unfold exec at h
      simp only at h
      split at h
      · rename_i h1
        cases h
        exact ⟨by rw [(getSolution_frame h1).1.cnt]; exact h0, fun r' hr => by cases hr⟩
      · cases h
    | getDky t k =>
      unfold exec at h
      simp only at h
      split at h
      · rename_i h1
        cases h
        refine ⟨?_, fun r' hr => by cases hr⟩
        unfold getDky at h1
        simp only at h1
        repeat' split at h1
        all_goals first | (cases h1; exact h0) | cases h1
      · cases h
  have h0 : s.cnt.nst = 0 := by
    induction h with
    | new => rfl
    | call rf sf op r _ hx ih => exact (key _ ih rf sf op _ r hx).1
  exact ⟨h0, fun rf sf tout tret task s' r hx => (key s h0 rf sf _ s' _ hx).2 r rfl⟩

end

/-- Non-vacuity: a linear solver whose `setup` always fails; the call of `solve` panics, `get_solution` returns. -/
def refusingLs : LSolver Unit 1 ℚ := { brokenLs with setup := fun l a => (l, a, .err) }

example : run (Cfg.newtonWith refusingLs decay tol1 3) 10 30 [.solve 1 0 .normal] (start1 ()) = none := by decide +kernel

example : Reach (Cfg.newtonWith refusingLs decay tol1 3) { start1 () with tstop := none } ∧
    ∃ s', exec (Cfg.newtonWith refusingLs decay tol1 3) 10 30 { start1 () with tstop := none } (.solve 0 0 .normal) =
      some (s', .solved (.error (.ida .illegalInput))) := by
  refine ⟨Reach.new _ _ _ _, ?_⟩
  have h : (match exec (Cfg.newtonWith refusingLs decay tol1 3) 10 30 { start1 () with tstop := none } (.solve 0 0 .normal) with
    | some (_, .solved (.error (.ida .illegalInput))) => true | _ => false) = true := by decide +kernel
  split at h
  · rename_i s' he; exact ⟨s', he⟩
  · cases h

/-! ## C72 -/

/-- A linear solver that counts its iterations: one for every system. -/
def countingLs : LSolver ((Nat → Nat) × Nat) 1 ℚ where
  kind _ := .matrixIterative
  setScaling l _ _ := l
  setup l a := let r := (denseLs 1 ℚ).setup l.1 a; ((r.1, l.2), r.2)
  solve l a x b tol := let r := (denseLs 1 ℚ).solve l.1 a x b tol; ((r.1, l.2 + 1), r.2)
  numIters _ := 1

/-- **C72 is refuted.** After one step with a matrix-iterative solver that has performed at least one iteration, and
reported it, `get_num_lin_iters` returns 0. -/
theorem c72_lin_iters_not_reported : ∃ s', run (Cfg.newtonWith countingLs decay tol1 3) 10 30 [.solve 1000 0 .oneStep]
      (start1 ((fun _ => 0), 0)) = some (s', [.solved (.ok .success)]) ∧
    0 < s'.nls.2.ls.2 ∧ getNumLinIters s' = 0 := by
  have h : ((run (Cfg.newtonWith countingLs decay tol1 3) 10 30 [.solve 1000 0 .oneStep] (start1 ((fun _ => 0), 0))).map fun p =>
      p.2.length == 1 && p.2.all Res.success && decide (0 < p.1.nls.2.ls.2)) = some true := by decide +kernel
  obtain ⟨s', l, h1, h2⟩ := run_witness (P := fun (s : State (Newton (Vec 1 ℚ) × LsMem ((Nat → Nat) × Nat)) 1 0 ℚ) l =>
    l.length == 1 && l.all Res.success && decide (0 < s.nls.2.ls.2)) h
  simp only [Bool.and_eq_true, decide_eq_true_eq, beq_iff_eq] at h2
  obtain ⟨⟨a, b⟩, c⟩ := h2
  refine ⟨s', ?_, c, rfl⟩
  rw [h1]
  match l, a, b with
  | [.solved (.ok .success)], _, _ => rfl

section
variable {n q : Nat} {K : Type u} [Scalar K] {L : Type v}

/-- **C72, partial: the number is right for direct solvers**, for which no iterations are counted, in every history (any
scalar type). -/
theorem c72_direct_partial (S : LSolver L n K) (hS : ∀ l, S.kind l = .direct) (P : Problem n q K) (tol : TolControl n K)
    (fuel : Nat) (l0 : L) (y0 yp0 : Vec n K) (ts : Option K) (s : State (Newton (Vec n K) × LsMem L) n q K)
    (h : Later (Cfg.newtonWith S P tol fuel) { State.new (newtonWith0 l0) y0 yp0 with tstop := ts } s) :
    getNumLinIters s = s.nls.2.nli := by
  have hN : NlsSim (newtonNlsWith S P fuel) (newtonNlsWith S P fuel) (fun g k => k = g ∧ g.nls.2.nli = 0)
      (fun g k => k = g ∧ g.nls.2.nli = 0) := by
    refine ⟨fun _ _ h => h, ?_⟩
    rintro N e m y0 y w tol call k ⟨rfl, h0⟩ -
    have hc : CbInv (idaNLProblemWith S P e) (fun p => p.2.nli = 0) (fun _ => True) := by
      refine ⟨fun p y b h => ⟨h, fun _ _ => trivial⟩, fun p y f j h => ⟨?_, fun _ _ => trivial⟩,
        fun p y b h => ⟨?_, fun _ _ => trivial⟩, fun p vw y d tol w h => ⟨h, fun _ _ => trivial⟩⟩
      · obtain ⟨m, l⟩ := p
        simp only [idaNLProblemWith, idaSetupWith, lsSetupWith]
        generalize (if n = 0 then _ else _ : Mem n K) = m1
        rcases S.setup l.ls m1.matJ with ⟨l1, a, _ | _ | _⟩ <;> exact h
      · obtain ⟨m, l⟩ := p
        simp only [idaNLProblemWith, lsSolveWith, hS, if_true]
        rcases S.solve (S.setScaling l.ls e.ewt e.ewt) m.matJ vzero b (lsTol n .direct) with ⟨l1, x, _ | _ | _⟩ <;> exact h
    have e1 : m.swap (m.gear N) = m := rfl
    rw [e1]
    show NlOut.Both _ ((newtonNlsWith S P fuel).solve N e m y0 y w tol call) ((newtonNlsWith S P fuel).solve N e m y0 y w tol call)
    cases hz : (newtonNlsWith S P fuel).solve N e m y0 y w tol call with
    | panic => exact .panic
    | diverge => exact .diverge
    | ret N' m' ee r =>
      refine .ret N' m' (m'.gear N') ee r ⟨rfl, ?_⟩
      unfold newtonNlsWith at hz
      simp only at hz
      split at hz
      · rename_i h1
        cases hz
        exact (newtonSolve_inv hc trivial fuel h0 h1).1
      · cases hz
      · cases hz
  have key : FitSim (fun g k : Gear (Newton (Vec n K) × LsMem L) n K => k = g ∧ g.nls.2.nli = 0)
      (fun g k => k = g ∧ g.nls.2.nli = 0) s s := by
    induction h with
    | refl => exact ⟨_, rfl, ⟨rfl, rfl⟩, fun _ => ⟨rfl, rfl⟩⟩
    | call rf sf op r _ hx ih =>
      rcases exec_fit (cfg := Cfg.newtonWith S P tol fuel) hN rf sf op ih with ⟨h1, -⟩ | ⟨s1, s1', r', h1, h2, h3⟩
      · rw [hx] at h1; cases h1
      · rw [hx] at h1
        cases h1
        obtain ⟨k, -, ⟨rfl, h4⟩, -⟩ := h3
        exact ⟨_, rfl, ⟨rfl, h4⟩, fun _ => ⟨rfl, h4⟩⟩
  obtain ⟨k, -, ⟨-, h4⟩, -⟩ := key
  exact h4.symm

end

/-! ## C73 -/

/-- `y' + y = 0` scaled by `1/1000`. -/
def slow : Problem 1 0 ℚ where
  res _ y yp _ := fun i => (yp i + y i) / 1000
  jac _ cj _ _ _ _ := fun _ _ => (cj + 1) / 1000
  root _ _ _ b := b

/-- **C73 is refuted, first way.** `Dense` under the name of a matrix-iterative solver that uses the default `num_iters`: the
solution is thrown away and the negative residual used as the correction.  Both runs report success, with different values. -/
theorem c73_no_iterations_reported :
    (run (Cfg.newtonWith (denseLs 1 ℚ) slow tol1 3) 10 30 [.solve 1000 0 .oneStep] (start1 fun _ => 0)).map
        (fun p => (p.2.all Res.success, getYy p.1 0)) = some (true, 100 / 101) ∧
    (run (Cfg.newtonWith (relabel (denseLs 1 ℚ) .matrixIterative 0) slow tol1 3) 10 30 [.solve 1000 0 .oneStep]
        (start1 fun _ => 0)).map (fun p => (p.2.all Res.success, getYy p.1 0)) = some (true, 99001 / 100000) := by
  refine ⟨by decide +kernel, by decide +kernel⟩

/-- **C73 is refuted, second way.** `Dense` under the name of an iterative solver: the correction is no longer scaled when the
matrix is out of date. -/
theorem c73_iterative_not_scaled :
    (run (Cfg.newtonWith (denseLs 1 ℚ) decay tol1 3) 10 30 (steps 3) (start1 fun _ => 0)).map
        (fun p => (p.2.all Res.success, getYy p.1 0)) = some (true, 6930297 / 7212107) ∧
    (run (Cfg.newtonWith (relabel (denseLs 1 ℚ) .iterative 1) decay tol1 3) 10 30 (steps 3) (start1 fun _ => 0)).map
        (fun p => (p.2.all Res.success, getYy p.1 0)) = some (true, 990050 / 1030301) := by
  refine ⟨by decide +kernel, by decide +kernel⟩

section
variable {K : Type u} [Field K] [LinearOrder K] [IsStrictOrderedRing K] [ExactParams K] {n q : Nat} {L : Type v}

/-- **C73, partial: the name does not matter as long as it is not `Iterative` and iterations are reported.** A correct linear
solver gives the same session under the name of a direct solver, whatever number of iterations it reports, and under the name of
a matrix-iterative solver that reports at least one iteration.  What is missing: the other names, for which it is false. -/
theorem c73_name_partial (hn : n ≠ 0) {S : LSolver L n K} {Ok : L → Prop} {Holds : L → Mat K → Mat K → Prop}
    (hS : ExactLs S Ok Holds) (k : LsType) (it : Nat) (hk : k ≠ .iterative) (hi : k = .matrixIterative → 0 < it)
    (P : Problem n q K) (tol : TolControl n K) (fuel rf sf : Nat) (y0 yp0 : Vec n K)
    (ts : Option K) (l : L) (hl : Ok l) (ops : List (Op K)) :
    session (Cfg.newtonWith (relabel S k it) P tol fuel) rf sf { State.new (newtonWith0 l) y0 yp0 with tstop := ts } ops =
      session (Cfg.newtonWith S P tol fuel) rf sf { State.new (newtonWith0 l) y0 yp0 with tstop := ts } ops := by
  have hR : ExactLs (relabel S k it) Ok Holds := by
    refine ⟨fun _ _ => hk, hS.setup, hS.singular, fun l w w' h => ⟨(hS.scaling l w w' h).1, rfl, (hS.scaling l w w' h).2.2⟩, ?_⟩
    intro l a A x b t h1 h2
    obtain ⟨l', x', h3, h4, h5, h6, -⟩ := hS.solve l a A x b t h1 h2
    exact ⟨l', x', h3, h4, h5, h6, hi⟩
  exact c70_same_session hn hS hR P tol fuel rf sf y0 yp0 ts l hl l hl ops

end

end Verif.Props
