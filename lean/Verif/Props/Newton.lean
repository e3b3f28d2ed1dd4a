import Verif.Proofs.Newton

/-!
# Properties C06-C11: the Newton solver

All theorems hold for an arbitrary vector type with `+` and `-` (no laws, so also for IEEE floats), arbitrary problem
memory and callbacks.  `recorded P` (Spec/Newton.lean) is the user's problem with a call recorder; the recorder is
transparent (`recorder_transparent`).
-/

set_option autoImplicit false
set_option linter.unusedSectionVars false

namespace Verif.Props

open Verif Verif.Spec Verif.Proofs.Newton

universe u v w
variable {σ : Type u} {V : Type v} {K : Type w} [Add V] [Neg V]

/-- The recorder changes nothing the solver or the caller can see. -/
theorem recorder_transparent (P : NLProblem σ V K) (fuel : Nat) (N : Newton V) (s : σ) (l : List (Event V))
    (y0 y w : V) (tol : K) (c : Bool) :
    (match newtonSolve (recorded P) fuel N (s, l) y0 y w tol c with
      | .done N s y r => NOut.done N s.1 y r
      | .panic => .panic
      | .diverge => .diverge) = newtonSolve P fuel N s y0 y w tol c := by
  have h := outer_recorded P y0 tol w fuel c false N s l y
  unfold newtonSolve
  rw [← h]
  cases newtonOuter (recorded P) y0 tol w fuel c false N (s, l) y <;> rfl

/-- C06. If `solve` returns `Ok`, the calls it made end with one successful attempt from `y0` (residual at `y0`,
possibly setup, then solve / convergence test / residual alternately), the returned `y` is `y0` plus the updates of
that attempt, and the very last call was the convergence test of exactly that `y` with the last update, answering
`Ok(true)`. -/
theorem c06_newton_success (P : NLProblem σ V K) (fuel : Nat) (N : Newton V) (s : σ) (l : List (Event V))
    (y0 y w : V) (tol : K) (c : Bool) (N' : Newton V) (s' : σ) (l' : List (Event V)) (y' : V)
    (h : newtonSolve (recorded P) fuel N (s, l) y0 y w tol c = .done N' (s', l') y' (.ok ())) :
    ∃ pre su ds d, l' = l ++ pre ++ attemptLog y0 su (ds ++ [d]) ∧ y' = (ds ++ [d]).foldl (· + ·) y0 ∧
      l'.getLast? = some (.ctest y' d (.ok true)) := by
  obtain ⟨⟨t, n, ht, hrun, _, _, hok⟩, _⟩ := outer_post P y0 tol w _ _ _ _ _ _ _ _ _ _ _ _ h
  obtain ⟨pre, o, ds, d, h1, h2, h3, h4⟩ := hok rfl
  refine ⟨pre, o, ds, d, by rw [ht, h1, List.append_assoc], h2, ?_⟩
  have key : ∀ (ds : List V) (y : V), ∃ q, iterationLog y (ds ++ [d]) =
      q ++ [.ctest ((ds ++ [d]).foldl (· + ·) y) d (.ok true)] := by
    intro ds
    induction ds with
    | nil => intro y; exact ⟨[.solve d (.ok ())], rfl⟩
    | cons a ds ih =>
      intro y
      obtain ⟨q, hq⟩ := ih (y + a)
      refine ⟨[.solve a (.ok ()), .ctest (y + a) a (.ok false), .sys (y + a) (.ok ())] ++ q, ?_⟩
      rw [List.cons_append, iterationLog_cons _ _ _ (by simp), hq, List.append_assoc]; rfl
  obtain ⟨q, hq⟩ := key ds y0
  rw [ht, h1, attemptLog.eq_def, hq, h2]
  rw [← List.append_assoc, ← List.append_assoc, ← List.append_assoc, List.getLast?_append]
  rfl

/-- C07. The calls of a solve split into attempts, each starting with the residual at `y0` and containing at most
`max 1 maxiters` linear solves. -/
theorem c07_newton_iteration_cap (P : NLProblem σ V K) (fuel : Nat) (N : Newton V) (s : σ) (l : List (Event V))
    (y0 y w : V) (tol : K) (c : Bool) (N' : Newton V) (s' : σ) (l' : List (Event V)) (y' : V) (r : Except Err Unit)
    (h : newtonSolve (recorded P) fuel N (s, l) y0 y w tol c = .done N' (s', l') y' r) :
    ∃ As : List (List (Event V)), l' = l ++ As.flatten ∧
      ∀ A ∈ As, (∃ q rest, A = .sys y0 q :: rest) ∧ numSolves A ≤ max 1 N.maxiters := by
  obtain ⟨⟨t, n, ht, hrun, _, _, _⟩, _⟩ := outer_post P y0 tol w _ _ _ _ _ _ _ _ _ _ _ _ h
  obtain ⟨As, h1, _, h3⟩ := run_solves hrun
  exact ⟨As, by rw [ht, h1], h3⟩

/-- C08. If `solve` returns an error `e` then `e` is what the very last callback invocation returned, no earlier
callback of this solve failed other than with `ConvergenceRecover`, and the failure counter went up.  If `solve`
returns `Ok`, no callback failed other than with `ConvergenceRecover`: so a hard error is always returned, at once
and unchanged. -/
theorem c08_newton_hard_error (P : NLProblem σ V K) (fuel : Nat) (N : Newton V) (s : σ) (l : List (Event V))
    (y0 y w : V) (tol : K) (c : Bool) (N' : Newton V) (s' : σ) (l' : List (Event V)) (y' : V) (r : Except Err Unit)
    (h : newtonSolve (recorded P) fuel N (s, l) y0 y w tol c = .done N' (s', l') y' r) :
    ∃ t, l' = l ++ t ∧ match r with
      | .ok _ => ∀ ev ∈ t, ev.error? = none ∨ ev.error? = some (.nl .convergenceRecover)
      | .error e => e ≠ .nl .convergenceRecover ∧ N.nconvfails + 1 ≤ N'.nconvfails ∧
          ∃ init ev, t = init ++ [ev] ∧ ev.error? = some e ∧
            ∀ ev' ∈ init, ev'.error? = none ∨ ev'.error? = some (.nl .convergenceRecover) := by
  obtain ⟨⟨t, n, ht, hrun, _, hn, _⟩, _⟩ := outer_post P y0 tol w _ _ _ _ _ _ _ _ _ _ _ _ h
  refine ⟨t, ht, ?_⟩
  have := run_errors hrun
  cases r with
  | ok u => exact this
  | error e =>
    obtain ⟨hne, hx⟩ := this
    refine ⟨hne, ?_, hx⟩
    have hpos : ∀ {o j l n} {r : Except Err Unit}, Run N.maxiters y0 o j l n r → r = .error e → 1 ≤ n := by
      intro o j l n r h
      induction h with
      | success => intro h; cases h
      | hardError => intro _; exact Nat.le_refl 1
      | retryStale o j A B n r hA hj hB ih => intro _; omega
      | retryCurrent o j A B n r hA hj hB ih => exact ih
    have := hpos hrun rfl
    omega

/-- C09 (and the exact failure count of C08). The calls of every solve that returns follow the protocol `Run` of
Spec/Newton.lean - in particular, after a recoverable failure with a stale Jacobian (constructor `retryStale`) one
failure is counted and the next attempt starts from the same `y0` and calls setup with `jbad = true` - and
`get_num_conv_fails` grows by exactly the number counted by the protocol. -/
theorem c09_newton_retry_protocol (P : NLProblem σ V K) (fuel : Nat) (N : Newton V) (s : σ) (l : List (Event V))
    (y0 y w : V) (tol : K) (c : Bool) (N' : Newton V) (s' : σ) (l' : List (Event V)) (y' : V) (r : Except Err Unit)
    (h : newtonSolve (recorded P) fuel N (s, l) y0 y w tol c = .done N' (s', l') y' r) :
    ∃ t n, l' = l ++ t ∧ Run N.maxiters y0 (if c then some false else none) N.jcur t n r ∧
      N'.view.numConvFails = N.view.numConvFails + n := by
  obtain ⟨⟨t, n, ht, hrun, _, hn, _⟩, _⟩ := outer_post P y0 tol w _ _ _ _ _ _ _ _ _ _ _ _ h
  exact ⟨t, n, ht, hrun, hn⟩

/-- Solver objects that can exist, with the log of all calls made so far: created by `Newton::new`, then used in any
number of solves that returned (successfully or not), with arbitrary arguments, and possibly different problems. -/
inductive Lifetime (zeros : V) : Newton V → List (Event V) → Prop where
  | new (maxiters : Nat) : Lifetime zeros (Newton.new zeros maxiters) []
  | solve {σ' : Type} {K' : Type} {N N' : Newton V} {l l' : List (Event V)} (P : NLProblem σ' V K') (fuel : Nat)
      (s s' : σ') (y0 y w y' : V) (tol : K') (c : Bool) (r : Except Err Unit) : Lifetime zeros N l →
      newtonSolve (recorded P) fuel N (s, l) y0 y w tol c = .done N' (s', l') y' r → Lifetime zeros N' l'

/-- C11. `get_num_iters` is the number of linear solves made over the whole life of the object. -/
theorem c11_newton_iteration_count (zeros : V) (N : Newton V) (l : List (Event V)) (h : Lifetime zeros N l) :
    N.view.numIters = numSolves l := by
  induction h with
  | new m => rfl
  | solve P fuel s s' y0 y w y' tol c r _ hs ih =>
    obtain ⟨⟨t, n, ht, _, hni, _, _⟩, _⟩ := outer_post P y0 tol w _ _ _ _ _ _ _ _ _ _ _ _ hs
    simp only [Newton.view] at ih ⊢
    rw [hni, ht, numSolves_append, ih]

/-! ### C10 -/

/-- Number of callback invocations is finite but `solve` does not return: a problem whose callbacks always return, whose
setup succeeds and whose convergence test reports `ConvergenceRecover`. -/
def stuckProblem : NLProblem Unit Int Int where
  sys _ y _ := ((), y, .ok ())
  setup _ _ _ _ := ((), .ok true)
  solve _ _ b := ((), b, .ok ())
  ctest _ _ _ _ _ _ := ((), .err (.nl .convergenceRecover))

/-- C10 is refuted: with an up-to-date Jacobian and a recoverable convergence failure `Newton::solve` never returns. -/
theorem c10_newton_refuted : ∀ fuel : Nat,
    newtonSolve stuckProblem fuel (Newton.new 0 4) () 1 1 1 0 true = NOut.diverge := by
  have key : ∀ (fuel : Nat) (N : Newton Int) (y : Int) (jb : Bool),
      newtonOuter stuckProblem 1 0 1 fuel true jb N () y = NOut.diverge := by
    intro fuel
    induction fuel with
    | zero => intros; rfl
    | succ fuel ih =>
      intro N y jb
      rw [newtonOuter]
      simp only [newtonAttempt, stuckProblem, newtonInner, if_true, Err.isConvRecover]
      exact ih _ _ _
  intro fuel
  exact key fuel _ _ _

/-- More generally `Newton::solve` never returns the documented `Err(ConvergenceRecover)`, for any problem. -/
theorem c10_newton_never_reports_recover (P : NLProblem σ V K) (fuel : Nat) (N : Newton V) (s : σ)
    (y0 y w : V) (tol : K) (c : Bool) (N' : Newton V) (s' : σ) (y' : V) :
    newtonSolve P fuel N s y0 y w tol c ≠ .done N' s' y' (.error (.nl .convergenceRecover)) := by
  intro h
  rw [← recorder_transparent P fuel N s [] y0 y w tol c] at h
  rcases hq : newtonSolve (recorded P) fuel N (s, []) y0 y w tol c with ⟨N1, ⟨s1, l1⟩, y1, r1⟩ | _ | _
  · rw [hq] at h
    simp only [NOut.done.injEq] at h
    obtain ⟨rfl, rfl, rfl, rfl⟩ := h
    obtain ⟨t, _, hne, _⟩ := c08_newton_hard_error P fuel N s [] y0 y w tol c _ _ _ _ _ hq
    exact hne rfl
  · rw [hq] at h; simp at h
  · rw [hq] at h; simp at h

/-- C10, the part that holds: `solve` returns (or a callback panics) after at most two attempts, hence after at most
`2 (3 max(1,maxiters) + 2)` callback invocations, provided no attempt that starts with a setup call ends with
`ConvergenceRecover`.  Missing: termination when such an attempt does fail recoverably - refuted above. -/
theorem c10_newton_terminates_partial (P : NLProblem σ V K) (N : Newton V) (s : σ) (y0 y w : V) (tol : K) (c : Bool)
    (hstale : N.jcur = false)
    (hfresh : ∀ jb N₁ s y N' s' y', N₁.maxiters = N.maxiters →
      newtonAttempt P y0 tol w true jb N₁ s y ≠ .done N' s' y' (.error (.nl .convergenceRecover))) (fuel : Nat) (hf : 2 ≤ fuel) :
    newtonSolve P fuel N s y0 y w tol c ≠ .diverge := by
  obtain ⟨f, rfl⟩ : ∃ f, fuel = f + 2 := ⟨fuel - 2, by omega⟩
  have one : ∀ f jb N₁ s y, N₁.maxiters = N.maxiters → newtonOuter P y0 tol w (f + 1) true jb N₁ s y ≠ .diverge := by
    intro f jb N₁ s y hmx h
    rw [newtonOuter] at h
    split at h
    · simp at h
    · rename_i hd; exact attempt_no_diverge P y0 tol w _ _ _ _ _ hd
    · simp at h
    · rename_i N1 s1 y1 e ha
      by_cases he : e.isConvRecover = true
      · rw [(isConv_iff e).1 he] at ha
        exact hfresh _ _ _ _ _ _ _ hmx ha
      · rw [if_neg he] at h; simp at h
  intro h
  unfold newtonSolve at h
  cases c with
  | true => exact one _ _ _ _ _ rfl h
  | false =>
    rw [newtonOuter] at h
    split at h
    · simp at h
    · rename_i hd; exact attempt_no_diverge P y0 tol w _ _ _ _ _ hd
    · simp at h
    · rename_i N1 s1 y1 e ha
      split at h
      · have hj : N1.jcur = false ∧ N1.maxiters = N.maxiters := by
          have hq := attempt_recorded P y0 tol w false false N s [] y
          rw [ha] at hq
          rcases hr : newtonAttempt (recorded P) y0 tol w false false N (s, []) y with ⟨N2, ⟨s2, l2⟩, y2, r2⟩ | _ | _
          · rw [hr] at hq
            simp only [eraseOut, NOut.done.injEq] at hq
            obtain ⟨rfl, rfl, rfl, rfl⟩ := hq
            obtain ⟨⟨t, ht, hat, _, hj, _⟩, hmx, _⟩ := attempt_post P y0 tol w false false N s [] y _ _ _ _ _ hr
            simp only at hj
            refine ⟨?_, hmx⟩
            rw [hj, hstale]
            have noSetup : ∀ (l : List (Event V)), (∀ ev ∈ l, ∀ y b r, ev ≠ Event.setup y b r) →
                jacCurrent false l = false := by
              intro l
              induction l with
              | nil => intro _; rfl
              | cons a l ih =>
                intro hl
                have := ih (fun ev h => hl ev (List.mem_cons_of_mem _ h))
                cases a with
                | setup y b r => exact absurd rfl (hl _ List.mem_cons_self y b r)
                | _ => simpa [jacCurrent] using this
            have iterNoSetup : ∀ {mx m} {y : V} {l r}, Iteration mx m y l r →
                ∀ ev ∈ l, ∀ (y : V) b r, ev ≠ Event.setup y b r := by
              intro mx m y l r hi
              induction hi with
              | solveErr => intro ev hev; simp at hev; rcases hev with rfl <;> simp
              | ctestErr => intro ev hev; simp at hev; rcases hev with rfl | rfl <;> simp
              | converged => intro ev hev; simp at hev; rcases hev with rfl | rfl <;> simp
              | cap => intro ev hev; simp at hev; rcases hev with rfl | rfl <;> simp
              | sysErr => intro ev hev; simp at hev; rcases hev with rfl | rfl | rfl <;> simp
              | next m y d rest r _ _ ih =>
                intro ev hev
                simp at hev
                rcases hev with rfl | rfl | rfl | hev
                · simp
                · simp
                · simp
                · exact ih ev hev
            apply noSetup
            cases hat with
            | sysErr su e => intro ev hev; simp at hev; subst hev; simp
            | plain l r hi =>
              intro ev hev
              rcases List.mem_cons.1 hev with rfl | hev
              · simp
              · exact iterNoSetup hi ev hev
          · rw [hr] at hq; simp [eraseOut] at hq
          · rw [hr] at hq; simp [eraseOut] at hq
        rw [hj.1] at h
        exact one f true { N1 with jcur := false, nconvfails := N1.nconvfails + 1 } _ _ hj.2 h
      · simp at h

/-- Solver objects between calls have a stale-Jacobian mark, so the hypothesis of the previous theorem holds for a new
object and after every successful solve. -/
theorem jcur_false_after_success (P : NLProblem σ V K) (fuel : Nat) (N : Newton V) (s : σ) (l : List (Event V))
    (y0 y w : V) (tol : K) (c : Bool) (N' : Newton V) (s' : σ) (l' : List (Event V)) (y' : V)
    (h : newtonSolve (recorded P) fuel N (s, l) y0 y w tol c = .done N' (s', l') y' (.ok ())) : N'.jcur = false := by
  obtain ⟨⟨t, n, ht, hrun, _, _, hok⟩, _⟩ := outer_post P y0 tol w _ _ _ _ _ _ _ _ _ _ _ _ h
  obtain ⟨pre, o, ds, d, h1, h2, h3, h4⟩ := hok rfl
  exact h4

/-! ### Concrete runs meeting the hypotheses

`F(y) = 2 y - 6` with the wrong slope 4 used by the linear solver while the Jacobian is stale; the convergence test
accepts `|d| ≤ tol`; the problem memory is the current slope. -/

def demoProblem : NLProblem ℚ ℚ ℚ where
  sys s y _ := (s, 2 * y - 6, .ok ())
  setup _ _ _ _ := (2, .ok true)
  solve s _ b := (s, b / s, .ok ())
  ctest s v _ d tol _ :=
    (s, if (if d < 0 then -d else d) ≤ tol then .ok true else if v.curIter ≥ 2 then .err (.nl .convergenceRecover)
      else .ok false)

/-- Two attempts: the first fails recoverably with a stale Jacobian, the second succeeds. -/
example : (match newtonSolve demoProblem 2 (Newton.new 0 5) 4 0 0 1 (1 / 100) false with
    | .done N s y (.ok _) => some (N.nconvfails, N.niters, s, y)
    | _ => none) = some (1, 5, 2, 3) := by
  decide +kernel

/-- The hypothesis of `c10_newton_terminates_partial` is satisfiable: this problem converges after a setup. -/
example : ∀ jb N₁ s y N' s' y', N₁.maxiters = (Newton.new (0 : ℚ) 5).maxiters →
    newtonAttempt demoProblem 0 (1 / 100) 1 true jb N₁ s y ≠ .done N' s' y' (.error (.nl .convergenceRecover)) := by
  intro jb N₁ s y N' s' y' h
  rcases N₁ with ⟨dl, jc, ci, mx, ni, nc⟩
  simp only [Newton.new] at h
  subst h
  simp [newtonAttempt, newtonInner, demoProblem, Newton.view]
  norm_num
  intro _ _ _ h
  cases h

end Verif.Props
