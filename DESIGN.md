# Formal model of jondo2010/rust-ida

Source: `/repo` (read only).  Model and proofs: `/verif/lean` (Lean 4.33.0 + Mathlib).

## What is modelled

The repository is in the middle of a refactoring: `crates/linear` and `crates/nonlinear` are the compiled
workspace; the root crate `src/` (the integrator) is the code the crates were split out of.  All of it is
modelled, function by function:

| repo | model |
|---|---|
| `crates/linear/src/dense.rs` (dense_get_rf, dense_get_rs, Dense::setup/solve) | `Verif/Model/Dense.lean` |
| `crates/nonlinear/src/newton.rs` (Newton::solve and counters), traits | `Verif/Model/Newton.lean` |
| `src/norm_rms.rs`, `crates/nonlinear/src/norm_wrms.rs`, `src/tol_control.rs`, `Ida::wrms_norm` | `Verif/Model/Norm.lean` |
| `src/lib.rs` struct, `new`; `src/ida_nls.rs`, `src/ida_ls.rs` memory | `Verif/Model/State.lean` |
| `get_solution`, `get_dky` | `Verif/Model/Interp.lean` |
| `set_coeffs`, `predict`, `nonlinear_solve`, `test_error`, `restore`, `handle_n_flag`, `reset`, `step`, `complete_step` | `Verif/Model/Step.lean` |
| `src/impl_r_check.rs` (r_check1/2/3, root_find) | `Verif/Model/Root.lean` |
| `src/impl_stop_test.rs`, `src/impl_solve.rs`, `initial_setup`, the public API as a transition system | `Verif/Model/Solve.lean` |
| `IdaNLProblem`/`IdaLProblem` (sys, setup, solve, ctest, ls_perf) | `Verif/Model/Nls.lean` |
| the trait `LSolver` and `IdaLProblem` for any implementation of it (direct, iterative, matrix-iterative; failing) | `Verif/Model/Ls.lean` |
| `src/ida_io.rs` (getters) | `Verif/Model/Io.lean` |
| sample problems (Roberts, slider-crank) | `Verif/Model/Samples.lean` |
| `examples/roberts.rs` (output loop, check_ans), `benches/dense.rs` (timed loop) | `Verif/Model/Driver.lean` |

Not modelled: logging, serde/profiler features, `#[cfg(data_trace)]` dumps, doc comments, the CSV example writer,
matrix-free code that is commented out.

## Layout of the proofs

* `Verif/Model/` — the program, one definition per Rust function (or per contiguous section of a long one).
* `Verif/Spec/` — the vocabulary of the properties: linear systems, interpolation, histories (`Reach`), the law of the
  step sequence (`Trace`), what the root function returned (`Root`), the calls of the user's functions (`Calls`), events
  seen by the callbacks of Newton's method (`Newton`), linear invariants (`Conserve`), sessions and correct linear solvers
  (`Ls`).  No proofs, no use of the control
  variables of the integrator.
* `Verif/Proofs/` — lemmas and invariants.
* `Verif/Props/` — the property theorems `cNN_...`, their witnesses and the refutations.  `Cases.lean` and `CasesB.lean`
  apply the theorems of C04 - C66 to concrete runs that meet all their hypotheses; the later files do so themselves.
* `Verif/Witness.lean` — running the model on concrete rational problems inside the kernel (`decide +kernel`), and the
  bridge from such runs to reachable states.

## Scalars

The Rust code is generic over `num_traits::Float`.  The model is generic over a class `Scalar K` of *raw
operations without laws* (add, sub, mul, div, neg, abs, sqrt, powf, comparisons to Bool, epsilon, literals).
Hence

* **law-free theorems** (order range, index safety, counters, attempt/step bounds, what is returned when) hold for
  every interpretation of the operations, in particular IEEE binary64 with NaN and rounding;
* **exact theorems** (interpolation, LU correctness, norms, step ratios, directions, root bracketing) are about the
  instance of `Scalar` given by a linearly ordered field (`Field K`, `LinearOrder K`, `IsStrictOrderedRing K`) with
  `eps`, `sqrt`, `powf` as parameters (`ExactParams`).  `EpsLaws` says that `eps` is positive and small; only theorems
  about norms use `ExactLaws` (`sqrt` of a nonnegative number, positivity of `powf`).  They say nothing about rounding
  error.  `ratParams` makes ℚ such an instance (`eps = 2^-52`, rational approximations of `sqrt` and `powf`); witnesses
  and refutations run over it.  `signum 0 = 1`, as in Rust.
* **rounding theorems** (C80 and later) are about every `Scalar F` with a value map into an ordered field that satisfies the
  standard model of floating-point arithmetic (`Spec/Rounding.lean`: each operation is exact up to a factor `1 + d`,
  `|d| ≤ u`; comparisons exact).  Binary64 satisfies it with `u = 2^-53` as long as nothing overflows or underflows; this is
  not proved here for Lean's `Float`, which is opaque.  `BinInst.lean` gives, for every `p ≥ 4`, the binary arithmetic with
  `p + 1` significant bits, round to nearest even and unlimited exponents (`Bin p`; `Bin 52` is binary64 without overflow and
  underflow); it is proved to satisfy the model, with correct rounding (`Spec/Correct.lean`), and the kernel can run it, so
  the witnesses of these theorems run in the precision of binary64.  `FlInst.lean` is an earlier eight-bit instance.

## Panics, divergence

Every *data-dependent* array index (orders, pivots), unsigned subtraction, `unwrap`, `unimplemented!` is an explicit
`panic` outcome of the model.  Loops whose bounds are the dimension of the container they index are not guarded.
`Newton::solve`, `root_find` and the main loop of `solve` are `loop`s: they are modelled with a step budget and the
outcome `diverge` when the budget is exhausted; theorems say for which budgets it cannot be exhausted.

## Histories, ghost data

`exec cfg rf sf s op` is one public call (`solve`, `get_solution`, `get_dky`) on the object `s`.  `Reach cfg s`: `s` is
obtained from `Ida::new` by a sequence of calls with arbitrary arguments that return, successfully or not.  `ReachOk`:
none of them reported a failed internal step.  `ReachFrom cfg y0 yp0`: with given initial values.  The crate has no
setters: at the public API `hmax_inv = 0`, `hin = 0`, no stop time, `rootdir = 0`.  The model keeps these as parameters
(`Cfg`, `State.tstop`), and the theorems hold for all values (`0 ≤ hmax_inv`).

The state carries data that no function of the model reads:

* `Mem.log`: the calls of the user's residual, Jacobian and root functions with their arguments;
* `Ghost.atts`: one record per attempted step (where it started, size, order, coefficients, prediction, correction,
  weights, points accepted before it, stop time, outcome);
* `Ghost.acc`: the accepted points, beginning with the initial point as it was when the first step was accepted.

"In every history" theorems speak about these records and about the getters.

The nonlinear solver is a parameter of the model.  Theorems about the integrator assume, where needed, only
`NlsLegal` (it does not return an `IdaError` outside the protocol of `handle_n_flag`), `NlsUses` (it touches the problem
only through the interface) or nothing.  `newton_legal` etc. discharge them for the stack Newton + Dense
(`Cfg.newton`).  With that stack the solver never returns an error (`newton_no_error`): it converges, loops forever
(C10), or the linear solver's `unwrap` panics (C53).

The driver is decomposed once (`Proofs/Machine.lean`): every call is a sequence of micro-steps (`Micro`: output-only
changes, clamping, new weights, first-call block, one successful internal step), possibly ended by a failing step
(`MicroFail`, `Ends`, `FirstEnds`).  Invariants are proved per micro-step: `CtlInv` (direction, stop time, step bound),
`OrdInv` (orders), `TraceInv` (law of the step sequence), `HistInv` (the stored differences represent the interpolant
of the accepted points), `RootInv`, `Story` (user calls), `Linked` (accepted points and attempts).
`Proofs/Outcome.lean` relates each result of `solve` to the path taken.

## Trusted base

* Lean's kernel; axioms `propext`, `Classical.choice`, `Quot.sound` only (checked with `#print axioms`).
* The correspondence between the Rust text and the model definitions (each carries file:line references).  As a check
  of it, `Verif/Conformance.lean` runs the model inside the kernel on the inputs of all 20 active unit tests of the
  repository and compares with the expected outputs given there (relative `1e-9`; integers and flags exactly).  Those
  are tests of the model; no property rests on them.
  `Verif/Conform.lean` and `Verif/ConformLin.lean` run the same tests in binary64 (`B64.lean`: round to nearest, ties to even,
  gradual underflow), so the order of the operations is tested too: wherever a test of the crate demands equal numbers, the model
  gives the same bits.
* Further check: `Verif/FloatRun.lean` runs the same model with Lean's `Float` in place of `K` on `examples/roberts.rs`
  during the build (compiled code; a test, nothing depends on it).  It gives the published figures of the SUNDIALS example
  idaRoberts_dns: 362 steps, 537 residual, 60 Jacobian and 393 root function evaluations, roots at 0.264016 and 2.0788e7,
  y1(4e10) = 4.8641e-8.  The build fails if the last values do not pass `check_ans` of the example.
* The exact-arithmetic reading of "exact" theorems.
* No `sorry`, `admit`, `axiom`, `native_decide`, `bv_decide`, `implemented_by`.

## Per property

Abbreviations: LF = law-free theorem, EX = exact-arithmetic theorem, FL = standard model of
floating-point arithmetic, REF = refutation by concrete witness (the code
violates the property; the `_partial` theorem says what holds).

| id | how |
|---|---|
| C01 | EX.  LU invariant: after k columns, `P A = L_k A_k`; forward/backward substitution by induction. |
| C02 | EX.  Ok ⇒ injective (from LU); Err ⇒ null vector constructed by back substitution on the leading block. Also stated with `Matrix.det`. |
| C03 | EX.  same invariant at the failing column. |
| C04 | EX.  invariant of the elimination loop plus `|mult| ≤ 1` from the pivot search. |
| C05 | LF.  pivot range by induction; n = 0 panics. |
| C06–C09, C11 | LF.  induction over the inner loop; arbitrary callbacks over an arbitrary memory type; call counts via an instrumented problem. |
| C10 | REF: a problem for which no budget suffices; partial theorem: terminates if each attempt with fresh Jacobian either converges or fails hard. |
| C12–C14 | EX over fields with sqrt laws. |
| C15, C16 | EX.  closed form of the get_solution loops; derivative via `Polynomial.derivative`. |
| C17 | LF/EX + REF for t beyond tn. |
| C18 | EX for the cases that are right, REF for the panic and the wrong value. |
| C19–C21 | EX.  ghost history; invariant "phi/psi represent the Newton form of the interpolant through the last points" preserved by attempt, rollback, completion, for histories without step failure.  REF after failed calls. |
| C22 | EX, every history: the corrector equation in terms of predictor polynomial and correction. |
| C23 | EX.  restore ∘ set_coeffs on states satisfying the step-history invariant; REF across calls. |
| C24 | REF (reset scales the whole history); partial: only `phi` rows are affected, all by the same factor. |
| C25, C30, C32 | LF.  invariants of step/solve. |
| C26, C31 | LF/EX, REF after failed calls. |
| C27, C28, C29 | EX. |
| C33 | REF for `nonlinear::Error`; partial for `IdaError` recoverable failures. |
| C34 | REF; partial: if no attempt ran below the last order. |
| C35–C38, C41 | LF.  case analysis of the driver loop (C37 termination with roots: EX). |
| C39, C40 | EX (+ REF for the uncleared stop time; once a one-step call has left it set, all further one-step calls do the same and change nothing: any scalar type). |
| C42 | REF for the repeated-tout path; partial for all other paths. |
| C43 | REF; partial for first calls rejected by the input checks. |
| C44–C46, C49 | EX.  loop invariant of the bracketing iteration; search invariants over histories (C44 also REF). |
| C47, C48 | REF + partial. |
| C50, C53 | REF + partial. |
| C51 | EX.  `Story`: all user calls of a history form modified Newton iterations. |
| C52 | LF. |
| C54, C55 | EX (polynomial derivatives / derivatives over ℝ). |
| C56 | LF. |
| C57, C58 | REF with root functions; partial without. |
| C59 | EX.  Roberts' equations, start values and Jacobian determinant.  |
| C60, C61 | EX over ℝ.  Slider-crank constraints, multipliers, energy balance. |
| C62 | EX.  Newton's method started at a solution stays there; the interpolant of points on a line is the line. |
| C63 | EX.  the quantity is linear in the stored differences; REF after a repeated first step (C24). |
| C64 | EX.  relation between the states of two runs, preserved by every function of the model; all norms, orders and counters are equal, times and vectors converted.  REF for the proviso. |
| C65 | EX.  the rule is written over the recorded attempts with Lagrange's formula; the divided differences of the code are shown to give the same estimates (Lagrange interpolation is unique), then invariant over the attempt loop. |
| C66 | ALL (answers at the same `tout`: EX).  simulation relation: states equal up to the output vectors, the log and the error weights (recomputed before each later step); one step maps related states to related states, so every continuation is an initial part of one sequence of steps.  Proviso: no stop time (the crate has no setter for it), at least one step taken (the first `tout` determines the first step size). |
| C67 | EX.  invariant of the solver object between calls (`Rested`: Jacobian flag cleared, 4 iterations, tolerance not negative) along every history; an iteration with a current Jacobian solves a linear problem in its first update, and the second has residual, correction and rate zero; then C10, C37, C53 apply.  Exactness from the call story of C51.  Assumed of the scalars: `sqrt 0 = 0`, `powf 0 1 = 0`, Archimedean. |
| C68 | ALL (test), EX with square root (error bound).  specification of the iteration as a transition system on (updates, factor, verdict) labelled with the user calls (`Spec/Converge.lean`); induction over the inner and outer loop of `Newton::solve`, then over histories (`e.cj` is the leading coefficient of the last attempt).  Error bound by the triangle inequality of C12; the factors lie in (-1, 100], so that the test for tiny updates adds nothing. |
| C69 | ALL.  counters of one pass and one solve by induction over the loops of `Newton::solve` (`Proofs/Cost.lean`); a simulation shows that a pass beginning with a Jacobian evaluation depends on nothing left in memory (pivots, convergence factor, old norms), hence repeats; then an invariant of histories and a congruence of `solve` in its nonlinear solver (`Proofs/CostHist.lean`).  This also shows that the fuel of the model's outer loop is immaterial from two on. |
| C70 | ALL.  two solver stacks whose nonlinear solvers correspond call by call give the same session: a congruence of every function of `solve` in the parts of the state only the solver reads (`Proofs/Swap.lean`, `Proofs/SwapExec.lean`), then correspondence of Newton's method over two linear solvers (`Proofs/LsSim.lean`), then of two correct ones, by uniqueness of solutions of regular systems (`Proofs/LsAny.lean`).  The first half is law-free. |
| C71 | REFUTED by running the model with a linear solver that always fails; in general, an ignored failure ends the iteration with a zero correction.  Partial: a failed `setup` makes every stepping call panic (law-free, all histories). |
| C72 | REFUTED with a solver that counts its own iterations.  Partial: direct solvers. |
| C73 | REFUTED with `Dense` under two other names.  Partial: all names except those two, from C70. |
| C74 | EX (norm bounds: with square root).  `Spec/LocalErr.lean` defines the method of the next higher order by collocation.  The difference of two polynomials that agree in all but one node is a multiple of the node polynomial; comparing derivatives at the new time gives the factor, and `set_coeffs` computes a constant at least as large.  Setting of C21 (no failed call before; afterwards the stored differences are wrong). |
| C75 | EX (norm bound: with square root).  the same ladder of interpolation polynomials, the node polynomial is at most its value at the end of the step; the constant of the test covers the remaining factor.  Setting of C21. |
| C76 | REFUTED with two root functions.  Partial: outcome of every root search in every history (`Searched`), which ends with an interpolation at the root. |
| C77 | REFUTED with one root function and two close requests.  Partial: invariant of forward sessions (`TimeInv`): the internal time is not before the returned one, the search starts not after it and at it or within the root tolerance of the internal time. |
| C78 | The loop of `main` of examples/roberts.rs as a function returning the rows of its table (printing, logging and the profiler are not modelled).  Law-free induction over the passes (`Rows`), then the invariants of forward sessions (C77) and the linear invariants (C63) for each row. |
| C79 | LF, REF.  The timed closure of benches/dense.rs with its captured variables; the first iteration is the loop of C78, every later one starts with `iout = nout`. |
| C80 | FL (standard model of floating point).  Invariant of the elimination after `k` columns (`FlInv`): each entry of the permuted matrix is a sum of products of the stored factors, each times a factor in `[(1-u)^N, (1-u)^-N]`; multipliers and growth bounded.  The same form for both substitutions; the three are composed into one perturbation `E`. |
| C81 | FL.  `Near u N a b`: two nonnegative numbers agree up to `N` roundings; closed under sums, products, quotients, square root.  The sum of the norm by induction over its length; the error test through the law-free `c32_test_decides`. |
| C82 | EX.  A rule for the attempt loop (`step_weights`) records the weights and accepted points of each attempt; an invariant of all micro-steps (`WInv`) says that the weights come from the head of the accepted points, using `Weighed` (weights are recomputed before each step) and the history invariant (`phi 0` is the last accepted solution).  Then C14, C74, C75.  The first step is not covered: there the code rescales the history array between attempts (C24). |
| C83 | FL with correct rounding (`Spec/Correct.lean`: additions, subtractions and multiplications are the exact results rounded by one monotone function that fixes the floating-point numbers; instances: `Bin p` for every `p >= 4` is proved to be one in `BinInst.lean`).  The invariant of C27 - C29 is redone with rounded operations (`Proofs/FlControl`, `Proofs/FlDirection`): signs survive rounding, factors at most one shrink, `rd (t + h)` does not pass a floating-point number that `t + h` does not pass. |
| C84 | Partial.  Proved for steps larger than the roundoff of the time they start at; refuted by a run with the precision of binary64 (the code has no check that `tn + hh` differs from `tn`). |
| C85 | Proved, exact arithmetic, any ordered field (`NoJump`) and ℝ with continuous root functions (intermediate value theorem): the signs seen by the search (C44) are values along the dense output polynomial (C16), at times inside the last step. |
| C86 | Proved for every scalar type with the NaN laws of IEEE 754 (`Spec.NanLaws`; kernel-run instance: rationals with NaN).  NaN is followed backwards: test passed → norm → update → right-hand side of the triangular solves → residual.  Infinities are not excluded. |
| C87 | FL with correct rounding, and the literals of the root search (`Spec.RootLits`, proved for `Bin p`).  Error analysis of one trial point (`Proofs/FlTrial`), of the search loop (`Proofs/FlRoot`) and an invariant of all histories whose times are on one side of the initial time (`Proofs/FlSide`, `Spec.ReachSide`); the measure of C46 with 2/5 instead of 1/2. |
| C88 | As C87: the invariant says where the values at the start of a search were seen; a product is negative iff its factors have opposite signs (rounding keeps signs). |
| C89 | Partial: the same in arithmetic with unlimited exponents, as an equivalence for one search and for the last search of every call.  Refuted with gradual underflow (`B64.lean`, binary64 without overflow): `glo * ghi` of values near `2 ^ -600` is zero and the sign change is not seen. |
| C90 | Partial.  Only the laws of NaN (`Spec/Nan.lean`).  Invariant of the loop of `root_find`: the values at the upper end of the bracket were seen there and are not all NaN, because both ways to move it (`glo * g < 0`, `|g| = 0`) are comparisons that fail for NaN.  Two parts refuted with runs over `NQ`: after a NaN at a trial point the lower end of the bracket becomes NaN, the width test fails for ever and the search does not end for any number of turns (`rootLoop_hangs`); or the search ends with `Root` and no component flagged. |
| C91 | `Spec/Errors.lean` lists the causes (`Cause`, `GaveUp`) in terms of the state before and after the call, the root-function calls seen, and the log of attempts.  Law-free: case analysis over `solve_outcome`; for a failed step an invariant of the step loop ties the two failure counters to the failed attempts recorded (`Trying`); for `CloseRoots` an invariant of the scan in `r_check2`.  Reported under unexpected names: the step limit and non-positive weights as `IllegalInput`, repeated residual failures as `ResidualFail` (`RepeatedResidualError` and `BadErrorWeightVector` are never returned). |
| C92 | `Spec/FlInterp.lean` writes the interpolating polynomial in Newton form with Mathlib's `Polynomial`.  Over any `Correct` arithmetic an invariant of the whole step loop (`Proofs/FlPsi.lean`) keeps the nodes on the right side of the current time and away from it, also after `restore` has undone a step with rounding errors (the error left is bounded by the size of the step undone, and only the first failed error test allows a new size of nine tenths; the others cut it to a quarter).  Then a backward error analysis of the recurrence in `get_solution` (`Proofs/FlInterp.lean`) with the usual `gamma` bounds. |
| C93 | Rounding analysis of the sums in `set_coeffs` (`Proofs/FlCoef.lean`); the leading coefficient does not depend on the history.  For the error constant the invariant of C92 is carried along with `alpha` in `(0, 1]` (the coefficients kept from an earlier step are those of nodes that have not changed). |
| C94 | The prediction is the interpolating polynomial (C21), which is the solution itself by uniqueness; Newton's method started at a solution stays there (C62), so the correction is zero; induction along the accepted points for the later steps. |
| C95 | Prediction and output are interpolating polynomials (C21, C06); the error formula of interpolation by Rolle's theorem (`Proofs/InterpErr.lean`), for the derivative by Rolle on the derivative of the difference; numbers embedded in the reals. The local error follows from the consistency of the formula with a Lipschitz argument in the maximum norm. Exact arithmetic; rounding of the formula and of the output is C92 and C93. |
| C96 | The weights with the larger tolerances differ from the old ones divided by the factor by 7 roundings; the norm (C81) brings the product of the test to 1/10 up to `2n + 40` roundings (squared). The weights in force at `TooMuchAccuracy` are those of the current solution (C41). The crate has no setter for tolerances, so the user restarts. |
| C97 | `Cfg.withRoots` replaces the root functions. Every part of an internal step commutes with replacing the root search data of the state (`State.reroot`), by unfolding; the first-call block differs by `r_check1`, which writes only parts a step does not read (C66). So both solvers walk along the same sequence of steps. Same answer: as in C66, with the two configurations. The common first `tout` is needed since it determines the first step size. |
| C98 | `State.forget` removes the stop time from the state and from the records of attempts. One attempt commutes with it if the attempt does not end beyond `T`; the stop tests then leave the step size alone (`*_forget`). An induction over the calls of the second solver keeps it on the line of states of the first one, up to the last of its states, or beyond it (`Along`). Same answer: as in C97. |
| C99 | `SameAnswers A P P'`: both problems answer the calls in `A` alike. Every function of the model, from the Newton callbacks to `exec`, only appends to the log of calls, and does the same with `P'` as with `P` if the log it leaves is in `A` (`*_same`, `*_answers`); an induction over the session gives the claim. Times: by C52 the residual is called at the end of attempted steps; these lie ahead of the initial time and, by the control invariant, not beyond the stop time they were made under, which is the one in force at the beginning of the call (`solve_stops`); the same with the floating-point control invariant of C83, where rounding is monotone (`FlControl.solve_stops`). |
| C100 | `RootChange.Fits` describes the change (an increasing renumbering, factors, new functions of constant sign). `RootRel` relates the search data before and after it: all times, flags and counters equal, values of old functions multiplied by the factors, values of new functions from their range. Quotients `g/(g - g_lo)`, trial points, sign and zero tests are unchanged by the factors, and new functions pass through the folds without effect (`foldl_embed`); so every check of `impl_r_check.rs`, then every section of `solve`, preserves the relation and returns the same result (`*_rel`), with `step_reroot` (C97) for the steps. An induction over the calls gives the claim. That the order of the functions matters is shown by a run (`c100_order_matters`). |
| C101 | `Exact2 K` lists the laws a change of unit must have: it commutes with the operations of the scalar type (nothing else is assumed of the arithmetic). `SignFree K` says that rounding does not distinguish signs. `Rescale` has a unit for each unknown, one for the equations, one for each root function, and signs for the unknowns and the equations. The conversion of a whole state is defined field by field (weights and the columns of the factored Jacobian the other way round), and every function of the model, from the dense factorization (`setup_lu`, `solve_part`: the pivots are the same, as a column is scaled as a whole) over the Newton iteration and the step to `solve` and the root search, is shown to commute with it (`*_conv`); an induction over the calls gives the claim. `Bin.unit` is the instance for powers of two: rounding to `p` bits commutes with them (`Bin.rnd_two`) and with the change of sign (`Bin.rnd_neg`, `Bin.signFree`; these numbers have one zero). A nonlinear problem with a root function is run with 53 bits in both units. Not covered: overflow and underflow; units of time (see C64 for exact arithmetic). |
| C102 | `TwoWay K` lists what is used of the arithmetic: the operations commute with the change of sign, the order is reversed by it, and of two numbers at a distance one is smaller. `Mirror.Same P P'` says that `P'` is `P` with the time running the other way. The mirror image of a state is defined field by field (`Mirror.state`; before the first step the second column of the history is `y'` and not `h y'`, so there the image is `Mirror.fresh`), and every function of the model is shown to commute with it (`*_mirror`): Newton iteration, step, root search, stop tests, first call, driver, interpolation; for `get_dky` the signs of the coefficients are followed through the passes (`Mirror.Dky`). An induction over the calls gives the claim (`session_mirror`). `Mirror.Regular` names the sessions, in terms of what the user sees; in correctly rounded arithmetic its condition on the step size always holds (`started_regular`, from the invariant of C83), which leaves `Mirror.Started`. Instances: `Bin.twoWay` (all precisions) and `exactTwoWay`. Concrete case: `y' + y² = 0` with a root function in 53 bits, forward and backward, both run by the kernel. |
| C103 | `Clock K` is a change of the unit of time that commutes with the operations (`Exact2` of C101). `Clock.Same P P'` says that `P'` is `P` with the other unit: times by `f`, rates (`y'`, `cj`) by its inverse `g`. The image of a state is defined field by field (`Clock.state`, `Clock.fresh`: the second column of the history is a rate before the first step only), every function of the model commutes with it (`*_clock`), the coefficients of `get_dky` are followed through its passes, and an induction over the calls gives the claim (`session_clock`). The code compares `(tn + hh - tstop) * hh` with 1 when it advances the time, which depends on the unit, so the steps must be `Safe`: without a stop time they are (`steady_free`), and in correctly rounded arithmetic the product is never positive (`steady_rounded`, from the loop invariant of C83). The first step size needs `sqrt (f (f a)) = f (sqrt a)` (`Clock.Roots`) unless it is given by the user. Instance: `Bin.clock` (all precisions, all powers of two), with `Bin.clock_roots`; for this the square root of `Bin` is correctly rounded (`Bin.sqrtQ_lt`: every number of `p + 3` bits is on the same side of the value that is rounded as of the square root). Concrete case: `y' + y² = 0` with a root function in 53 bits, in units of time that differ by 1024, with and without a stop time, run by the kernel. |
| C104 | The invariant of the rounded elimination (`FlInv`, C80) at the column where no pivot is found says that the leading columns are `L U` with one row less than columns, up to factors close to one (`FlInv.short`). Setting the factors to one gives the perturbation, a kernel vector of the wide matrix `U` gives the dependency (`FlInv.nearDependent`, `wide_kernel`). The panic: for any scalar type the stored pivots stay row numbers (`PivIn`), so that the linear solves cannot panic, and what is left is the `unwrap` in the setup (`Proofs/PanicAny.lean`); the direction and the leading coefficient come from the control invariant in correctly rounded arithmetic and C93 (`Proofs/FlPanic.lean`). Examples in binary64: a regular matrix that `Dense::setup` rejects, an algebraic system with a regular Jacobian whose first call panics, `y' + y = 0` as an instance of the guarantee. |
| C105 | The state of the large system is the image of the state of the small one under "the same values in all copies" (`Spec/Copies.lean`); every function of the model commutes with this map (`Proofs/CopyNewton.lean`, `CopyStep.lean`, `CopyRoot.lean`, `CopyRun.lean`), because norms are averages (`Averages`) and a block diagonal system is solved block by block. The LU factors of `Dense` do not commute with the map (the pivots of the blocks interleave), so `Dense` is exchanged for the solver by inverses on both sides (C70). Exact arithmetic: in floating point the averages over more components round differently. Examples: three copies of a system with two unknowns, three steps; two coupled copies. |
| C106 | The invariant of C69 relative to the state at the beginning of the call (`Since`, `Paced` in `Proofs/CallCost.lean`): every attempt adds at most one Jacobian and eight residuals, every step at most ten attempts (with Newton's method only the error test repeats a step), every accepted step is counted; `steps_taken` (C37) bounds the steps of a call, and a call that ends with a failed step has accepted one less. Example: a first step with two rejected attempts. |
| C107 | EX, power function not below 2 at 10000^(-1/(k+1)), k = 1..5 (`PowerLarge`; follows if the power function yields roots).  C62 gives accepted attempts with zero corrections on the line; Lagrange extrapolation of points of the line is exact, so the estimates of C65 for the same and the next lower order vanish; induction over the attempts with the rule of C65: sizes h, h, 2h, 4h, ...  Cost: normal `Success` means that `get_solution(tout)` is accepted (C42), so tout is not before the last step.  First step from C39. |
| C108 | FL (correctly rounded).  `AtRest P y0`: the computed residual has the value 0 whenever the values are those of y0 and the derivatives are 0.  Invariant `Still`: phi[0] has the values of y0, the other phi[j] are 0, pivots of the stored factorization are nonzero once a step was taken.  x+0, 0*x, 1*x are exact; a zero right-hand side is solved to zero by any factorization with nonzero pivots; so every Newton update is zero whatever the convergence test says, the norm is zero and the error test passes. |
| C109 | EX, FL, and any scalar type.  After `Success` in normal mode the time returned last is tout, so the first test of the next call applies; the test for a passed stop time before it is refuted by C40 (exact) and C83 (floating point).  The two states are compared as a whole: only the counter values kept for performance warnings differ. |
| C110 | EX, FL, and any scalar type.  The first tests of a later call are evaluated: not past the stop time (C40, C83), not the time returned last, at or before the internal time (signs of rounded products are exact); then `get_solution` is called on a state that differs from the user's only in records `get_solution` does not read. |

## Defects of the code found (with theorem)

1. `Newton::solve` repeats forever when a recoverable failure occurs with a current Jacobian (`c10_newton_refuted`).
2. `handle_n_flag` does not recognise `nonlinear::Error` recoverable failures (`c33_refuted`).
3. `reset` scales all of `phi`, so a retried first step starts from a scaled `y0` (`c24_...refuted`, `c63_refuted`).
4. The first-call block scales `phi[1]` again when the first call ended after it (`c43_refuted`).
5. After a failed call the stored differences belong to the abandoned step (`c19_refuted`, `c20_refuted`,
   `c21_c23_refuted`, `c26_refuted`, `c34` refutation).
6. `get_dky` sums one term too few and panics at the maximal order (C18).
7. `get_solution` accepts times arbitrarily far after the internal time (`c17_after_end_refuted`).
8. The stop time is not cleared by one-step calls that return `TStop` without stepping (`c40_refuted`).
9. Repeating `tout` returns whatever an intermediate `get_solution` left in the vectors (`c42_refuted`).
10. `gactive` starts as `false`: no root is found in the first step (C48); the signs in `iroots` are exchanged (C47);
    a component that is zero at `t0` can be reported without a sign change (C44).
11. The root checks run before `tout` is checked: a refused request moves the search start, and `Root` may be returned
    at an earlier time (C57, C58).
12. The Jacobian is always called with time 0 (C50); `lsetup` unwraps the factorisation, so a singular Jacobian panics
    (C53).
13. `r_check1` sets the root-evaluation counter instead of adding to it (C31).
14. `ida_nni` is never incremented; `Dense` panics for n = 0 (C05); the initial weights are not checked for positivity;
    exceeding the step limit is reported as `IllegalInput`; repeated recoverable residual failures are reported as
    `ResidualFail`.
15. The time limit in the attempt loop is tested with `(tn - tstop) * hh > 1` instead of `> 0` (lib.rs, `step`), so
    with `|hh|` small an attempt may pass the stop time; only visible with a stop time, for which there is no setter.
16. `Err` from the linear solver's `solve` is ignored (`c71_failed_solves_accepted`), `get_num_lin_iters` is always 0
    (C72), and iterative solvers are treated wrongly (C73).
17. A root found right after the last one is returned with the old time and the vectors of a later one
    (`c76_root_value_refuted`).
18. Output times can go back: a root between two requests that are closer than the root tolerance is returned by the
    next call, before the time already returned (`c77_forward_refuted`).
19. In benches/dense.rs `iout` and `tout` live outside the timed closure: all iterations but the first measure one call of
    `solve` up to the first root (C79).
20. There is no check that `tn + hh` differs from `tn` in floating point: after many failures a step can be accepted without any
    advance, and one-step calls return successfully with an unchanged time (`c84_refuted`).
21. The sign test `glo * ghi < 0` of the root search underflows for small root functions: with values near `2 ^ -600` a sign
    change is missed (`c89_underflow_refuted`).
22. `root_find` loops for ever if the root function is NaN at a trial point and the remaining bracket is wider than the tolerance:
    the next trial point is NaN, so is the lower end of the bracket, and `|thi - tlo| <= ttol` stays false (C90).  If the bracket is
    small, `Root` is returned with all entries of `get_root_info` zero.
