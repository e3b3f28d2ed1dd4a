{"id": "C01", "title": "Dense direct solver solves the linear system", "statement": "After Dense::setup(A) returns Ok, every Dense::solve with the factored matrix returns an x with A x = b (in exact arithmetic), for any number of right-hand sides solved with the same factorization.", "quantifier": "every dimension n >= 1, every square matrix A on which setup succeeds, every right-hand side b", "why_tests_cant": "tests check a handful of 3x3/4x4 literals; the claim ranges over all sizes, matrices and pivot patterns", "anchors": ["crates/linear/src/dense.rs: Dense::setup, Dense::solve, dense_get_rf, dense_get_rs"]}
{"id": "C02", "title": "Dense::setup fails exactly on singular matrices", "statement": "Dense::setup(A) returns Ok if A is nonsingular and Err(LUFactFail) if A is singular.", "quantifier": "every n and every square matrix over an ordered field", "why_tests_cant": "singularity is a semantic predicate over all matrices; no test in the crate covers the failing branch", "anchors": ["crates/linear/src/dense.rs: dense_get_rf, Dense::setup"]}
{"id": "C03", "title": "The failing column reported by Dense::setup", "statement": "If setup returns Err(LUFactFail{col}) then 1 <= col <= n, the first col columns of A are linearly dependent and the first col-1 columns are linearly independent.", "quantifier": "every m >= n and every m-by-n matrix on which factorization fails", "why_tests_cant": "needs quantification over all singular matrices and all null vectors", "anchors": ["crates/linear/src/dense.rs: dense_get_rf", "crates/linear/src/lib.rs: Error::LUFactFail"]}
{"id": "C04", "title": "LU factorization layout and pivot bounds", "statement": "After dense_get_rf succeeds, the row swaps recorded in the pivot vector turn A into P A with P A = L U, L unit lower trapezoidal with all multipliers bounded by 1 in absolute value and stored strictly below the diagonal, U upper triangular with nonzero diagonal.", "quantifier": "every m >= n and every m-by-n matrix on which factorization succeeds", "why_tests_cant": "tests compare two 3x3 factorizations digit by digit", "anchors": ["crates/linear/src/dense.rs: dense_get_rf"]}
{"id": "C05", "title": "Dense solver never indexes out of range", "statement": "dense_get_rf/dense_get_rs never panic for n >= 1, whatever the matrix contains (NaN and infinities included): every pivot index lies between its own step and the number of rows.  For n = 0 solve panics (n - 1 underflows).", "quantifier": "every n >= 1, every matrix content over any scalar type, lawful or not", "why_tests_cant": "NaN comparison patterns and all sizes cannot be enumerated by tests", "anchors": ["crates/linear/src/dense.rs: dense_get_rf, dense_get_rs"]}
{"id": "C06", "title": "Newton success means the convergence test accepted the returned iterate", "statement": "If Newton::solve returns Ok, the user's convergence test returned Ok(true) on exactly the returned y and the last update, and the returned y is y0 plus the sum of the updates of the last attempt.", "quantifier": "every problem (arbitrary sys/setup/solve/ctest behaviours, stateful), every starting vector, tolerance and call_lsetup flag", "why_tests_cant": "the problem callbacks are arbitrary stateful functions; tests use one 3-variable system", "anchors": ["crates/nonlinear/src/newton.rs: Newton::solve", "crates/nonlinear/src/traits.rs: NLProblem, NLSolver"]}
{"id": "C07", "title": "Newton iteration cap", "statement": "Between two evaluations of the residual at the predictor (one attempt), Newton::solve performs at most max(1, maxiters) linear solves.", "quantifier": "every problem behaviour and every maxiters", "why_tests_cant": "the bound must hold for every callback behaviour, in particular those that never converge", "anchors": ["crates/nonlinear/src/newton.rs: Newton::solve (inner loop)"]}
{"id": "C08", "title": "Unrecoverable Newton errors are returned unchanged and counted once", "statement": "If sys, setup, solve or ctest returns an error other than ConvergenceRecover, Newton::solve stops immediately, returns exactly that error and increments the convergence-failure counter by one for it.", "quantifier": "every problem behaviour and every point at which the error arises", "why_tests_cant": "error injection at every call site and iteration is unbounded", "anchors": ["crates/nonlinear/src/newton.rs: Newton::solve"]}
{"id": "C09", "title": "Stale Jacobian retry", "statement": "When an attempt fails with a recoverable convergence failure while the Jacobian is stale, Newton::solve counts one convergence failure and starts a new attempt from the same y0 in which setup is called with jbad = true.", "quantifier": "every problem behaviour", "why_tests_cant": "depends on all interleavings of callback results", "anchors": ["crates/nonlinear/src/newton.rs: Newton::solve (outer loop)"]}
{"id": "C10", "title": "Newton::solve terminates and reports ConvergenceRecover", "statement": "As documented, when the iteration fails to converge with an up-to-date Jacobian, Newton::solve returns Err(ConvergenceRecover) after finitely many callback invocations.", "quantifier": "every problem behaviour", "why_tests_cant": "non-termination can never be observed by a finite test", "anchors": ["crates/nonlinear/src/newton.rs: Newton::solve (match arm ConvergenceRecover)", "crates/nonlinear/src/traits.rs: NLSolver::solve doc"]}
{"id": "C11", "title": "Nonlinear iteration counter is exact", "statement": "get_num_iters equals the total number of linear-solve callbacks made over the whole life of the solver object, across successful and failed solves.", "quantifier": "every sequence of solve calls on every problem", "why_tests_cant": "a statement about all call histories", "anchors": ["crates/nonlinear/src/newton.rs: Newton::solve, get_num_iters"]}
{"id": "C12", "title": "The weighted RMS norm is a seminorm with its textbook formula", "statement": "norm_wrms(x,w) = sqrt(sum_i (x_i w_i)^2 / n); it is nonnegative, absolutely homogeneous, satisfies the triangle inequality, is monotone in |x_i|, and vanishes only at x = 0 when all weights are nonzero.", "quantifier": "every n >= 1 and all real vectors x, y, w", "why_tests_cant": "algebraic laws over all vectors", "anchors": ["src/norm_rms.rs: NormRms::norm_wrms", "crates/nonlinear/src/norm_wrms.rs: NormWRMS::norm_wrms", "src/lib.rs: Ida::wrms_norm"]}
{"id": "C13", "title": "Masked norm ignores masked components", "statement": "norm_wrms_masked depends only on components with id = true, never exceeds norm_wrms, and equals it when all ids are true.", "quantifier": "every n, all vectors and masks", "why_tests_cant": "all vectors and masks", "anchors": ["src/norm_rms.rs: NormRmsMasked::norm_wrms_masked"]}
{"id": "C14", "title": "Tolerance weights mean what the user specified", "statement": "With TolControlSS/SV(rtol >= 0, atol > 0) all weights are positive; if every |x_i| <= rtol |y_i| + atol_i then the weighted norm of x is at most 1, and if the norm is at most 1 then every |x_i| <= sqrt(n) (rtol |y_i| + atol_i).", "quantifier": "every n, all y, x, rtol and atol vectors", "why_tests_cant": "quantifies over all reals", "anchors": ["src/tol_control.rs: TolControlSS::ewt_set, TolControlSV::ewt_set", "src/norm_rms.rs: norm_wrms"]}
{"id": "C15", "title": "Interpolation at the current time returns the current solution", "statement": "get_solution(t) at t = get_current_time() succeeds and yields y = the solution accepted at the last step, whatever the order.", "quantifier": "every reachable solver state in exact arithmetic", "why_tests_cant": "all step histories and orders", "anchors": ["src/lib.rs: get_solution"]}
{"id": "C16", "title": "Reported y' is the exact derivative of reported y", "statement": "As a function of t, the vector returned by get_yp after get_solution(t) is the derivative of the vector returned by get_yy.", "quantifier": "every state with nonzero step history, every order, every t", "why_tests_cant": "a derivative identity for all t and all orders cannot be sampled", "anchors": ["src/lib.rs: get_solution"]}
{"id": "C17", "title": "get_solution rejects times outside the last step and leaves outputs untouched", "statement": "get_solution(t) returns BadTimeValue exactly when t lies before the start of the last step (beyond the roundoff fuzz) or, as documented, after its end; on error get_yy/get_yp are unchanged.", "quantifier": "all states, all t", "why_tests_cant": "all t and all states", "anchors": ["src/lib.rs: get_solution", "src/error.rs: BadTimeValue"]}
{"id": "C18", "title": "get_dky returns the k-th derivative of the interpolant", "statement": "For every 0 <= k <= get_last_order(), get_dky(t,k) returns the k-th derivative of the interpolating polynomial at t, agrees with get_solution for k = 0, 1 and never panics; k > get_last_order() gives BadK.", "quantifier": "all states, orders up to 5, all k and t", "why_tests_cant": "polynomial identities for all orders/histories; the crate has no test for it", "anchors": ["src/lib.rs: get_dky"]}
{"id": "C19", "title": "Dense output interpolates the accepted history", "statement": "After every accepted step of order k, get_solution(t) at each of the last k+1 accepted mesh times returns exactly the solution value accepted there.", "quantifier": "all step-size and order histories, all nonlinear-solver results", "why_tests_cant": "unbounded histories of varying step size and order", "anchors": ["src/lib.rs: set_coeffs, predict, get_solution", "src/impl_complete_step.rs: complete_step"]}
{"id": "C20", "title": "Dense output is continuous across steps", "statement": "The interpolant available before an accepted step and the interpolant available after it agree at the common mesh point (the time reached before the step), so solutions returned for neighbouring output times never jump.", "quantifier": "all accepted steps in all histories", "why_tests_cant": "all histories", "anchors": ["src/lib.rs: get_solution", "src/impl_complete_step.rs: complete_step"]}
{"id": "C21", "title": "The predictor extrapolates the recent history", "statement": "At the start of each nonlinear solve the predicted y is the value, and the predicted y' the derivative, at the new time of the unique polynomial of degree at most k through the last k+1 accepted points; hence for a solution that is a polynomial of degree <= k the prediction is exact.", "quantifier": "all histories of step sizes, all orders", "why_tests_cant": "unbounded histories", "anchors": ["src/lib.rs: set_coeffs, predict"]}
{"id": "C22", "title": "Fixed-leading-coefficient BDF formula", "statement": "The pair (y, y') produced by a corrector solve satisfies the fixed-leading-coefficient BDF definition: y' is the derivative at the new time of the polynomial through the new y and the predictor polynomial values at the k equally spaced previous points t - i h.", "quantifier": "all orders, step sizes, histories and corrections", "why_tests_cant": "identity over all corrections", "anchors": ["src/lib.rs: set_coeffs (cj), nonlinear_solve", "src/ida_nls.rs: sys"]}
{"id": "C23", "title": "A failed step attempt is rolled back exactly", "statement": "After a failed attempt (nonlinear failure or error-test failure) the current time and the history data used by the retry are exactly those before the attempt, so the retry predicts from the same polynomial.", "quantifier": "all states reachable in any history, all step sizes", "why_tests_cant": "all histories; floating-point tests only compare one example approximately", "anchors": ["src/lib.rs: restore, set_coeffs, step"]}
{"id": "C24", "title": "Retrying the very first step keeps the initial condition", "statement": "If the first step attempt fails and is retried with a smaller step, the initial values y0 supplied to Ida::new are still the starting point.", "quantifier": "all problems and first-step failures", "why_tests_cant": "no test forces a first-step failure", "anchors": ["src/lib.rs: reset, step, handle_n_flag"]}
{"id": "C25", "title": "Method order stays in 1..=5 and no step panics on an index", "statement": "In every history the order used and the order to be used next are between 1 and the maximum order, and no array access in step, get_solution or solve is out of range - for any scalar type and any values (NaN included).", "quantifier": "all histories, all user callbacks, all scalar values", "why_tests_cant": "unbounded histories and arbitrary data", "anchors": ["src/lib.rs: step, set_coeffs, test_error, handle_n_flag, restore, predict, get_solution", "src/impl_complete_step.rs: complete_step", "src/constants.rs: MXORDP1, MAXORD_DEFAULT"]}
{"id": "C26", "title": "Order changes by at most one per accepted step and is raised only after enough constant steps", "statement": "The order for the next step differs by at most one from the order just used; after the start-up phase it is raised only when at least order+2 consecutive steps used the same step size and order.", "quantifier": "all histories", "why_tests_cant": "all histories", "anchors": ["src/impl_complete_step.rs: complete_step", "src/lib.rs: set_coeffs"]}
{"id": "C27", "title": "Step-size change ratios are bounded", "statement": "After an accepted step the next step size is between 1/2 and 2 times the one used; after a first error-test failure it is multiplied by a factor in [1/4, 0.9], after later ones by exactly 1/4, after recoverable convergence failures by 1/4.", "quantifier": "all error estimates and states in exact arithmetic", "why_tests_cant": "all error values", "anchors": ["src/impl_complete_step.rs: complete_step", "src/lib.rs: handle_n_flag"]}
{"id": "C28", "title": "The maximum step size is respected", "statement": "If a maximum step size hmax is configured, every step attempted has |h| <= hmax.", "quantifier": "all histories", "why_tests_cant": "all histories", "anchors": ["src/impl_complete_step.rs: complete_step", "src/impl_solve.rs: solve"]}
{"id": "C29", "title": "Integration direction never reverses", "statement": "Every internal step advances the current time strictly in the direction of the first tout; the internal time is strictly monotone over accepted steps and unchanged by failed ones.", "quantifier": "all histories in exact arithmetic", "why_tests_cant": "all histories", "anchors": ["src/lib.rs: step, handle_n_flag", "src/impl_complete_step.rs: complete_step", "src/impl_stop_test.rs: stop_test1, stop_test2", "src/impl_solve.rs: solve"]}
{"id": "C30", "title": "A step gives up after boundedly many attempts", "statement": "One internal step makes at most max(maxnef,3) + maxncf nonlinear solves before succeeding or returning an error, so step terminates whenever the nonlinear solver does.", "quantifier": "all user callbacks and all values, any scalar type", "why_tests_cant": "adversarial failure sequences", "anchors": ["src/lib.rs: step, handle_n_flag"]}
{"id": "C31", "title": "Statistics counters are exact", "statement": "get_num_steps equals the number of accepted steps, get_num_err_test_fails the number of error-test failures and get_num_nonlin_solv_conv_fails the number of nonlinear failures over the whole history; counters never decrease; get_num_g_evals counts every root-function call.", "quantifier": "all call histories", "why_tests_cant": "all call histories", "anchors": ["src/lib.rs: step, handle_n_flag", "src/impl_complete_step.rs: complete_step", "src/ida_io.rs: getters", "src/impl_r_check.rs: nge"]}
{"id": "C32", "title": "Accepted steps passed the local error test", "statement": "Whenever an internal step is accepted, the weighted norm of its correction times the error coefficient is at most one, evaluated with the weights in force for that step.", "quantifier": "all histories, any scalar type", "why_tests_cant": "all histories", "anchors": ["src/lib.rs: test_error, step"]}
{"id": "C33", "title": "Recoverable nonlinear failures cause a retry with a smaller step", "statement": "If the nonlinear solver reports a recoverable convergence failure, the step is retried with the step size reduced to one quarter, up to maxncf times.", "quantifier": "all nonlinear-solver behaviours", "why_tests_cant": "error injection at all points", "anchors": ["src/lib.rs: handle_n_flag, step, nonlinear_solve", "src/ida_nls.rs: ctest"]}
{"id": "C34", "title": "A failed step leaves dense output over the previous step intact", "statement": "If solve returns an error because a step failed, get_solution(t) for t in the last accepted step still returns the same values as before the failed step.", "quantifier": "all failing histories", "why_tests_cant": "all histories", "anchors": ["src/lib.rs: restore, set_coeffs, get_solution, step"]}
{"id": "C35", "title": "Normal mode returns the solution at tout", "statement": "If solve(tout, Normal) returns Success then tret = tout and the internal time has reached or passed tout in the direction of integration (or tout is the time returned last).", "quantifier": "all problems, histories and tout, any scalar type", "why_tests_cant": "all histories", "anchors": ["src/impl_solve.rs: solve", "src/impl_stop_test.rs: stop_test1, stop_test2"]}
{"id": "C36", "title": "OneStep mode takes at most one step and returns the internal time", "statement": "If solve(_, OneStep) returns Success then tret is the internal time and at most one internal step was taken; exactly one unless a previously reached internal time had not been returned yet.", "quantifier": "all histories", "why_tests_cant": "all histories", "anchors": ["src/impl_solve.rs: solve", "src/impl_stop_test.rs: stop_test1, stop_test2"]}
{"id": "C37", "title": "At most mxstep internal steps per solve call", "statement": "A call of solve performs at most mxstep (default 500) internal steps and therefore terminates when each step and root search does; reaching the limit yields an error with tret = internal time.", "quantifier": "all problems and tout, any scalar type", "why_tests_cant": "all problems", "anchors": ["src/impl_solve.rs: solve loop"]}
{"id": "C38", "title": "Illegal first calls are rejected without integrating", "statement": "On the first call, tout equal to or within roundoff of t0, a first step pointing away from tout, or a stop time behind t0, give IllegalInput without evaluating a residual or taking a step.", "quantifier": "all inputs", "why_tests_cant": "all inputs", "anchors": ["src/impl_solve.rs: solve first-call block"]}
{"id": "C39", "title": "Automatic initial step", "statement": "With no user step, the first step points from t0 toward tout, is nonzero, and its size is at most 0.001 |tout - t0| and at most 1/2 divided by the weighted norm of y'0 when that is large.", "quantifier": "all tout, t0, y'0 and tolerances in exact arithmetic", "why_tests_cant": "all inputs", "anchors": ["src/impl_solve.rs: solve first-call block", "src/ida_io.rs: get_actual_init_step"]}
{"id": "C40", "title": "Stop time is never overshot and is reported once", "statement": "With a stop time set, no internal step goes past it, TStop is returned exactly when the internal time is within roundoff of it, tret then equals the stop time, and the stop time is cleared by the return.", "quantifier": "all histories in exact arithmetic", "why_tests_cant": "all histories", "anchors": ["src/lib.rs: step (tstop clamp)", "src/impl_stop_test.rs: stop_test1, stop_test2", "src/impl_solve.rs: solve"]}
{"id": "C41", "title": "Too much accuracy is detected before stepping", "statement": "If the tolerances are so tight that epsilon times the weighted norm of y exceeds one, solve returns TooMuchAccuracy without taking a step, with get_tol_scale_factor equal to ten times that product.", "quantifier": "all states", "why_tests_cant": "all states", "anchors": ["src/impl_solve.rs: solve"]}
{"id": "C42", "title": "get_yy after Normal success is the solution at tret", "statement": "After solve(tout, Normal) returns Success, get_yy/get_yp hold the interpolated solution at tout.", "quantifier": "all call histories including interleaved get_solution calls", "why_tests_cant": "all call histories", "anchors": ["src/impl_solve.rs: solve", "src/impl_stop_test.rs: stop_test1, stop_test2"]}
{"id": "C43", "title": "A failed first call can be repeated", "statement": "If the first call of solve fails before any step has been accepted, calling solve again starts from the same initial history (y0 and h*y'0).", "quantifier": "all failing first calls", "why_tests_cant": "needs failing histories", "anchors": ["src/impl_solve.rs: solve first-call block (phi[1] scaling)"]}
{"id": "C44", "title": "Reported roots are bracketed", "statement": "When solve returns Root after a root search, either some monitored root function is exactly zero at tret or some monitored root function has opposite signs at tret and at a point within the root tolerance before it; every component flagged by get_root_info is such a function.", "quantifier": "all root functions, histories and steps in exact arithmetic", "why_tests_cant": "all continuous or discontinuous root functions", "anchors": ["src/impl_r_check.rs: r_check3, root_find"]}
{"id": "C45", "title": "Sign changes between search endpoints are never missed", "statement": "If a monitored root function has opposite nonzero signs at the two ends of the searched interval (and the direction filter allows it), the search reports a root.", "quantifier": "all root functions and intervals", "why_tests_cant": "all functions", "anchors": ["src/impl_r_check.rs: root_find, r_check3"]}
{"id": "C46", "title": "Root search terminates within a bounded number of evaluations", "statement": "The root search makes at most 2 |thi - tlo| / ttol + 1 root-function evaluations, every trial point lies strictly inside the current bracket, and the bracket shrinks by at least ttol/2 per evaluation.", "quantifier": "all root functions in exact arithmetic", "why_tests_cant": "termination over all functions", "anchors": ["src/impl_r_check.rs: root_find"]}
{"id": "C47", "title": "Direction reported by get_root_info", "statement": "get_root_info reports +1 for an increasing and -1 for a decreasing crossing, as documented.", "quantifier": "all detected crossings", "why_tests_cant": "all crossings", "anchors": ["src/impl_r_check.rs: root_find (iroots)", "src/ida_io.rs: get_root_info doc"]}
{"id": "C48", "title": "Roots inside the first step are detected", "statement": "A root function that is nonzero at t0 and changes sign during the first internal step is reported.", "quantifier": "all root functions and first steps", "why_tests_cant": "needs all first steps; example problems have no early root", "anchors": ["src/impl_r_check.rs: r_check1, r_check3", "src/lib.rs: new (ida_gactive)"]}
{"id": "C49", "title": "Root times advance and stay inside the last step", "statement": "The time returned with Root by the in-loop search lies between the previous search start and the smaller of internal time and tout, in the direction of integration; the next search starts there.", "quantifier": "all histories", "why_tests_cant": "all histories", "anchors": ["src/impl_r_check.rs: r_check3, root_find", "src/impl_solve.rs: solve"]}
{"id": "C50", "title": "User Jacobian is evaluated at the current time", "statement": "The Jacobian callback receives the time of the step being attempted.", "quantifier": "all problems and steps", "why_tests_cant": "time-dependent Jacobians are not exercised by tests", "anchors": ["src/ida_ls.rs: IdaLProblem::setup", "src/ida_nls.rs: setup"]}
{"id": "C51", "title": "Jacobian refresh policy", "statement": "Every nonlinear solve either refreshes the Jacobian first or runs with 3/5 <= cj/cj_at_last_refresh <= 5/3, and with a stale Jacobian the direct linear solution is scaled by 2/(1 + cj/cjold).", "quantifier": "all histories", "why_tests_cant": "all histories", "anchors": ["src/lib.rs: nonlinear_solve", "src/ida_ls.rs: solve", "src/ida_nls.rs: setup"]}
{"id": "C52", "title": "Residuals are evaluated on the BDF manifold", "statement": "Every residual evaluation made by the nonlinear solver is at (tn, y, y') with y = ypred + c and y' = y'pred + cj c for the current correction c, the evaluation count get_num_res_evals counts each of them, and after a solve get_yy/get_yp satisfy the same relation with the returned correction.", "quantifier": "all corrections, all nonlinear solvers using the problem interface", "why_tests_cant": "all call sequences", "anchors": ["src/ida_nls.rs: sys", "src/lib.rs: nonlinear_solve"]}
{"id": "C53", "title": "A singular Jacobian is reported as an error", "statement": "If the Jacobian is singular at setup, the integrator returns an error (or recovers) rather than panicking.", "quantifier": "all problems", "why_tests_cant": "needs singular Jacobians", "anchors": ["src/ida_ls.rs: IdaLProblem::setup (unwrap)"]}
{"id": "C54", "title": "Roberts sample Jacobian is exact", "statement": "Roberts::jac fills exactly dF/dy + cj dF/dy' for the residual Roberts::res.", "quantifier": "all y, y', cj", "why_tests_cant": "all real inputs", "anchors": ["src/sample_problems/roberts.rs: res, jac"]}
{"id": "C55", "title": "Slider-crank velocity constraints are the time derivatives of its position constraints", "statement": "Residual components 8 and 9 of SlCrank equal the total time derivatives of components 6 and 7 along any motion with q' = qd, x' = xd, p' = pd.", "quantifier": "all differentiable motions", "why_tests_cant": "all motions", "anchors": ["src/sample_problems/slider_crank.rs: res"]}
{"id": "C56", "title": "The performance monitor never underflows", "statement": "ls_perf's unsigned subtractions never underflow in any call history.", "quantifier": "all call histories", "why_tests_cant": "all histories", "anchors": ["src/ida_ls.rs: ls_perf", "src/impl_solve.rs: solve"]}
{"id": "C57", "title": "A refused request leaves the solver as it was", "statement": "If solve, called after at least one internal step, refuses a tout that lies before the last internal step (BadTimeValue), then every later call has the outcome it would have had without the refused call.", "quantifier": "all problems, histories and later requests", "why_tests_cant": "The refused call must be invisible in every possible continuation; a test compares one continuation.", "anchors": ["src/impl_solve.rs:Ida::solve", "src/impl_stop_test.rs:stop_test1", "src/impl_r_check.rs:r_check3"]}
{"id": "C58", "title": "A request before the last step is refused", "statement": "After at least one internal step, solve(tout, Normal) with tout before the last internal step (and not the time returned last) returns BadTimeValue; in particular the solver never returns a time behind the last step.", "quantifier": "all problems, histories and tout", "why_tests_cant": "The set of earlier times and of histories is unbounded, and the search for roots runs before the test of tout.", "anchors": ["src/impl_solve.rs:Ida::solve", "src/impl_stop_test.rs:stop_test1", "src/impl_r_check.rs:r_check3", "src/lib.rs:get_solution"]}
{"id": "C59", "title": "Roberts sample: documented equations, consistent start, regular Jacobian", "statement": "The residual of Roberts is zero exactly when the documented kinetic equations hold, the initial values of the example satisfy them, and for cj > 0 and nonnegative second and third concentration the Jacobian is regular, so the dense factorisation accepts it.", "quantifier": "all t, y, y', cj, all buffer contents", "why_tests_cant": "all inputs", "anchors": ["src/sample_problems/roberts.rs: res, jac", "examples/roberts.rs"]}
{"id": "C60", "title": "Slider-crank sample: constraints, multipliers and spring-damper force", "statement": "The position constraints say that the rod end meets the crank tip; the multiplier terms are the transposed Jacobian of the position constraints; the generalised force is that of a spring-damper between the middles of crank and rod (minus the derivative of its length times k(l-l0)+c l') plus the external force.", "quantifier": "all parameters, states and motions with a spring of positive length", "why_tests_cant": "all motions", "anchors": ["src/sample_problems/slider_crank.rs: force, res"]}
{"id": "C61", "title": "Slider-crank sample: energy balance", "statement": "On exact solutions with zero stabilisation multipliers, the mechanical energy changes only through the damper and the external force.", "quantifier": "all parameters and exact solutions", "why_tests_cant": "all motions", "anchors": ["src/sample_problems/slider_crank.rs: force, res"]}
{"id": "C62", "title": "Affine solutions are integrated exactly", "statement": "If y0 + t\u00b7y0' solves the equations at all times and the integration starts with y0 and y0', then with exact arithmetic every step is accepted at its first attempt, every accepted point and all dense output is y0 + t\u00b7y0' (derivative y0'), no call reports a failed step, and the vectors after a return at time t hold the exact values. (Requires tolerances that are not below machine precision at y0.)", "quantifier": "all problems (linear or not) with such a solution, tolerances, output times and sequences of calls, stop times", "why_tests_cant": "a test follows one trajectory and compares within a tolerance", "anchors": ["src/impl_solve.rs: solve", "src/lib.rs: step, set_coeffs, predict, nonlinear_solve, test_error, complete_step, get_solution", "src/ida_nls.rs: sys, solve", "crates/nonlinear/src/newton.rs: solve"]}
{"id": "C63", "title": "Linear invariants are kept exactly", "statement": "If a linear combination of the equations reads a\u00b7y = b (or a\u00b7y' = 0) and the initial values satisfy a\u00b7y0 = b and a\u00b7y0' = 0, then with exact arithmetic every accepted point, the output vectors and all dense output satisfy a\u00b7y = b and a\u00b7y' = 0, however inexactly the Newton iteration is solved. (Roberts: y1+y2+y3 = 1.)", "quantifier": "all problems with such a combination, tolerances, sequences of calls including failed ones", "why_tests_cant": "tests compare a few trajectories within a tolerance", "anchors": ["src/lib.rs: step, set_coeffs, predict, nonlinear_solve, restore, reset, complete_step, get_solution, get_dky", "src/ida_nls.rs: sys, solve", "crates/nonlinear/src/newton.rs: solve", "src/sample_problems/roberts.rs"]}
{"id": "C64", "title": "The results do not depend on units, numbering, form of the equations, or direction of time", "statement": "If the same problem is written with the time multiplied by a factor (possibly negative), the unknowns renumbered and each measured in another unit (tolerances converted accordingly), and the equations replaced by invertible linear combinations of them, then with exact arithmetic the same sequence of calls, with converted times, returns the same results, the same converted solution vectors, derivatives, times, step sizes and dense output, and the same orders, counters and root information; calls that do not return correspond. Proviso: the history does not go on after a first step that failed (then it is false), and get_solution/get_dky are called only after a step.", "quantifier": "all problems, changes of units, tolerances, initial values, and sequences of calls with the proviso", "why_tests_cant": "it compares two runs for every problem and every change of units", "anchors": ["src/impl_solve.rs: solve", "src/lib.rs: step, set_coeffs, predict, nonlinear_solve, test_error, restore, reset, get_solution, get_dky", "src/impl_complete_step.rs: complete_step", "src/ida_nls.rs: sys, setup, solve, ctest", "src/ida_ls.rs: setup, solve", "crates/linear/src/dense.rs", "src/tol_control.rs", "src/norm_rms.rs", "src/impl_r_check.rs: r_check1, r_check2, r_check3"]}
{"id": "C65", "title": "Order and step size are chosen by the documented rule from the accepted points", "statement": "As long as no earlier call reported a failed internal step: every attempt at a step, and what get_current_order and get_current_step announce, is determined by the rule of the method. The first attempt has order one. After an accepted step the order goes up by one and the size doubles in the start-up phase; afterwards the estimated local errors of the methods of order k-2, k-1, k and k+1, computed from the differences between the accepted point and the extrapolations of the previously accepted points, are compared to keep, lower or raise the order (raising only after k+2 steps of constant size and order), and the size is multiplied by 2, by 1, or by a number between 1/2 and 9/10 that follows from the estimate for the chosen order, subject to the maximal step size. After a failed error test the order and size of the retry follow from the estimates in the same way (first failure), are reduced to a quarter (second), or to order one and a quarter (later); after a failed nonlinear solve the size is a quarter. Only a size chosen after an accepted step may further be shortened to end at the stop time.", "quantifier": "all problems, tolerances, nonlinear-solver behaviours and sequences of calls (the last of which may report a failed step), exact arithmetic, any power function", "why_tests_cant": "tests execute the choice on a few hand-made states, without relation to the points of a history", "anchors": ["src/impl_solve.rs: solve", "src/lib.rs: step, set_coeffs, test_error, handle_n_flag", "src/impl_complete_step.rs: complete_step", "src/impl_stop_test.rs: stop_test1, stop_test2"]}
{"id": "C66", "title": "The integration does not depend on the outputs requested", "statement": "Once the first step has been taken, and without a stop time, the output times and modes passed to solve and the calls of get_solution and get_dky in between have no influence on the integration: two continuations of the same history make the same attempts and accept the same points, one possibly further than the other. At the same number of attempts (or of steps, if no step failure was reported) all statistics and the dense output agree, bit for bit. With exact arithmetic, two continuations whose last call was solve(tout, Normal), took a step and succeeded, with the same tout, are at the same step and return the same solution vectors, whatever outputs were requested before.", "quantifier": "all problems, scalar types (first part), tolerances, histories with at least one step, and pairs of continuations by any public calls; any nonlinear solver that does not read the output vectors, which is proved of Newton", "why_tests_cant": "it compares any two sequences of calls of any length, including the ones with failures in between", "anchors": ["src/impl_solve.rs: solve", "src/lib.rs: step, get_solution, get_dky", "src/impl_stop_test.rs: stop_test1, stop_test2", "src/ida_nls.rs: sys, setup, solve, ctest", "crates/nonlinear/src/newton.rs: solve", "src/impl_r_check.rs: r_check1, r_check2, r_check3"]}
{"id": "C67", "title": "Linear problems: every call returns, and the values satisfy the equations", "statement": "For a linear problem A y + B y' + f(t) = 0 with at least one unknown and a Jacobian A + cj B that is regular for every cj in the direction of the integration, every call of solve in every history returns, with a result or an error: it neither panics nor runs for ever, with or without root functions. More generally this holds for every problem on which an iteration that begins with an evaluation of the Jacobian converges. If the last Jacobian was evaluated for the leading coefficient of the last step, the values of that step satisfy the equations exactly.", "quantifier": "all linear problems of any size, tolerances, initial values, stop times and histories of public calls from Ida::new with Newton::new; exact scalars", "why_tests_cant": "a test that ends shows nothing about the inputs on which the retry loop of Newton::solve, the root search or the step loop would not end", "anchors": ["src/impl_solve.rs: solve", "src/lib.rs: step", "crates/nonlinear/src/newton.rs: Newton::solve", "src/ida_nls.rs: sys, setup, solve, ctest", "src/ida_ls.rs: setup, solve", "src/impl_r_check.rs: root_find"]}
{"id": "C68", "title": "A step is solved by an iteration that passed the convergence test", "statement": "In every history with the standard Newton stack, the calls of the residual and Jacobian functions for an attempted step are those of iterations that continue while the convergence test says so, restart at the predicted values when it fails, and end at the first update that passes. The first update d of an iteration passes if S*||d|| <= 0.33 (or ||d|| <= 0.33e-8), where S is 20 after a Jacobian evaluation, 100 after a change of the leading coefficient, and otherwise the factor left by the last iteration; a later update with number m passes if r/(1-r)*||d|| <= 0.33 with the estimated rate r = (||d||/||d0||)^(1/m), and the iteration has failed if r > 0.9. The step uses the sum of the updates since the last restart. Consequently, if the last update has reduced the distance to a solution of the nonlinear system at least by the estimated rate, the correction used is within 0.33 of it in the norm of the error test.", "quantifier": "all problems with at least one unknown, scalar types (test) or exact scalars with a square root (error bound), tolerances and histories of public calls, all attempts in them, failed ones included", "why_tests_cant": "a wrong factor, exponent or missing reset in the test leaves results that look right for well-behaved problems; the claim is about every iteration of every attempt", "anchors": ["src/ida_nls.rs: RATEMAX, ctest, setup, sys, solve", "src/lib.rs: nonlinear_solve, step", "src/impl_solve.rs: solve", "src/constants.rs: EPCON, XRATE", "crates/nonlinear/src/newton.rs: Newton::solve"]}
{"id": "C69", "title": "Each attempted step costs at most one Jacobian and eight residual evaluations; a call that needs more never returns", "statement": "With the standard Newton stack and at least one unknown, in every history of calls that have returned: get_num_nonlin_solv_iters equals get_num_res_evals, get_num_lin_solv_setups equals get_num_jac_evals, jacobian evaluations and attempted steps are at most the residual evaluations, and get_num_nonlin_solv_conv_fails is 0. If moreover the residual function is a function of its documented arguments (it does not read the buffer it fills), get_num_jac_evals is at most the number of attempted steps (steps + error test failures) and get_num_res_evals at most eight times that number. The reason: a nonlinear solve makes at most two passes or never ends; it never ends exactly when the pass with a newly evaluated Jacobian does not converge (and the pass with the old one, if it is tried first, does not either), because such a pass is repeated identically for ever. So whether a call returns does not depend on how many passes beyond two one is prepared to wait for.", "quantifier": "all problems with at least one unknown, scalar types, tolerances, initial values and stop times, histories of public calls and calls after them", "why_tests_cant": "the bound is over all attempts of all histories, and that a call never returns cannot be observed by a test", "anchors": ["crates/nonlinear/src/newton.rs: Newton::solve", "src/ida_nls.rs: sys, setup, solve, ctest", "src/ida_ls.rs: setup, solve", "src/ida_io.rs: get_num_res_evals, get_num_jac_evals, get_num_nonlin_solv_iters, get_num_lin_solv_setups, get_num_nonlin_solv_conv_fails", "src/lib.rs: nonlinear_solve, step"]}
{"id": "C70", "title": "Any correct direct linear solver gives the same results", "statement": "Let two implementations of the linear-solver trait be correct direct solvers: setup succeeds on regular matrices and only on these, solve then returns the solution of the system, setting scaling vectors does no harm (a matrix-iterative solver must also report at least one iteration per solve). Then with exact arithmetic every session on every problem gives the same with either: the outcome of every call of solve, get_solution and get_dky, everything the getters return after it, and the calls made of the user's residual, Jacobian and root functions with their arguments. In particular the results do not depend on how Dense chooses its pivots. For any linear solver whatsoever, the nonlinear solver passes no error to the integrator, calls only the residual and Jacobian functions and does not read the output vectors.", "quantifier": "all implementations of the trait (all pairs of correct ones), problems, tolerances, initial values, stop times, and sequences of public calls", "why_tests_cant": "it compares all implementations of a trait over all histories; a test runs one implementation on one problem", "anchors": ["crates/linear/src/traits.rs: LSolver", "crates/linear/src/dense.rs: Dense", "src/ida_ls.rs: IdaLProblem::setup, solve", "src/ida_nls.rs: setup, solve", "src/lib.rs: Ida"]}
{"id": "C71", "title": "A failure of the linear solver is not hidden", "statement": "If the linear solver reports that it cannot solve the systems it is given, solve does not report success as if it had: it returns an error, or at least the statistics show the failures. REFUTED: Err returned by LSolver::solve is counted in a field without a getter and otherwise ignored. With a direct solver that always fails and leaves the initial guess 0, the Newton iteration accepts the correction 0 for every equation; for y'+y=0, y(0)=1, solve(1) returns Success with y(1)=0, y'(1)=-1. Proved part: failures of setup are not hidden; if setup always fails, no call of solve ever takes a step or returns Ok.", "quantifier": "all linear solvers, problems and histories", "why_tests_cant": "Dense never fails in solve, so no test of the crate reaches the case; the claim is about every solver a user may plug in", "anchors": ["src/ida_ls.rs: IdaLProblem::solve, ncfl", "src/ida_io.rs: get_num_nonlin_solv_conv_fails", "crates/linear/src/traits.rs: LSolver::solve", "crates/nonlinear/src/newton.rs: Newton::solve"]}
{"id": "C72", "title": "get_num_lin_iters returns the number of linear iterations", "statement": "get_num_lin_iters returns the cumulative number of iterations reported by the linear solver. REFUTED: it returns 0 whatever the solver reports. Proved part: for direct solvers, for which no iterations are counted, 0 is the right number in every history.", "quantifier": "all linear solvers, problems and histories", "why_tests_cant": "the only solver in the crate is direct; the claim is about every solver a user may plug in", "anchors": ["src/ida_io.rs: get_num_lin_iters", "src/ida_ls.rs: nli", "crates/linear/src/traits.rs: LSolver::num_iters"]}
{"id": "C73", "title": "The results depend on the linear solver's solutions, not on its name", "statement": "A linear solver that solves every system exactly gives the same session whatever it returns from get_type and num_iters. REFUTED in two ways: an iterative or matrix-iterative solver that does not override num_iters (default 0) has its solution thrown away, the negative residual is taken as the correction; and under the type Iterative the correction is not scaled when the matrix belongs to an older leading coefficient, although the same old matrix is used. Proved part: for every other name (Direct with any num_iters, MatrixIterative with num_iters > 0) the session is the same.", "quantifier": "all correct linear solvers, names, problems, tolerances, initial values and sequences of public calls", "why_tests_cant": "the only solver in the crate is direct; the claim is about all solvers, problems and histories", "anchors": ["src/ida_ls.rs: IdaLProblem::solve", "crates/linear/src/traits.rs: LSolver::num_iters, get_type", "crates/linear/src/lib.rs: LSolverType"]}
{"id": "C74", "title": "The error test controls the local error", "statement": "In every history without a failed call, the error test of every attempt of every step but the first bounds the local error in the sense of the method: the computed solution differs, in every component, from the result of the method of the next higher order with the same computed derivative by at most the constant of the test times the correction, so for an accepted step the weighted norm of the difference is at most 1. The constant is a function of order, step sizes and accepted times only (1/(k+1) for equal steps). If the true solution is a polynomial of degree at most order + 1, the points used are exact and the computed derivative is exact, the true error of an accepted step has weighted norm at most 1. In the first step the difference is exactly half the correction.", "quantifier": "all histories without a failed call and one more call, all attempts, orders, step sizes, nonlinear solvers (exact arithmetic)", "why_tests_cant": "tests compare final values on a few problems; the bound is about every attempt at every order and step ratio", "anchors": ["src/lib.rs: set_coeffs, test_error, step", "src/impl_complete_step.rs: complete_step"]}
{"id": "C75", "title": "Output between the steps is as accurate as the steps", "statement": "In every history without a failed call, after at least two steps: for every time t of the last step, get_solution(t) returns a value that differs in every component from the polynomial of degree order + 1 through all the points the step was based on and its result by at most the constant of the error test times the correction; its weighted norm is at most 1.", "quantifier": "all histories without a failed call, all times in the last step, all orders and step sizes (exact arithmetic)", "why_tests_cant": "holds at every time inside every step of every history", "anchors": ["src/lib.rs: get_solution, set_coeffs, test_error"]}
{"id": "C76", "title": "get_yy after Root is the solution at the root", "statement": "After solve returns Root, get_yy and get_yp hold the interpolated solution at tret. REFUTED: if the root was found by the check right after the last reported root, tret is the old root and the vectors belong to a later time. Proved part: for every Root return at another time than the one the search started from.", "quantifier": "all root functions, problems, histories and modes (exact arithmetic)", "why_tests_cant": "all root functions and histories; the refuting case needs two roots closer than the root tolerance", "anchors": ["src/impl_solve.rs: solve", "src/impl_r_check.rs: r_check2, r_check3"]}
{"id": "C77", "title": "Output times do not go back", "statement": "In every session in which each call of solve returned Ok and asked for a time not before the last returned one (or for one step), the times returned do not go back: each is not before the last one, seen in the direction of integration, and not after the internal time; TStop is never returned. REFUTED: Root may be returned at a time before the last returned one, when the last two requests were closer than the root tolerance. Proved part: Success never goes back; Root goes back by no more than the root tolerance.", "quantifier": "all problems, solvers, root functions and forward sessions of any length, both modes and both directions (exact arithmetic)", "why_tests_cant": "holds for every sequence of requests; the refuting case needs two requests within 100 rounding units and a root between them", "anchors": ["src/impl_solve.rs: solve, stop_test1, stop_test2", "src/impl_r_check.rs: r_check2, r_check3"]}
{"id": "C78", "title": "The example program prints what it promises", "statement": "The output loop of examples/roberts.rs: if it ends without error, the Success rows of its table are exactly at the twelve output times 0.4, 4, ..., 4e10 in this order, the last row is the last of them, the number of steps does not decrease, no row is later than a Success row below it, every Success row shows the interpolated solution at its time, and y1+y2+y3 = 1 in every row. If it ends with an error, that is the result of the last row and the Success rows are the first output times. check_ans prints no warning if every component is within rtol|ref| + 10 atol of the reference. Partial: a Root row may be before the row above it by the root tolerance (C77), a Success row at the time of the Root row above it shows that row's vectors, and the sum is exact only if the first step was not repeated (C63).", "quantifier": "all problems, solvers, root functions, output times and factors; any number of passes", "why_tests_cant": "the example is run by hand on one problem; the claims hold for every solver behaviour, including any number of roots between output times and failures at any step", "anchors": ["examples/roberts.rs: main, check_ans", "src/impl_solve.rs: solve"]}
{"id": "C79", "title": "Each benchmark iteration does the whole integration", "statement": "Every timed iteration of the benchmark 'ida-rs' integrates to the nout output times. REFUTED: the counter and the output time are declared outside the timed closure, so only the first iteration does; every later one that ends makes a single call of solve that does not return Success (for Roberts: it stops at the first root), and without a root it does not end.", "quantifier": "all problems, solvers, numbers of output times and iterations, any scalar type", "why_tests_cant": "a benchmark has no assertions; the claim is about every iteration and every solver behaviour", "anchors": ["benches/dense.rs: bench_dense_ida_rs"]}
{"id": "C80", "title": "The dense solver is backward stable in floating point", "statement": "In floating-point arithmetic (standard model: every operation has relative error at most u; no overflow or underflow), if Dense::setup succeeds on an n by n matrix A, then for every right-hand side b the vector returned by Dense::solve is the exact solution of (A+E)x = b, where |E| is entrywise at most (gamma(2n+1)+gamma(n+2)) |L||U| for the stored factors, and at most that factor times n (1-u)^-2 ((1-u)^-1(1+(1-u)^-3))^n max|A|. For three equations in binary64 the bound is 4e-14 max|A|.", "quantifier": "all n >= 1, all matrices on which the factorization succeeds, all right-hand sides, all arithmetics satisfying the standard model", "why_tests_cant": "the bound is for every matrix, dimension and rounding behaviour; tests compare a few solutions with a tolerance", "anchors": ["crates/linear/src/dense.rs: Dense::setup, Dense::solve, dense_get_rf, dense_get_rs"]}
{"id": "C81", "title": "The error test in floating point", "statement": "In floating-point arithmetic (standard model, unit roundoff u): the weights are positive and equal to 1/(rtol|y_i|+atol_i) up to three roundings; the square of the weighted norm (n components) is the exact mean square up to n+7 roundings (n+9 with a mask); and in every history an attempt whose nonlinear solve succeeded is accepted only if the exact squared test quantity is at most (1-u)^-(n+9), and rejected only if it exceeds (1-u)^(n+9).", "quantifier": "all n >= 1, all vectors, tolerances, histories (including failures), all arithmetics satisfying the standard model", "why_tests_cant": "the bound is for all inputs and all rounding behaviours", "anchors": ["src/norm_rms.rs: norm_wrms, norm_wrms_masked", "src/tol_control.rs: ewt_set", "src/lib.rs: test_error"]}
{"id": "C82", "title": "The requested tolerances control the local error", "statement": "In every history without a failed call, and one more call, every attempt of every step but the first is tested with the weights 1/(rtol|y_i|+atol_i) at the last accepted solution y, all positive. Hence for every accepted step but the first, the computed solution differs from the result of the method of the next higher order with the same derivative, in every component that takes part in the error test, by at most sqrt(n)(rtol|y_i|+atol_i); the true error obeys the same bound when the true solution is a polynomial of degree at most order + 1 and the data used are exact; and every value get_solution returns inside the last step differs from the polynomial of the next higher degree through the accepted points by at most sqrt(n)(rtol|y_i|+atol_i).", "quantifier": "all histories without a failed call and one more call, all attempts, n, tolerances (rtol >= 0, atol > 0), nonlinear solvers (exact arithmetic)", "why_tests_cant": "needs every history: weights could be stale after rejected attempts, order changes, root returns or interpolation calls", "anchors": ["src/impl_solve.rs: solve (ewt_set before each step)", "src/tol_control.rs: ewt_set", "src/lib.rs: test_error, step, get_solution"]}
{"id": "C83", "title": "Step control in floating point", "statement": "In correctly rounded floating-point arithmetic, in every history including calls that report failures: every attempted step has a size different from zero, at most the configured maximum up to two roundings, ends at its start plus its size (rounded) and never beyond the stop time in force; the accepted times never turn back; the internal time never passes the stop time; the next step has the direction of the last one and at most twice its size up to two roundings; no public call reverses the direction; the first step goes in the direction of the requested time.", "quantifier": "all histories (including failures), all correctly rounded arithmetics with unit roundoff at most 1/16, all tolerances, nonlinear solvers, problems, sizes", "why_tests_cant": "rounding errors would have to conspire: the claim is for all values, rounding behaviours and histories", "anchors": ["src/lib.rs: step, complete_step, handle_n_flag, set_coeffs", "src/impl_solve.rs: solve (first step, stop time)", "src/impl_stop_test.rs: stop_test1, stop_test2"]}
{"id": "C84", "title": "Accepted steps advance the time in floating point", "statement": "In floating-point arithmetic, every accepted step moves the internal time strictly in the direction of integration.", "quantifier": "all histories, all correctly rounded arithmetics", "why_tests_cant": "needs step sizes below the roundoff of the current time, reached after many failures", "anchors": ["src/lib.rs: step", "src/impl_solve.rs: solve"]}
{"id": "C85", "title": "A reported root is close to a true zero", "statement": "Let the root functions be functions of t, y, y' without jumps (over the real numbers: continuous). If solve returns Root at a time more than the root tolerance past the start of the last internal step, then every component flagged by get_root_info has a zero along the dense output (what get_solution yields) within the root tolerance of the returned time; the only other case is a root found by the check right after the previous root, and then the component was evaluated to zero one root tolerance after the returned time.", "quantifier": "all problems, all root functions without jumps, all histories without a failed internal step", "why_tests_cant": "a test can only compare with a zero it knows; the claim covers every root function, every step sequence and every place of the zero in a step", "anchors": ["src/impl_r_check.rs: r_check2, r_check3, root_find", "src/lib.rs: get_solution", "src/impl_solve.rs: solve"]}
{"id": "C86", "title": "NaN does not get into a step", "statement": "In an arithmetic in which NaN propagates and compares false (IEEE 754): an accepted step has a correction and error weights without NaN, whatever the nonlinear solver. With Newton's method and the dense solver, every attempted step whose iteration ends has a residual without NaN at the predicted values and at the last iterate; if the residual function hands on NaN, the predicted values and the last iterate have none either. For a residual that always contains NaN no step is ever taken and solve never returns Ok. A time returned with Success in normal mode, or with TStop, is not NaN.", "quantifier": "all problems, all histories, all NaN patterns in the residual, the Jacobian, the tolerances and the arguments; every arithmetic with the NaN laws", "why_tests_cant": "NaN can enter at any component, in any iteration of any step; each comparison in the code could be written so that NaN passes", "anchors": ["src/ida_nls.rs: ctest", "src/lib.rs: test_error", "src/norm_rms.rs: norm_wrms", "crates/linear/src/dense.rs: dense_get_rs", "crates/nonlinear/src/newton.rs: solve"]}
{"id": "C87", "title": "Root searches end in floating-point arithmetic", "statement": "In floating-point arithmetic with correct rounding, every call of solve ends, whatever values the root functions return: the trial points of a search are computed with rounding, and still every trial point lies strictly inside the current bracket and shrinks it by a fixed fraction of the root tolerance 100 epsilon (|t| + |h|).", "quantifier": "all problems, all root functions, all histories in which the times asked for are on one side of the initial time, every correctly rounded arithmetic with unit roundoff at most 1/200", "why_tests_cant": "the brackets are only about a hundred units in the last place wide at the end; an endless loop would need one unlucky combination of values and times", "anchors": ["src/impl_r_check.rs: root_find, r_check3", "src/impl_solve.rs: solve"]}
{"id": "C88", "title": "A reported root is a sign change or a zero, in floating-point arithmetic", "statement": "In floating-point arithmetic with correct rounding: if solve returns Root, then some component of the root function was evaluated to zero at the returned time, or was evaluated with opposite signs at the returned time and at a point at most 104 epsilon (|t| + |h|) away, and the returned time lies between the initial time and the internal time; the only other case is a root reported again by the check right after the previous root.", "quantifier": "all problems, all root functions, all histories in which the times asked for are on one side of the initial time, every correctly rounded arithmetic with unit roundoff at most 1/200", "why_tests_cant": "rounding can move every trial point and every product whose sign is tested; no finite set of runs covers all of them", "anchors": ["src/impl_r_check.rs: r_check1, r_check2, r_check3, root_find", "src/impl_solve.rs: solve"]}
{"id": "C89", "title": "No sign change is missed because of rounding", "statement": "If a monitored root function component has opposite signs at the two ends of a searched interval, or is zero at its end, in the floating-point values returned by the user's function, then solve returns Root.", "quantifier": "all problems, all root functions, all histories in which the times asked for are on one side of the initial time, every binary64-like arithmetic", "why_tests_cant": "the sign test uses a rounded product; the inputs for which its sign is wrong are rare", "anchors": ["src/impl_r_check.rs: root_find, r_check3", "src/impl_solve.rs: solve"]}
{"id": "C90", "title": "A root function that returns NaN does no harm", "statement": "A NaN value of a root function is never taken for a root: solve returns Root only if some component had a number as value at the returned time, and get_root_info flags no component that was NaN there; a root function that is always NaN never gives Root. Every call still returns, and a returned Root comes with a flagged component.", "quantifier": "all problems and root functions, all states and calls, every arithmetic in which operations hand on NaN and comparisons with NaN are false", "why_tests_cant": "a NaN can appear at any one of the trial points, which depend on rounding; a test cannot show that a search never ends", "anchors": ["src/impl_r_check.rs: root_find, r_check2, r_check3", "src/impl_solve.rs: solve", "src/ida_io.rs: get_root_info"]}
{"id": "C91", "title": "Every error returned by solve has a definite cause", "statement": "If solve returns an error, then the situation the error stands for was present: IllegalInput on the first call only if tout is too close to the initial time, the given initial step points the wrong way or the stop time is not ahead, and later only if the limit of steps per call was reached or an error weight is not positive; TooMuchAccuracy only if the weighted norm of the solution times the unit roundoff exceeds one; BadTimeValue only if tout or the stop time lies before the last step; BadStopTime only if the stop time is passed; CloseRoots only if a component of the root function was seen to be zero at the root returned last and again a little later; ResidualFail, ConvergenceFail and the error-test failure only after that kind of failure occurred last and the allowed number of such failures was used up, all of them at the same internal time; any other error is one the nonlinear solver returned. With the crate's own Newton solver no step error other than the error-test failure is returned.", "quantifier": "all problems, tolerances, options and nonlinear solvers that return legal errors, all states and calls, any arithmetic (exact or floating point)", "why_tests_cant": "there are eleven places an error can come from, each behind its own history of steps and failures; a test shows that a bad input gives an error, not that an error is only given for that reason", "anchors": ["src/impl_solve.rs: solve", "src/impl_stop_test.rs: stop_test1", "src/impl_r_check.rs: r_check2", "src/lib.rs: handle_n_flag, step", "src/error.rs"]}
{"id": "C92", "title": "Interpolated output in floating-point arithmetic is backward stable", "statement": "After any history with at least one step, get_solution does no division by zero and one polynomial describes all its answers: there are fixed nodes, all behind the current time and none closer than a quarter of the planned step, and fixed differences, such that for every accepted time t the value returned is exactly that of the interpolating polynomial for differences changed by a relative error of about (4k+2) unit roundoffs (k the order of the last step), at t - t_n rounded once; the derivative returned differs from that of the polynomial by at most about (5k+1) unit roundoffs times the sum of the absolute terms; at the current time the value is returned without any error.", "quantifier": "all correctly rounded arithmetics with unit roundoff at most 1/1000, all problems, tolerances and options, all nonlinear solvers whose errors are recoverable, all histories including failed and repeated steps, all accepted times", "why_tests_cant": "the nodes come from the whole history of step sizes, where steps undone by subtraction leave rounding errors behind; tests see a few histories and compare with tolerances that hide the loss of a few digits", "anchors": ["src/lib.rs: get_solution, restore", "src/lib.rs: set_coeffs, step", "src/impl_complete_step.rs: complete_step"]}
{"id": "C93", "title": "The formula of a step in floating-point arithmetic", "statement": "For every attempt of a step of order k and size h, in floating-point arithmetic: h is not zero; the coefficient cj the user's Jacobian function is given is (1 + 1/2 + ... + 1/k)/h up to k+3 roundings; the value is the predicted value plus the correction up to one rounding, and the derivative is the predicted derivative plus (1 + 1/2 + ... + 1/k)/h times the correction up to k+5 roundings. The coefficient of the error test is positive and at most six, so that the test is never void and rejects a step only if the mean square of the weighted correction is more than 1/36 up to n+9 roundings.", "quantifier": "all correctly rounded arithmetics (for the error test: unit roundoff at most 1/1000 and nonlinear solvers whose errors are recoverable), all problems and options, all attempts of all histories, including failed and repeated ones", "why_tests_cant": "the coefficients come from the whole history of step sizes, also from steps undone with rounding errors; no test covers all histories and rounding patterns", "anchors": ["src/lib.rs: set_coeffs, test_error, nonlinear_solve, restore", "src/traits.rs: Jacobian"]}
{"id": "C94", "title": "A step of order k is exact for polynomial solutions of degree k", "statement": "If the equations have a solution that is a polynomial of degree at most k in time, then with exact arithmetic and the built-in Newton and dense linear solvers every attempt of order k whose last k+1 accepted points lie on that solution has correction zero, passes the error test, and yields the exact value and derivative, whatever the (unequal) step sizes. Consequently, once six consecutive accepted points lie on it, all later points do, as long as the order stays at least the degree; and get_solution returns the exact value and derivative at every time it accepts if the points of the last step lie on it.", "quantifier": "all problems with a polynomial solution, all tolerances, all step size and order sequences, all histories without a failed call, all attempts but those of the first step", "why_tests_cant": "the order of accuracy of the variable-step formula must hold for every sequence of step sizes and orders; a test integrates one problem along one sequence", "anchors": ["src/lib.rs: set_coeffs, predict, nonlinear_solve, test_error, get_solution", "crates/nonlinear/src/newton.rs: solve"]}
{"id": "C95", "title": "Accuracy for smooth solutions: consistency, local error and interpolated output", "statement": "With exact arithmetic, for a function Y with k+1 continuous derivatives, the last bounded by M: an attempt of order k whose last k+1 accepted points lie on Y predicts value and derivative with errors at most M/(k+1)! |t-t_0|...|t-t_k| and M/k! |t-t_1|...|t-t_k|; the formula of the step applied to the exact value gives the exact derivative up to a constant depending on k only times M |t-t_1|...|t-t_k|, whatever the ratios of the step sizes; if y' = F(t,y) with F Lipschitz and the step size small against the Lipschitz constant, the error of the step is bounded by that plus the residual, divided by (1+1/2+...+1/k)/|h| - L. Output at a time in reach differs from Y by at most the interpolation error plus the errors of the accepted points times the amplification of the interpolation; the derivative of the output within the last step is bounded likewise.", "quantifier": "all smooth functions, all problems, all tolerances, all sequences of step sizes and orders, all histories without a failed call, all attempts but those of the first step, all output times accepted", "why_tests_cant": "the order of accuracy is a bound over all smooth functions and all step size sequences; a test compares one problem at a few times", "anchors": ["src/lib.rs: set_coeffs, predict, nonlinear_solve, get_solution", "src/impl_complete_step.rs: complete_step"]}
{"id": "C96", "title": "The suggested tolerance factor is enough", "statement": "When solve returns TooMuchAccuracy on the first call or after a step, starting anew from the current solution with rtol and atol multiplied by the value of get_tol_scale_factor cannot meet TooMuchAccuracy again before a step has been taken.", "quantifier": "all problems, all tolerances with rtol >= 0 and atol > 0 (scalar or vector), all arithmetics of the standard model of rounding in which 2n+40 roundings lose less than a factor of 100, all histories, all initial derivatives, stop times and output times of the new solver", "why_tests_cant": "the margin of the factor 10 must cover every accumulation of rounding errors in the weights and the norm, for every size and vector", "anchors": ["src/impl_solve.rs: solve (accuracy test, ida_tolsf)", "src/ida_io.rs: get_tol_scale_factor", "src/tol_control.rs: ewt_set", "src/norm_rms.rs"]}
{"id": "C97", "title": "Root functions do not influence the integration", "statement": "Two solvers constructed from the same equations, tolerances and initial values, one of which watches other root functions (more, fewer or none), called first with the same tout, make the same internal steps, bit for bit: the attempts and accepted points of the one are those of the other with the most recent ones left out; with equal numbers of attempts (or, without reported step failures, of steps) all statistics except the number of root function calls, the dense output and its derivatives agree. In exact arithmetic both get the same answer from a final solve(t, Normal), whatever roots were reported before.", "quantifier": "all problems, all root functions and numbers of them, all scalar types including floating point (the last statement: exact arithmetic), all histories of calls after the common first tout without stop time, all return points including roots", "why_tests_cant": "a test compares one problem with a few root functions; interference of the root search with the step data would show only for particular times and sequences of returns", "anchors": ["src/impl_r_check.rs: r_check1, r_check2, r_check3", "src/impl_solve.rs: solve", "src/lib.rs: step, get_solution"]}
{"id": "C98", "title": "A stop time does not influence the integration before it is in reach", "statement": "Two solvers constructed from the same equations, tolerances and initial values, one of them with a stop time T, and first called with the same tout, make the same internal steps, bit for bit, as long as no step the solver without stop time starts would end beyond T: the attempts and accepted points of the one are those of the other with the most recent ones left out, and with equal numbers of attempts the statistics, the dense output and its derivatives agree. In exact arithmetic both get the same answer from a final solve(t, Normal) if the solver without stop time has not had, and has not planned, a step that ends beyond T.", "quantifier": "all problems, all stop times, all scalar types including floating point (the last statement: exact arithmetic), all histories of calls after the common first tout", "why_tests_cant": "a test compares a few stop times on a few problems; a stop time that shortens or stretches an early step shows only for particular step sizes", "anchors": ["src/impl_solve.rs: solve, stop_test1, stop_test2", "src/lib.rs: step"]}
{"id": "C99", "title": "Only the user's answers to the calls made matter; beyond the stop time the equations are never consulted", "statement": "If another problem answers every call of a residual, Jacobian or root function that was made in a session in the same way, then the same session - all results of all public calls and all observable state - takes place with it, bit for bit, whatever it does for other arguments. In exact arithmetic and in every correctly rounded floating-point arithmetic, a solver with stop time T calls the residual only for times between the initial time and T, up to and including the first call that reports that T has been reached; hence two problems whose residuals and Jacobians agree between the initial time and T, with the same root functions, cannot be distinguished by that session.", "quantifier": "all pairs of problems, all linear solvers (Newton's method), all histories of public calls, all stop times and both directions; all scalar types including floating point for the first statement, exact and correctly rounded floating-point arithmetic for the times", "why_tests_cant": "a test runs the solver with one problem and cannot see what it would have done with the infinitely many problems that differ elsewhere; an evaluation just beyond the stop time happens only for particular step sizes", "anchors": ["src/lib.rs: step, set_coeffs, nonlinear_solve", "src/impl_solve.rs: solve, stop_test1, stop_test2", "src/ida_nls.rs: IdaNLProblem", "src/ida_ls.rs: IdaLProblem", "crates/nonlinear/src/newton.rs: solve", "src/impl_r_check.rs"]}
{"id": "C100", "title": "Root functions may be rescaled, and root functions without zeros added or removed, with no effect on a session", "statement": "Multiply each root function by its own nonzero factor (positive, if its crossing direction is restricted), and add, anywhere between them, root functions that never vanish and never change sign. Then every session goes as before: all public calls return the same results, all getters return the same values, the user's functions are called with the same arguments in the same order, and in particular the same roots are reported at the same times. Only the report of get_root_info is relabelled: an entry 0 for each added function, and possibly the opposite direction for a function multiplied by a negative factor. (Listing the root functions in another order is not harmless: it can change the reported root times within the root tolerance.)", "quantifier": "all problems with at least one root function, all nonlinear solvers, all factors, all added functions and positions, all sequences of public calls, all bounds, with or without a stop time; exact arithmetic", "why_tests_cant": "the trial points of the root search depend on quotients of the values of the function with the largest fraction; whether another function can take over, or an added one can be taken into account, depends on the values in every pass of every search of every session", "anchors": ["src/impl_r_check.rs: r_check1, r_check2, r_check3, root_find", "src/impl_solve.rs: solve", "src/ida_io.rs: get_root_info"]}
{"id": "C101", "title": "In floating point, units that differ by powers of two, and reversed signs of unknowns or equations, change no bit of a session", "statement": "A user measures each unknown, the equations, and each root function in units that differ from the old ones by powers of two (each unknown and each root function by its own; initial values and absolute tolerances are converted, too), and reverses the signs of any unknowns, or of the equations. Then, in binary floating-point arithmetic without overflow and underflow, every session goes exactly as before: all public calls return the same results at exactly the same times, step sizes, orders, counters and root directions are the same to the last bit, the user's functions are called equally often and in the same order with the same times and with exactly the converted arguments, and all returned solutions and derivatives are exactly the converted ones. The same holds in any arithmetic for all changes of units that commute with its operations; in exact arithmetic, for all positive factors.", "quantifier": "all problems and their converted versions, all precisions, all powers of two for each unknown, the equations and each root function, all choices of signs for the unknowns and the equations, all tolerances, all parameters, all sequences of public calls, all bounds, with or without a stop time", "why_tests_cant": "one place anywhere in the integrator, the Newton iteration, the dense solver (pivoting compares entries of a column, not of a row), the error tests or the root search that compares or adds quantities of different units without conversion would show only in certain runs; the claim is about every operation of every session", "anchors": ["src/impl_solve.rs: solve", "src/lib.rs: step", "src/impl_r_check.rs: root_find", "src/tol_control.rs: ewt_set", "crates/linear/src/dense.rs: dense_get_rf, dense_get_rs", "crates/nonlinear/src/newton.rs: solve", "src/ida_ls.rs: setup, solve", "src/norm_rms.rs: norm_wrms, norm_wrms_masked"]}
{"id": "C102", "title": "In floating point, integrating backward in time is the mirror image of integrating forward, to the last bit", "statement": "A user lets the time run the other way: t becomes -t and y' becomes -y' in the equations, the Jacobian and the root functions (so cj changes its sign), and the initial derivative, the initial step, the stop time and all output times change their signs. Then, in binary floating-point arithmetic without overflow and underflow, every session is the exact mirror image of the original one: all calls return the same results; the solutions, orders, counters, root directions, and the number and order of calls of the user's functions are the same; times, step sizes and first derivatives are the same with the other sign; k-th derivatives are multiplied by (-1)^k. The same holds in every arithmetic in which the operations commute with the change of sign. Only these sessions are excluded: calls other than solve before the first step and calls after a first step that failed (the failed first step leaves h y' in the place of y', which is taken for y' in the next call); in other arithmetics, also calls made while the current step size is zero, which does not happen in binary floating point.", "quantifier": "all problems and their mirror images, all precisions, all tolerances and parameters, all initial values, all sequences of public calls except the ones named, all bounds, with or without a stop time", "why_tests_cant": "direction-dependent code (a missing absolute value, a comparison of times without the factor of the step size, a one-sided roundoff margin) shows only for certain times, step sizes and stop times; the claim is about every operation of every session to the last bit", "anchors": ["src/impl_solve.rs: solve", "src/impl_stop_test.rs: stop_test1, stop_test2", "src/lib.rs: step, get_solution, get_dky, set_coeffs, restore", "src/impl_r_check.rs: r_check1, r_check2, r_check3, root_find", "src/ida_nls.rs: sys, setup, solve", "crates/nonlinear/src/newton.rs: solve"]}
{"id": "C103", "title": "In floating point, a time unit that differs by a power of two changes no bit of a session", "statement": "A user measures the time in another unit: t becomes 2^k t and y' becomes y'/2^k in the equations, the Jacobian (cj is divided by 2^k) and the root functions; the initial derivative, the initial step size, the bound on the step size, the stop time and all output times are converted. Then, in binary floating-point arithmetic without overflow and underflow and with correctly rounded square roots, every session is the same as before to the last bit: all calls return the same results; the solutions, orders, counters, root directions, and the number and order of calls of the user's functions are the same; times and step sizes are exactly 2^k times as large, and j-th derivatives are divided by exactly 2^(jk). This includes the first step size the integrator chooses itself. The same holds in every correctly rounded arithmetic and for every change of the unit that commutes with the operations, and without a stop time in every arithmetic (with a stop time the code compares a product of two times with 1, which depends on the unit; in correctly rounded arithmetic the product is never positive). Excluded are calls other than solve before the first step and calls after a first step that failed (as in C102).", "quantifier": "all problems, all powers of two, all precisions, all tolerances and parameters, all initial values, all sequences of public calls except the ones named, all bounds, with or without a stop time", "why_tests_cant": "a hidden absolute constant (a smallest step size, a fixed margin at the output time or in the root search, a first step size of fixed length) shows only for time scales that differ by many orders of magnitude; the claim is about every operation of every session to the last bit", "anchors": ["src/impl_solve.rs: solve", "src/impl_stop_test.rs: stop_test1, stop_test2", "src/lib.rs: step, get_solution, get_dky, set_coeffs, predict, restore", "src/impl_r_check.rs: r_check1, r_check2, r_check3, root_find", "src/ida_nls.rs: sys, setup, solve", "crates/nonlinear/src/newton.rs: solve"]}
{"id": "C104", "title": "In floating point, a call panics only if the Jacobian is singular up to rounding errors", "statement": "C02 and C53 are claims about exact arithmetic and do not carry over: in binary64 Dense::setup rejects some regular matrices, and a call of solve can then panic although the Jacobian is regular everywhere (both are shown by examples). What the user can rely on: (1) If the dense factorization of a matrix fails and reports a column, a change of the entries of the matrix by at most blur(u,n) times the largest entry makes the columns up to the reported one linearly dependent; blur(u,n) is (n+1) n 2^n u up to higher order terms, for three equations in binary64 it is below 1.2e-14. (2) In every history of the standard solver stack for a system with at least one component, a call of solve panics only if the user's Jacobian is singular up to such a change at some point, for a leading coefficient that is (1 + 1/2 + ... + 1/k)/h up to rounding errors, with 1 <= k <= 5 and h in the direction of the integration. Equivalently: if the Jacobian keeps this distance from the singular matrices for the leading coefficients of the sign of the direction, no call panics. (3) In any arithmetic, with or without infinities and NaN, a call panics only if the factorization of one of the user's Jacobians fails; no index error, no underflow of a size and no other unwrap is involved.", "quantifier": "all matrices of all sizes; all problems with at least one component, all tolerances, all reachable states, all calls; all correctly rounded arithmetics in (2), all arithmetics in (3)", "why_tests_cant": "how far a rejected matrix can be from singular is a bound over all matrices and all sequences of rounding errors; the absence of other panics is a claim about all histories", "anchors": ["crates/linear/src/dense.rs: dense_get_rf, dense_get_rs, setup, solve", "src/ida_ls.rs: setup, solve", "src/ida_nls.rs: setup, solve", "crates/nonlinear/src/newton.rs: solve", "src/impl_solve.rs: solve"]}
{"id": "C105", "title": "Several copies of a system integrated at once behave like one", "statement": "A user whose residual and root functions write all of their output integrates several copies of a system with at least one unknown at once, as one larger system, with the same initial values and tolerances for all copies, numbered in any order; the root functions watch one of the copies. In exact arithmetic every session of public calls goes like the session with a single copy: the same results of all calls, the same times, step sizes, orders, statistics and roots, the same sequence of calls of the user's functions, and in each copy the solution that the system has alone. If one session ends in a panic or does not return, so does the other, at the same call. The copies may be coupled by terms that vanish together with their derivatives where the copies agree.", "quantifier": "all problems with at least one unknown, all numbers of copies and numberings of the unknowns, all initial values, tolerances, stop times and sequences of public calls", "why_tests_cant": "the claim compares two whole sessions for all problems and all sizes; a size entering a test of the integrator other than through averages shows only for particular problems", "anchors": ["crates/linear/src/dense.rs: dense_get_rf, dense_get_rs", "src/norm_rms.rs: norm_wrms, norm_wrms_masked", "src/tol_control.rs: ewt_set", "src/ida_nls.rs: sys, setup, solve, ctest", "src/impl_solve.rs: solve"]}
{"id": "C106", "title": "One call of solve costs a bounded amount of work", "statement": "With the standard Newton stack, at least one unknown and a residual function that does not read the buffer it fills, a call of solve that returns has attempted at most ten steps for each step it accepted, and ten more if it returns an error; it has evaluated the Jacobian at most once and the residual at most eight times for each attempted step. So a call attempts at most 5000 steps, evaluates the Jacobian at most 5000 times and the residual at most 40000 times; in one-step mode at most 10, 10 and 80. get_solution and get_dky call no function of the user.", "quantifier": "all problems, tolerances, scalar types (also floating point), histories of public calls and calls of solve that return", "why_tests_cant": "the bound is on the worst case over all problems and histories; it depends on how the retries of the Newton iteration, of the step and of the driver nest", "anchors": ["src/impl_solve.rs: solve", "src/lib.rs: step, handle_n_flag, nonlinear_solve", "crates/nonlinear/src/newton.rs: solve", "src/constants.rs: MXNEF, MXSTEP_DEFAULT"]}
{"id": "C107", "title": "A solution that is a straight line or an equilibrium costs a number of steps logarithmic in the time", "statement": "Exact arithmetic, standard Newton stack, no stop time, a problem (linear or not) with a solution y(t) = y0 + t y0' (an equilibrium if y0' = 0), started with y0, y0' and tolerances that are not too strict for the precision. In every sequence of calls all attempted steps are accepted and have the sizes h, h, 2h, 4h, 8h, ... whatever output is requested: after N steps get_current_time is h 2^(N-1), and so is get_current_step. If solve returns Success at tout in normal mode, the number N of steps since the construction satisfies |h| 2^(N-2) (1 - 400 eps) <= |tout|. A first call solve(tout) that returns Success has taken at most 12 steps if the weighted norm of y0' is at most 2000/|tout|, and otherwise N steps with 2^N <= 14 |y0'| |tout|.", "quantifier": "all problems with an affine solution, all dimensions, initial values, tolerances, root functions and sequences of calls", "why_tests_cant": "The order and step size rules interact: vanishing error estimates lower the order, end the start-up phase and go through the power law; a test sees the sizes of one problem.", "anchors": ["src/impl_complete_step.rs: complete_step", "src/lib.rs: step, test_error", "src/impl_solve.rs: solve"]}
{"id": "C108", "title": "An equilibrium is kept to the last bit in floating-point arithmetic", "statement": "Any correctly rounded floating-point arithmetic, standard Newton stack, any system (linear or not) whose residual, as the user's code computes it, is zero at the values of y0 with derivatives zero; started with y0 and derivatives zero. After every sequence of calls (steps, interpolation, root finding, any output times, with or without stop time) get_yy has exactly the values of y0 and get_yp is exactly zero; get_dky returns exactly y0 for order 0 and exactly zero for higher orders; every attempted step is accepted with a correction of exactly zero; get_num_err_test_fails and get_num_nonlin_solv_conv_fails stay zero, and no call reports a failed step. Rounding errors in the coefficients, the Jacobian and its factorization never leak into the solution.", "quantifier": "all correctly rounded arithmetics, all problems at rest at y0, all dimensions at least one, initial values, tolerances, root functions and sequences of calls of any length", "why_tests_cant": "A test sees one arithmetic, one problem and finitely many steps; drift would show only after many steps, for some step sizes or some Jacobians.", "anchors": ["src/lib.rs: set_coeffs, predict, nonlinear_solve, test_error, get_solution, get_dky", "src/impl_complete_step.rs: complete_step", "crates/nonlinear/src/newton.rs: solve", "crates/linear/src/dense.rs: dense_get_rf, dense_get_rs"]}
{"id": "C109", "title": "Asking again for the time just reached costs nothing and changes nothing", "statement": "Without root functions: if solve(tout, Normal) has returned Success, then calling solve(tout, Normal) again (any number of times) returns Success with tret = tout, takes no step, calls none of the user's functions, and leaves the solution, its derivative, the dense output and all statistics exactly as they are; with or without a stop time, in exact and in correctly rounded floating-point arithmetic, and without stop time in any arithmetic in which tout equals itself.", "quantifier": "all problems without root functions, all nonlinear solvers that follow the protocol, all histories of calls, all output times", "why_tests_cant": "A test repeats one call for one problem; the repeated call could fail or move the solver on for some relation between the internal time, the step size, the stop time and tout.", "anchors": ["src/impl_solve.rs: solve", "src/impl_stop_test.rs: stop_test1, stop_test2"]}
{"id": "C110", "title": "A request inside the last step is answered as get_solution answers it, without integrating", "statement": "Without root functions and after at least one step: for a time tout not beyond the internal time and different from the time returned last, solve(tout, Normal) does exactly what get_solution(tout) does. If get_solution succeeds, solve returns Success with tret = tout and stores the same values of the solution and of its derivative, bit for bit; if get_solution returns an error, solve returns the same error and leaves the stored values as they are. In both cases no step is taken, none of the user's functions is called, and statistics, dense output, step size, order and stop time stay as they are.", "quantifier": "all problems without root functions, all nonlinear solvers that follow the protocol, all histories of calls with at least one step, with or without stop time, all tout up to the internal time; exact arithmetic, correctly rounded floating-point arithmetic, and any arithmetic if there is no stop time", "why_tests_cant": "The two calls take different paths through the program; a test compares them for finitely many times and histories, not near the ends of the last step or the stop time, and not for every rounding.", "anchors": ["src/impl_solve.rs: solve", "src/impl_stop_test.rs: stop_test1", "src/lib.rs: get_solution"]}
