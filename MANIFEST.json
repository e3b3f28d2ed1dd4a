{
 "claims": [
  {
   "property": "C01",
   "status": "proved",
   "theorems": [
    "Verif.Props.c01_dense_solve_correct"
   ],
   "note": "exact arithmetic"
  },
  {
   "property": "C02",
   "status": "proved",
   "theorems": [
    "Verif.Props.c02_dense_setup_ok_iff"
   ],
   "note": "exact arithmetic"
  },
  {
   "property": "C03",
   "status": "proved",
   "theorems": [
    "Verif.Props.c03_dense_setup_error_column"
   ],
   "note": "exact arithmetic"
  },
  {
   "property": "C04",
   "status": "proved",
   "theorems": [
    "Verif.Props.c04_lu_factorization"
   ],
   "note": "exact arithmetic"
  },
  {
   "property": "C05",
   "status": "proved",
   "theorems": [
    "Verif.Props.c05_dense_no_panic"
   ],
   "note": "any scalar type"
  },
  {
   "property": "C06",
   "status": "proved",
   "theorems": [
    "Verif.Props.c06_newton_success"
   ],
   "note": "Holds for any vector type, problem and callback memory."
  },
  {
   "property": "C07",
   "status": "proved",
   "theorems": [
    "Verif.Props.c07_newton_iteration_cap"
   ],
   "note": ""
  },
  {
   "property": "C08",
   "status": "proved",
   "theorems": [
    "Verif.Props.c08_newton_hard_error",
    "Verif.Props.c09_newton_retry_protocol"
   ],
   "note": "Exact failure count is in c09_newton_retry_protocol."
  },
  {
   "property": "C09",
   "status": "proved",
   "theorems": [
    "Verif.Props.c09_newton_retry_protocol"
   ],
   "note": ""
  },
  {
   "property": "C10",
   "status": "partial",
   "theorems": [
    "Verif.Props.c10_newton_refuted",
    "Verif.Props.c10_newton_never_reports_recover",
    "Verif.Props.c10_newton_terminates_partial"
   ],
   "note": "The code violates the documented behaviour: with a current Jacobian and a recoverable failure solve loops forever (c10_newton_refuted). Partial: returns within two attempts when attempts started with a setup call do not fail recoverably."
  },
  {
   "property": "C100",
   "status": "proved",
   "theorems": [
    "Verif.Props.c100_sessions",
    "Verif.Props.c100_positive",
    "Verif.Props.c100_order_matters"
   ],
   "note": "Exact arithmetic, at least one root function. c100_order_matters is the last sentence of the claim: a run in which two root functions listed in the other order are reported at another time."
  },
  {
   "property": "C101",
   "status": "proved",
   "theorems": [
    "Verif.Props.c101_sessions",
    "Verif.Props.c101_any_parameters"
   ],
   "note": "law-free: for every scalar type and every change of units (and signs) that commutes with its operations; Bin.unit gives the powers of two in p-bit binary arithmetic (unbounded exponents, one zero), Bin.signed those with signs, exactUnit and exactSign the positive factors and signs in exact arithmetic. The residual and root functions must write their whole output; the Jacobian gets a matrix of zeros (as in the code). Example: a nonlinear problem with a root, 53 bits, in both units."
  },
  {
   "property": "C102",
   "status": "proved",
   "theorems": [
    "Verif.Props.c102_binary",
    "Verif.Props.c102_rounded",
    "Verif.Props.c102_sessions",
    "Verif.Props.c102_any_parameters",
    "Verif.Props.exactTwoWay"
   ],
   "note": "The sessions excluded by Mirror.Started (floating point) and Mirror.Regular (any arithmetic) are named in the statement. The arithmetic instances are Verif.Bin.twoWay and exactTwoWay."
  },
  {
   "property": "C103",
   "status": "proved",
   "theorems": [
    "Verif.Props.c103_sessions",
    "Verif.Props.c103_rounded",
    "Verif.Props.c103_binary"
   ],
   "note": "c103_sessions holds for every scalar type and every change of the unit that commutes with its operations, without a stop time; c103_rounded in correctly rounded arithmetic, with or without a stop time; c103_binary in binary floating point with unbounded exponents, any precision of at least five bits and any power of two. Excluded, as in C102: calls other than solve before the first step and calls after a failed first step."
  },
  {
   "property": "C104",
   "status": "proved",
   "theorems": [
    "Verif.Props.c104_failed_column",
    "Verif.Props.c104_failed_setup",
    "Verif.Props.c104_setup_succeeds",
    "Verif.Props.c104_blur_three",
    "Verif.Props.c104_panic_any",
    "Verif.Props.c104_panic_nearly_singular",
    "Verif.Props.c104_no_panic",
    "Verif.Props.c104_setup_rejects_regular",
    "Verif.Props.c104_regular_jacobian_panics",
    "Verif.Props.fading_no_panic"
   ],
   "note": "Backward analysis of the failing elimination; panics of solve in floating point. The refuting examples show why the exact claims C02 and C53 need the tolerance."
  },
  {
   "property": "C105",
   "status": "proved",
   "theorems": [
    "Verif.Props.c105_sessions",
    "Verif.Props.c105_side_by_side",
    "Verif.Props.c105_each_copy",
    "Verif.Props.coupled_copied"
   ],
   "note": "Exact arithmetic; any number of copies, any numbering, also copies coupled by terms that vanish where the copies agree."
  },
  {
   "property": "C106",
   "status": "proved",
   "theorems": [
    "Verif.Props.c106_call",
    "Verif.Props.c106_in_numbers",
    "Verif.Props.c106_one_step",
    "Verif.Props.c106_output"
   ],
   "note": "Every scalar type; needs a residual that ignores the contents of its output buffer, as C69."
  },
  {
   "property": "C107",
   "status": "proved",
   "theorems": [
    "Verif.Props.powerLarge_of_roots",
    "Verif.Props.c107_sizes",
    "Verif.Props.c107_cost",
    "Verif.Props.c107_first_call"
   ],
   "note": "Exact scalars, standard Newton stack, no stop time. That a call returns at all is C67 (linear problems) and not part of this claim."
  },
  {
   "property": "C108",
   "status": "proved",
   "theorems": [
    "Verif.Props.c108_attempts",
    "Verif.Props.c108_output",
    "Verif.Props.c108_dky",
    "Verif.Props.c108_no_failure"
   ],
   "note": "Correctly rounded arithmetic (no overflow or underflow); vectors are compared by values, so that 0 and -0 are the same. Dimension at least one (the crate's norm divides by the dimension). Calls may still be refused for illegal input or tolerances that are too strict."
  },
  {
   "property": "C109",
   "status": "proved",
   "theorems": [
    "Verif.Props.c109_again",
    "Verif.Props.c109_again_exact",
    "Verif.Props.c109_again_float"
   ],
   "note": "Whole-state equality except perf (counter values noted for warnings). With root functions the second call looks for roots again (C77), hence the restriction."
  },
  {
   "property": "C11",
   "status": "proved",
   "theorems": [
    "Verif.Props.c11_newton_iteration_count"
   ],
   "note": ""
  },
  {
   "property": "C110",
   "status": "proved",
   "theorems": [
    "Verif.Props.c110_inside",
    "Verif.Props.c110_inside_exact",
    "Verif.Props.c110_inside_float"
   ],
   "note": "The time returned last is excluded: solve then leaves get_yy as it is (C109; that it need not be the solution there is C42). With root functions a root may be found first (C77, C97)."
  },
  {
   "property": "C12",
   "status": "proved",
   "theorems": [
    "Verif.Props.c12_norm_formula",
    "Verif.Props.c12_norm_homogeneous",
    "Verif.Props.c12_norm_triangle",
    "Verif.Props.c12_norm_monotone",
    "Verif.Props.c12_norm_definite"
   ],
   "note": "Exact arithmetic."
  },
  {
   "property": "C13",
   "status": "proved",
   "theorems": [
    "Verif.Props.c13_masked_norm"
   ],
   "note": "Exact arithmetic."
  },
  {
   "property": "C14",
   "status": "proved",
   "theorems": [
    "Verif.Props.c14_tolerance_weights"
   ],
   "note": "Exact arithmetic."
  },
  {
   "property": "C15",
   "status": "partial",
   "theorems": [
    "Verif.Props.c15_current_solution_partial",
    "Verif.Props.c15_any_history_partial",
    "Verif.Props.c15_at_current_time",
    "Verif.Props.c15_zero_step_sum"
   ],
   "note": "Proved up to one more call after a history without step failure, and for all histories with nonzero step sums. After several failed calls a step sum can be zero (witness), then the code computes 0/0."
  },
  {
   "property": "C16",
   "status": "proved",
   "theorems": [
    "Verif.Props.c16_yp_is_derivative",
    "Verif.Props.c16_after_call"
   ],
   "note": ""
  },
  {
   "property": "C17",
   "status": "partial",
   "theorems": [
    "Verif.Props.c17_rejects_before_last_step",
    "Verif.Props.c17_error_changes_nothing",
    "Verif.Props.c17_success_changes_outputs_only",
    "Verif.Props.c17_after_end_refuted"
   ],
   "note": "The lower end and the frame are proved; the documented upper end is violated by the code (c17_after_end_refuted)."
  },
  {
   "property": "C18",
   "status": "partial",
   "theorems": [
    "Verif.Props.c18_dky_partial",
    "Verif.Props.c18_dky_value",
    "Verif.Props.c18_bad_k",
    "Verif.Props.c18_panics",
    "Verif.Props.c18_refuted"
   ],
   "note": "Violated by the code: wrong loop bound; exact characterisation proved."
  },
  {
   "property": "C19",
   "status": "partial",
   "theorems": [
    "Verif.Props.c19_dense_output_partial",
    "Verif.Props.c19_unique",
    "Verif.Props.c19_values_partial",
    "Verif.Props.c19_older_times",
    "Verif.Props.c19_refuted"
   ],
   "note": "Histories without step failure. get_solution rejects mesh times before the last step by design (C17): the returned polynomial passes through them. Refuted for histories that continue after failed calls."
  },
  {
   "property": "C20",
   "status": "partial",
   "theorems": [
    "Verif.Props.c20_continuous_partial",
    "Verif.Props.c20_points_kept",
    "Verif.Props.c20_refuted"
   ],
   "note": "Histories without step failure; refuted for histories that continue after failed calls."
  },
  {
   "property": "C21",
   "status": "partial",
   "theorems": [
    "Verif.Props.c21_predictor_partial",
    "Verif.Props.c21_exact_partial",
    "Verif.Props.c21_first_attempt",
    "Verif.Props.c21_c23_refuted"
   ],
   "note": "Histories without step failure and one more (possibly failing) call; refuted across failed calls."
  },
  {
   "property": "C22",
   "status": "proved",
   "theorems": [
    "Verif.Props.c22_bdf",
    "Verif.Props.c22_bdf_partial"
   ],
   "note": "Every history (also after failed calls), every attempt. The predictor polynomial is a premise-free existential plus a universally quantified one; in histories without failed steps it is the interpolant of C21 (c22_bdf_partial)."
  },
  {
   "property": "C23",
   "status": "partial",
   "theorems": [
    "Verif.Props.c23_rollback_partial",
    "Verif.Props.c23_failed_call",
    "Verif.Props.c21_c23_refuted"
   ],
   "note": "All retries within a call, except those of the first step (see C24); refuted for retries by a further call after a failed one."
  },
  {
   "property": "C24",
   "status": "partial",
   "theorems": [
    "Verif.Props.c24_first_step_partial",
    "Verif.Props.c24_kept_partial",
    "Verif.Props.c24_refuted"
   ],
   "note": "Refuted: the retry starts from y0 scaled by the step size ratio. Proved: exactly this happens; y0 is kept while the step size is the first one, y0' always."
  },
  {
   "property": "C25",
   "status": "proved",
   "theorems": [
    "Verif.Props.c25_order_in_range",
    "Verif.Props.c25_no_panic"
   ],
   "note": "Any scalar type. The nonlinear solver is assumed not to panic itself and to return only errors of the protocol (NlsLegal, satisfied by Newton); get_dky is covered by C18."
  },
  {
   "property": "C26",
   "status": "partial",
   "theorems": [
    "Verif.Props.c26_order_changes_partial",
    "Verif.Props.c26_current_order_partial",
    "Verif.Props.c26_refuted"
   ],
   "note": "Proved for every call after a history in which no call reported a failed step (the call itself may fail). False for histories that go on after a failed step: c26_refuted exhibits a reachable run in which the order is raised after two steps of order one."
  },
  {
   "property": "C27",
   "status": "proved",
   "theorems": [
    "Verif.Props.c27_any_state",
    "Verif.Props.c27_after_accepted",
    "Verif.Props.c27_current_step",
    "Verif.Props.c27_after_test_failure",
    "Verif.Props.c27_after_convergence_failure"
   ],
   "note": "c27_any_state: one step from an arbitrary state. The others: the recorded attempts of whole histories. A step shortened to meet a stop time may be smaller than half."
  },
  {
   "property": "C28",
   "status": "proved",
   "theorems": [
    "Verif.Props.c28_max_step",
    "Verif.Props.c28_current_step"
   ],
   "note": "All histories, failed steps included."
  },
  {
   "property": "C29",
   "status": "proved",
   "theorems": [
    "Verif.Props.c29_times_monotone",
    "Verif.Props.c29_direction_kept",
    "Verif.Props.c29_first_direction"
   ],
   "note": "All histories, exact arithmetic."
  },
  {
   "property": "C30",
   "status": "proved",
   "theorems": [
    "Verif.Props.c30_attempts_bounded",
    "Verif.Props.c30_attempts_are_solves",
    "Verif.Props.c30_solves_bounded"
   ],
   "note": "Any scalar type, any state. Bound max(maxnef,3)+max(maxncf,1)-1 (19 for the defaults) is attained."
  },
  {
   "property": "C31",
   "status": "partial",
   "theorems": [
    "Verif.Props.c31_step_counters",
    "Verif.Props.c31_counters_monotone",
    "Verif.Props.c31_g_evals_partial",
    "Verif.Props.c31_g_evals_refuted"
   ],
   "note": "Step, error-test and convergence-failure counters exact and monotone in every history. get_num_g_evals is exact except after a failed first call: it is reset to one then (refuted with a reachable witness)."
  },
  {
   "property": "C32",
   "status": "proved",
   "theorems": [
    "Verif.Props.c32_accepted_passed_test",
    "Verif.Props.c32_test_decides"
   ],
   "note": "Any scalar type, every history; c32_test_decides is the equivalence, and that every accepted point comes from an accepted attempt."
  },
  {
   "property": "C33",
   "status": "partial",
   "theorems": [
    "Verif.Props.c33_retry_partial",
    "Verif.Props.c33_other_errors_end_the_step",
    "Verif.Props.c33_refuted"
   ],
   "note": "Proved for IdaError::RecoverableFail. False for nonlinear::Error::ConvergenceRecover, the error the nonlinear crate defines for this purpose: it ends the step (c33_refuted)."
  },
  {
   "property": "C34",
   "status": "partial",
   "theorems": [
    "Verif.Props.c34_dense_output_partial",
    "Verif.Props.c34_same_values_partial",
    "Verif.Props.c34_refuted"
   ],
   "note": "Holds if the failing step did not lower the order; refuted otherwise."
  },
  {
   "property": "C35",
   "status": "proved",
   "theorems": [
    "Verif.Props.c35_normal_success",
    "Verif.Props.c35_reached",
    "Verif.Props.c35_returned_last",
    "Verif.Props.c35_no_continue"
   ],
   "note": ""
  },
  {
   "property": "C36",
   "status": "proved",
   "theorems": [
    "Verif.Props.c36_one_step",
    "Verif.Props.c36_not_returned",
    "Verif.Props.c36_at_most_one",
    "Verif.Props.c36_first_call"
   ],
   "note": ""
  },
  {
   "property": "C37",
   "status": "proved",
   "theorems": [
    "Verif.Props.c37_at_most_mxstep",
    "Verif.Props.c37_limit",
    "Verif.Props.c37_terminates",
    "Verif.Props.c37_terminates_no_roots",
    "Verif.Props.c37_terminates_with_roots"
   ],
   "note": "Step limit, its error, and termination; with root functions in exact arithmetic for every history (c37_terminates_with_roots)."
  },
  {
   "property": "C38",
   "status": "proved",
   "theorems": [
    "Verif.Props.c38_too_close",
    "Verif.Props.c38_wrong_way",
    "Verif.Props.c38_stop_behind",
    "Verif.Props.c38_accepted"
   ],
   "note": ""
  },
  {
   "property": "C39",
   "status": "proved",
   "theorems": [
    "Verif.Props.c39_initial_step"
   ],
   "note": ""
  },
  {
   "property": "C40",
   "status": "partial",
   "theorems": [
    "Verif.Props.c40_never_past",
    "Verif.Props.c40_tstop_result",
    "Verif.Props.c40_one_step_not_missed",
    "Verif.Props.c40_no_step_at_stop",
    "Verif.Props.c40_no_bad_stop_time",
    "Verif.Props.c40_refuted",
    "Verif.Props.c40_one_step_stuck"
   ],
   "note": "Refuted: a one-step call that finds the internal time at the stop time returns TStop without clearing it (c40_refuted), and without root functions every further one-step call then does the same and changes nothing, in any arithmetic (c40_one_step_stuck). Proved: never overshot, tret, roundoff, not missed, cleared in normal mode and whenever a step was taken."
  },
  {
   "property": "C41",
   "status": "proved",
   "theorems": [
    "Verif.Props.c41_first_call",
    "Verif.Props.c41_later_call",
    "Verif.Props.c41_result"
   ],
   "note": ""
  },
  {
   "property": "C42",
   "status": "partial",
   "theorems": [
    "Verif.Props.c42_normal_partial",
    "Verif.Props.c42_tstop",
    "Verif.Props.c42_one_step",
    "Verif.Props.c42_refuted"
   ],
   "note": "Refuted for tout equal to the time returned last after an interleaved get_solution (c42_refuted); proved otherwise."
  },
  {
   "property": "C43",
   "status": "partial",
   "theorems": [
    "Verif.Props.c43_rejected_partial",
    "Verif.Props.c43_refuted"
   ],
   "note": "Refuted: if the first call fails in the first step (not in the input checks), the next call scales phi[1] a second time (c43_refuted). Proved for first calls rejected by the input checks."
  },
  {
   "property": "C44",
   "status": "partial",
   "theorems": [
    "Verif.Props.c44_bracketed_partial",
    "Verif.Props.c44_bracketed_refuted"
   ],
   "note": "False as stated: a component zero at t0 is monitored with its value at a later point; if the first step shrinks below that point a root is reported without a sign change (c44_bracketed_refuted). c44_bracketed_partial states what holds of every Root return in every history, with this exception and the recheck after a reported root explicit."
  },
  {
   "property": "C45",
   "status": "proved",
   "theorems": [
    "Verif.Props.c45_search_reports",
    "Verif.Props.c45_no_sign_change_missed"
   ],
   "note": "One search reports iff a monitored, direction-allowed component changes sign or vanishes at the end; and for every call in every history that takes a step and returns no root."
  },
  {
   "property": "C46",
   "status": "proved",
   "theorems": [
    "Verif.Props.c46_search_ends"
   ],
   "note": "Trial points strictly inside the bracket, each shrinking it by at least ttol/2, number bounded by 2|end-start|/ttol, and the search ends."
  },
  {
   "property": "C47",
   "status": "partial",
   "theorems": [
    "Verif.Props.c47_direction_partial",
    "Verif.Props.c47_direction_refuted"
   ],
   "note": "False: the signs are exchanged (refuted on t - 3/2). The partial theorem characterizes what is reported."
  },
  {
   "property": "C48",
   "status": "partial",
   "theorems": [
    "Verif.Props.c48_monitored_partial",
    "Verif.Props.c48_first_step_refuted"
   ],
   "note": "False: the activity flags start false, so the first step is not searched (refuted on t - 1/2). After the first step every component is monitored or vanished at the start of the next search."
  },
  {
   "property": "C49",
   "status": "proved",
   "theorems": [
    "Verif.Props.c49_root_times"
   ],
   "note": "In-loop roots: strictly after the previous search start, not after the internal time or tout; the next search starts there."
  },
  {
   "property": "C50",
   "status": "partial",
   "theorems": [
    "Verif.Props.c50_jacobian_point_partial",
    "Verif.Props.c50_jacobian_time_refuted"
   ],
   "note": "The Jacobian always receives time 0 (refuted by a time-dependent problem); the point, leading coefficient and residual value it receives are those of the residual evaluation right before it."
  },
  {
   "property": "C51",
   "status": "proved",
   "theorems": [
    "Verif.Props.c51_jacobian_policy"
   ],
   "note": "All user calls of every history form a Story (Spec/Calls.lean): Jacobian at the beginning of the attempt or 3/5 <= cj/c <= 5/3; updates solve with the last Jacobian, scaled by 2/(1+cj/c) when stale."
  },
  {
   "property": "C52",
   "status": "proved",
   "theorems": [
    "Verif.Props.c52_residuals_on_manifold"
   ],
   "note": "Every scalar type, every solver that works through the problem interface."
  },
  {
   "property": "C53",
   "status": "partial",
   "theorems": [
    "Verif.Props.c53_panic_needs_singular_partial",
    "Verif.Props.c53_regular_no_panic_partial",
    "Verif.Props.c53_singular_panics_refuted"
   ],
   "note": "Refuted: lsetup's unwrap panics on a singular Jacobian. Proved: solve panics only if the Jacobian is singular for a leading coefficient in the direction of integration."
  },
  {
   "property": "C54",
   "status": "proved",
   "theorems": [
    "Verif.Props.c54_roberts_jacobian"
   ],
   "note": "Over the reals (f64 literals read as decimals); total derivative."
  },
  {
   "property": "C55",
   "status": "proved",
   "theorems": [
    "Verif.Props.c55_slider_velocity_constraints"
   ],
   "note": "Over the reals."
  },
  {
   "property": "C56",
   "status": "proved",
   "theorems": [
    "Verif.Props.c56_perf_never_underflows"
   ],
   "note": "Any scalar type, every point of every call of every history."
  },
  {
   "property": "C57",
   "status": "partial",
   "theorems": [
    "Verif.Props.c57_refused_partial",
    "Verif.Props.c57_refused_refuted"
   ],
   "note": "False with root functions: the refused call moves the start of the next root search (refuted: Root at -2, before the initial time). Proved without root functions."
  },
  {
   "property": "C58",
   "status": "partial",
   "theorems": [
    "Verif.Props.c58_past_tout_partial",
    "Verif.Props.c58_past_tout_refuted"
   ],
   "note": "False with root functions: the search runs before the test of tout and may return Root at an earlier time (refuted). Proved without root functions."
  },
  {
   "property": "C59",
   "status": "proved",
   "theorems": [
    "Verif.Props.c59_roberts"
   ],
   "note": "Any ordered field."
  },
  {
   "property": "C60",
   "status": "proved",
   "theorems": [
    "Verif.Props.c60_slider_mechanics"
   ],
   "note": "Over the reals."
  },
  {
   "property": "C61",
   "status": "proved",
   "theorems": [
    "Verif.Props.c61_slider_energy"
   ],
   "note": "Over the reals."
  },
  {
   "property": "C62",
   "status": "proved",
   "theorems": [
    "Verif.Props.c62_affine_exact",
    "Verif.Props.c62_affine_no_failure",
    "Verif.Props.c62_affine_dense",
    "Verif.Props.c62_affine_returned"
   ],
   "note": "Newton stack, exact scalars with sqrt 0 = 0. Hypothesis EnoughAccuracy: otherwise the first call returns TooMuchAccuracy and leaves the derivative scaled (finding under C43)."
  },
  {
   "property": "C63",
   "status": "partial",
   "theorems": [
    "Verif.Props.c63_linear_invariant_partial",
    "Verif.Props.c63_roberts_mass_partial",
    "Verif.Props.c63_refuted"
   ],
   "note": "Proved for all histories of the Newton stack unless b is nonzero and the first step was repeated; there it is false (c63_refuted: y1+y2 drops from 1 to 1/16), a consequence of the defect of C24."
  },
  {
   "property": "C64",
   "status": "proved",
   "theorems": [
    "Verif.Props.c64_units_irrelevant",
    "Verif.Props.c64_twin_goes_on",
    "Verif.Props.c64_equation_form",
    "Verif.Props.c64_problem_exists",
    "Verif.Props.c64_failed_first_step_refuted"
   ],
   "note": "The last theorem shows that the proviso of the statement is needed."
  },
  {
   "property": "C65",
   "status": "proved",
   "theorems": [
    "Verif.Props.c65_attempts_chosen",
    "Verif.Props.c65_first_attempt",
    "Verif.Props.c65_announced"
   ],
   "note": "Exact arithmetic, arbitrary power function. Rule in Spec/Select.lean over recorded attempts only. Histories in which no earlier call reported a failed step (proviso in the statement)."
  },
  {
   "property": "C66",
   "status": "proved",
   "theorems": [
    "Verif.Props.c66_one_integration",
    "Verif.Props.c66_same_attempts",
    "Verif.Props.c66_same_steps",
    "Verif.Props.c66_newton",
    "Verif.Props.c66_same_last_step",
    "Verif.Props.c66_same_answer"
   ],
   "note": "Law-free for the first four. Hypotheses on the nonlinear solver and the weights are proved of Newton and the crate's tolerance controls (c66_newton). Proviso as in the statement: a first step has been taken, no stop time."
  },
  {
   "property": "C67",
   "status": "proved",
   "theorems": [
    "Verif.Props.c67_returns_if",
    "Verif.Props.c67_linear_returns",
    "Verif.Props.c67_equations_hold",
    "Verif.Props.c67_one_step",
    "Verif.Props.c67_proviso_needed"
   ],
   "note": "positive counterpart of C10 and C53: for linear problems with a regular Jacobian no call hangs or panics; sqrt 0 = 0 and powf 0 1 = 0 are assumed of the scalar type (true of f64). The proviso of the exactness claim (Jacobian evaluated for the current leading coefficient) is needed: c67_proviso_needed"
  },
  {
   "property": "C68",
   "status": "proved",
   "theorems": [
    "Verif.Props.c68_convergence_test",
    "Verif.Props.c68_iteration_error"
   ],
   "note": "The test: every scalar type, every history with at least one unknown. The error bound is conditional on the contraction that the test estimates (stated as hypothesis of the implication, for every candidate solution); exact scalars with square root, witnessed over the reals and rationals."
  },
  {
   "property": "C69",
   "status": "proved",
   "theorems": [
    "Verif.Props.c69_counters_agree",
    "Verif.Props.c69_work_bounded",
    "Verif.Props.c69_two_passes",
    "Verif.Props.c69_hangs_iff"
   ],
   "note": "Every scalar type. The bounds and the characterisation of hanging need the residual to ignore the contents of its output buffer; the equalities do not."
  },
  {
   "property": "C70",
   "status": "proved",
   "theorems": [
    "Verif.Props.c70_dense_is_an_instance",
    "Verif.Props.c70_any_linear_solver",
    "Verif.Props.c70_same_session",
    "Verif.Props.c70_like_dense"
   ],
   "note": "Dense through the trait and the statements for any linear solver hold for any scalar type; comparison of correct solvers for exact arithmetic. Non-vacuity: Dense (dense_exact) and a solver by matrix inverses (inverse_exact)."
  },
  {
   "property": "C71",
   "status": "partial",
   "theorems": [
    "Verif.Props.c71_failures_hidden",
    "Verif.Props.c71_failed_solves_accepted",
    "Verif.Props.c71_setup_failure_partial"
   ],
   "note": "Refuted: Err from LSolver::solve is ignored (witness run, and in general for every equation). Partial theorem: failed setup."
  },
  {
   "property": "C72",
   "status": "partial",
   "theorems": [
    "Verif.Props.c72_lin_iters_not_reported",
    "Verif.Props.c72_direct_partial"
   ],
   "note": "Refuted: get_num_lin_iters is the constant 0. Partial theorem: direct solvers."
  },
  {
   "property": "C73",
   "status": "partial",
   "theorems": [
    "Verif.Props.c73_no_iterations_reported",
    "Verif.Props.c73_iterative_not_scaled",
    "Verif.Props.c73_name_partial"
   ],
   "note": "Refuted with Dense under the names MatrixIterative/0 iterations and Iterative. Partial theorem: all other names."
  },
  {
   "property": "C74",
   "status": "proved",
   "theorems": [
    "Verif.Props.c74_constant",
    "Verif.Props.c74_constant_steps",
    "Verif.Props.c74_next_order",
    "Verif.Props.c74_true_solution",
    "Verif.Props.c74_first_attempt",
    "Verif.Props.c74_accepted",
    "Verif.Props.c74_true_solution_accepted",
    "Verif.Props.local_error_nontrivial"
   ],
   "note": "In histories without a failed call (the setting of C21, where C26 and C34 show the differences to be wrong otherwise)."
  },
  {
   "property": "C75",
   "status": "proved",
   "theorems": [
    "Verif.Props.c75_interpolation",
    "Verif.Props.c75_norm"
   ],
   "note": "In histories without a failed call (the setting of C21, where C26 and C34 show the differences to be wrong otherwise)."
  },
  {
   "property": "C76",
   "status": "partial",
   "theorems": [
    "Verif.Props.c76_root_value_partial",
    "Verif.Props.c76_root_value_refuted"
   ],
   "note": "The full claim is false of the code: c76_root_value_refuted. Proved for all other Root returns."
  },
  {
   "property": "C77",
   "status": "partial",
   "theorems": [
    "Verif.Props.c77_forward_partial",
    "Verif.Props.c77_success",
    "Verif.Props.c77_forward_refuted"
   ],
   "note": "Success never goes back, Root by at most the root tolerance; c77_forward_refuted shows that the exception occurs."
  },
  {
   "property": "C78",
   "status": "partial",
   "theorems": [
    "Verif.Props.c78_rows",
    "Verif.Props.c78_times_partial",
    "Verif.Props.c78_values_partial",
    "Verif.Props.c78_roberts",
    "Verif.Props.c78_check_ans"
   ],
   "note": "c78_rows holds for any scalars (also floating point). Missing: a Root row may precede the row above it by the root tolerance; a Success row at the same time as the Root row above shows that row's vectors; the exact sum needs the first step not repeated."
  },
  {
   "property": "C79",
   "status": "partial",
   "theorems": [
    "Verif.Props.c79_iterations_partial",
    "Verif.Props.c79_same_work_refuted"
   ],
   "note": "Refuted: iterations after the first reach no output time. Proved: what each iteration does, for any scalars."
  },
  {
   "property": "C80",
   "status": "proved",
   "theorems": [
    "Verif.Props.c80_backward_error",
    "Verif.Props.c80_backward_stable",
    "Verif.Props.c80_gamma",
    "Verif.Props.c80_three_binary64"
   ],
   "note": "Standard model of floating-point arithmetic (no overflow or underflow). Witness: an eight-bit arithmetic run by the kernel (flRun_eq), for which the answer is off by more than one percent."
  },
  {
   "property": "C81",
   "status": "proved",
   "theorems": [
    "Verif.Props.c81_norm",
    "Verif.Props.c81_masked_norm",
    "Verif.Props.c81_weights",
    "Verif.Props.c81_error_test"
   ],
   "note": "Standard model of floating point: no overflow or underflow. The error test is stated without algebraic suppression."
  },
  {
   "property": "C82",
   "status": "proved",
   "theorems": [
    "Verif.Props.c82_weights",
    "Verif.Props.c82_local_error",
    "Verif.Props.c82_true_error",
    "Verif.Props.c82_dense"
   ],
   "note": "Exact arithmetic; histories without failed call. Witness: weights_nontrivial (five steps of the modelled Newton solver)."
  },
  {
   "property": "C83",
   "status": "proved",
   "theorems": [
    "Verif.Props.c83_times_monotone",
    "Verif.Props.c83_attempts",
    "Verif.Props.c83_next_step",
    "Verif.Props.c83_direction_kept",
    "Verif.Props.c83_first_direction"
   ],
   "note": "Correctly rounded arithmetic without overflow and underflow. Witness: limit_run and the example after it (22 bits)."
  },
  {
   "property": "C84",
   "status": "partial",
   "theorems": [
    "Verif.Props.c84_steps_advance_partial",
    "Verif.Props.c84_refuted"
   ],
   "note": "Steps below the roundoff of the current time need not advance it: c84_refuted (53 bits)."
  },
  {
   "property": "C85",
   "status": "proved",
   "theorems": [
    "Verif.Props.c85_true_zero",
    "Verif.Props.c85_true_zero_real"
   ],
   "note": "Exact arithmetic; histories without a failed internal step. The second case of the statement (check right after a root) is part of the claim."
  },
  {
   "property": "C86",
   "status": "proved",
   "theorems": [
    "Verif.Props.c86_nan_accepted",
    "Verif.Props.c86_nan_iteration",
    "Verif.Props.c86_nan_iterates",
    "Verif.Props.c86_nan_problem",
    "Verif.Props.c86_nan_times",
    "Verif.Props.c86_cliff"
   ],
   "note": "Any scalar type with the NaN laws. A sum of two values without NaN may still be NaN (infinities), so the theorems speak of the correction and of the iterates at which the residual was evaluated. A NaN residual makes the nonlinear iteration run forever (no error is returned)."
  },
  {
   "property": "C87",
   "status": "proved",
   "theorems": [
    "Verif.Props.c87_call_ends",
    "Verif.Props.c87_search"
   ],
   "note": "Every correctly rounded arithmetic with unit roundoff at most 1/200 and unlimited exponents (Bin p is one); histories with all requested times on one side of the initial time (which is 0)."
  },
  {
   "property": "C88",
   "status": "proved",
   "theorems": [
    "Verif.Props.c88_root_reported"
   ],
   "note": "As C87; the alternative is the re-check of the previous root."
  },
  {
   "property": "C89",
   "status": "partial",
   "theorems": [
    "Verif.Props.c89_search_reports_partial",
    "Verif.Props.c89_no_sign_change_missed_partial",
    "Verif.Props.c89_underflow_refuted"
   ],
   "note": "Missing: underflow. The full claim is false of the code: in binary64 the product of two tiny values of opposite signs underflows to zero, the sign change is missed and Success is returned (c89_underflow_refuted)."
  },
  {
   "property": "C90",
   "status": "partial",
   "theorems": [
    "Verif.Props.c90_root_is_number_partial",
    "Verif.Props.c90_all_nan_partial",
    "Verif.Props.c90_search_returns_refuted",
    "Verif.Props.c90_flagged_refuted"
   ],
   "note": "Proved: a reported root is a number and NaN components are not flagged; NaN everywhere never gives Root. Refuted by the code: a NaN at a trial point traps the search for ever; Root can come with no flagged component."
  },
  {
   "property": "C91",
   "status": "proved",
   "theorems": [
    "Verif.Props.c91_error_cause",
    "Verif.Props.c91_error_kinds",
    "Verif.Props.c91_errors_needed",
    "Verif.Props.c91_standard_stack"
   ],
   "note": "In any arithmetic. CloseRoots: the component that is zero a little later is the one that was zero at the root if the arithmetic knows that 0 > 0 is false."
  },
  {
   "property": "C92",
   "status": "proved",
   "theorems": [
    "Verif.Props.c92_dense_output"
   ],
   "note": "Any correctly rounded arithmetic with 1000 u <= 1 (no overflow or underflow). The nonlinear solver may fail recoverably at will; the standard Newton solver returns no error (newton_onlyRecoverable). 0 <= 1/hmax and the literal 0.9 at most 19/20 are assumed, as they hold for the code."
  },
  {
   "property": "C93",
   "status": "proved",
   "theorems": [
    "Verif.Props.c93_formula",
    "Verif.Props.c93_error_constant"
   ],
   "note": "Correctly rounded arithmetic without overflow and underflow. Discharges the hypothesis 0 <= ck of c81_error_test."
  },
  {
   "property": "C94",
   "status": "proved",
   "theorems": [
    "Verif.Props.c94_step_exact",
    "Verif.Props.c94_stays_exact",
    "Verif.Props.c94_dense_exact"
   ],
   "note": "Newton stack, exact scalars; histories without a failed call (after one the predictor is not the interpolant, see C21)."
  },
  {
   "property": "C95",
   "status": "proved",
   "theorems": [
    "Verif.Props.c95_prediction",
    "Verif.Props.c95_consistent",
    "Verif.Props.c95_local_error",
    "Verif.Props.c95_output",
    "Verif.Props.c95_output_derivative"
   ],
   "note": "Exact arithmetic, numbers embedded in the reals; attempts other than those of the first step; histories without a failed call. The local error theorem takes the residual of the accepted pair as a hypothesis (what Newton leaves is C62/C63)."
  },
  {
   "property": "C96",
   "status": "proved",
   "theorems": [
    "Verif.Props.c96_enough",
    "Verif.Props.c96_restart"
   ],
   "note": "Standard model of rounding (no overflow). Excluded: TooMuchAccuracy on a repeated first call after a failed first step, where the weights in force are those of the failed call."
  },
  {
   "property": "C97",
   "status": "proved",
   "theorems": [
    "Verif.Props.c97_one_integration",
    "Verif.Props.c97_same_attempts",
    "Verif.Props.c97_same_steps",
    "Verif.Props.c97_newton",
    "Verif.Props.c97_same_answer"
   ],
   "note": "Any scalar type except c97_same_answer (exact arithmetic). Without stop time; the first call has the same tout and takes a step in both solvers."
  },
  {
   "property": "C98",
   "status": "proved",
   "theorems": [
    "Verif.Props.c98_one_integration",
    "Verif.Props.c98_same_attempts",
    "Verif.Props.c98_same_answer"
   ],
   "note": "First two theorems law-free (bit for bit, floating point included); same answer in exact arithmetic. The condition that no step of the unrestricted solver ends beyond the stop time is what the solver itself tests; without it the stop time legitimately shortens the step."
  },
  {
   "property": "C99",
   "status": "proved",
   "theorems": [
    "Verif.Props.c99_answers",
    "Verif.Props.c99_answers_ls",
    "Verif.Props.c99_times",
    "Verif.Props.c99_beyond_stop",
    "Verif.Props.c99_stop_in_force",
    "Verif.Props.c99_times_fl",
    "Verif.Props.c99_beyond_stop_fl"
   ],
   "note": "c99_answers and c99_answers_ls hold for every scalar type, including floating point; c99_times and c99_beyond_stop are in exact arithmetic, c99_times_fl and c99_beyond_stop_fl in any correctly rounded floating-point arithmetic. The Jacobian is always called with time 0 (see C50), so its values at other times never matter."
  }
 ]
}
