{
 "claims": [
  {
   "property": "C01",
   "status": "proved",
   "theorems": [
    "Odes.Storage.band_layout",
    "Odes.Storage.band_in_bounds",
    "Odes.Storage.band_injective"
   ],
   "note": "All n, kl, ku >= 0; real and complex banded classes."
  },
  {
   "property": "C02",
   "status": "proved",
   "theorems": [
    "Odes.Storage.full_layout",
    "Odes.Storage.full_in_bounds",
    "Odes.Storage.full_bijective",
    "Odes.Storage.full_complex_bijective",
    "Odes.Storage.fcSet_spec",
    "Odes.Storage.frcSet_spec"
   ],
   "note": ""
  },
  {
   "property": "C03",
   "status": "proved",
   "theorems": [
    "Odes.Storage.asmRealFull_spec",
    "Odes.Storage.asmRealBand_spec",
    "Odes.Storage.asmComplexFull_spec",
    "Odes.Storage.asmComplexBand_spec",
    "Odes.Storage.asmComplexHess_spec"
   ],
   "note": "Loops executed on bounds-checked buffers with arbitrary previous contents; the Jacobian is only read."
  },
  {
   "property": "C04",
   "status": "partial",
   "theorems": [
    "Odes.Vec.put_copies_nothing",
    "Odes.Vec.put_noop_partial",
    "Odes.Vec.assignTab_copies"
   ],
   "note": "The code violates the claim: put() writes nothing, proved for every size."
  },
  {
   "property": "C05",
   "status": "proved",
   "theorems": [
    "Odes.Vec.switch_refines",
    "Odes.Vec.switches_succeed",
    "Odes.Vec.destroyAll_spec",
    "Odes.Vec.vectors_life"
   ],
   "note": ""
  },
  {
   "property": "C06",
   "status": "partial",
   "theorems": [
    "Odes.Vec.assign_double_free",
    "Odes.Vec.assign_invalidates",
    "Odes.Vec.assign_adopted_partial"
   ],
   "note": "The code violates the claim: double free for every size; holds for vectors that do not own their buffer (the only use in the library)."
  },
  {
   "property": "C07",
   "status": "proved",
   "theorems": [
    "Odes.Hess.dech_defined",
    "Odes.Hess.dech_solh_solves"
   ],
   "note": "Exact arithmetic (any ordered field), every n >= 1; the system solved is the one of the upper Hessenberg part."
  },
  {
   "property": "C08",
   "status": "proved",
   "theorems": [
    "Odes.Hess.dech_zero_iff_det"
   ],
   "note": "Against Mathlib's determinant."
  },
  {
   "property": "C09",
   "status": "partial",
   "theorems": [
    "Odes.Hess.dechc_solhc_wrong",
    "Odes.Hess.dechc_solhc_solves_partial",
    "Odes.Hess.dechc_zero_iff_det_partial",
    "Odes.Hess.dechc_defined"
   ],
   "note": "The code violates the claim (Hessenberg.hpp 170, Ar*tr instead of Ar*ti): negation proved on a 2x2 Newton matrix; proved for all runs which do not execute that branch with a multiplier of non zero real part."
  },
  {
   "property": "C10",
   "status": "partial",
   "theorems": [
    "Odes.Hess.decomc_failure_not_reported",
    "Odes.Hess.decomr_throws_iff_singular"
   ],
   "note": "The code violates the claim for the complex Hessenberg matrix (return value dropped); the real one throws exactly when singular."
  },
  {
   "property": "C11",
   "status": "partial",
   "theorems": [
    "Odes.Hess.householder_applies_Q_partial",
    "Odes.Hess.householder_inverse_partial",
    "Odes.Hess.householder_one_ub"
   ],
   "note": "n >= 2 proved; for n = 1 the code accesses out of bounds (proved)."
  },
  {
   "property": "C12",
   "status": "proved",
   "theorems": [
    "Odes.Hess.decomr_cases",
    "Odes.Hess.solvereal_solves",
    "Odes.Hess.solvecomplex_solves_partial"
   ],
   "note": "dgehrd is a parameter with its contract (J = Q H Q^T, reflectors); the claim is the real system; the complex one is added, for runs clear of the faulty branch (C09)."
  },
  {
   "property": "C13",
   "status": "partial",
   "theorems": [
    "Odes.Storage.band_widths_not_rejected",
    "Odes.Storage.band_widths_rejected_partial",
    "Odes.Storage.band_loops_in_matrix"
   ],
   "note": "The code violates the claim (&& instead of ||): negation proved for every n. The loops stay inside the matrix all the same."
  },
  {
   "property": "C14",
   "status": "proved",
   "theorems": [
    "Odes.Storage.interleave_spec",
    "Odes.Storage.deinterleave_spec",
    "Odes.Storage.solveComplex_spec",
    "Odes.Storage.complex_solve_full",
    "Odes.Storage.complex_solve_band"
   ],
   "note": "LAPACK factor+solve is a parameter with a stated contract (SolvesC)."
  },
  {
   "property": "C15",
   "status": "proved",
   "theorems": [
    "Odes.Logger.logger_records",
    "Odes.Logger.logger_text",
    "Odes.Logger.logger_clear",
    "Odes.Logger.logger_all"
   ],
   "note": "For every sequence of put/clear calls and every formatting of doubles."
  },
  {
   "property": "C16",
   "status": "partial",
   "theorems": [
    "Odes.Radau.radau_may_stop_half_way",
    "Odes.Radau.radau_may_stop_before_xend",
    "Odes.Radau.radau_returns_in_interval_partial",
    "Odes.Radau.radau_returns_at_xend_partial"
   ],
   "note": "The code violates the claim: a Newton iteration that did not converge leaves `last` set with a halved step, and the relative end test stops early; both proved by witness runs. Proved: x0 < x <= xend at a return, and x = xend (up to the stop test) when no Newton loop ended with didNotConverge."
  },
  {
   "property": "C17",
   "status": "partial",
   "theorems": [
    "Odes.Radau.radau_steps_bounded_partial",
    "Odes.Radau.radau_divergence_partial",
    "Odes.Radau.radau_nan_never_ends"
   ],
   "note": "The step counter bound is proved between Newton restarts; the code violates termination: with a NaN right hand side the inner do loop never ends (proved)."
  },
  {
   "property": "C18",
   "status": "partial",
   "theorems": [
    "Odes.Radau.radau_accepts_unconverged",
    "Odes.Radau.radau_uses_converged_partial",
    "Odes.Radau.radau_no_dnc_partial",
    "Odes.Radau.radau_same_step_partial"
   ],
   "note": "The code violates the claim: redonewton stays false after the first convergence, so a didNotConverge result is used (witness run proved). Proved for runs without didNotConverge."
  },
  {
   "property": "C19",
   "status": "partial",
   "theorems": [
    "Odes.Radau.radau_facr_facl_ignored",
    "Odes.Radau.radau_ratio_witness"
   ],
   "note": "The code violates the claim: operator() overwrites facr and facl at each call (proved for all values, with a run whose ratio exceeds the limit set)."
  },
  {
   "property": "C20",
   "status": "partial",
   "theorems": [
    "Odes.Radau.radau_one_step_keeps_x",
    "Odes.Radau.radau_one_step_witness"
   ],
   "note": "The code violates the claim: in one-step mode x and naccpt are never advanced (proved for all runs)."
  },
  {
   "property": "C21",
   "status": "partial",
   "theorems": [
    "Odes.Radau.radau_backward_goes_forward",
    "Odes.Radau.radau_backward_witness",
    "Odes.Radau.radau_backward_partial",
    "Odes.Radau.radau_backward_returns_partial"
   ],
   "note": "The code violates the claim when x0+xend > 0 (ABS macro gives a negative bound): the step goes the wrong way, proved for all such calls. For x0+xend < 0 monotone backward stepping inside the interval is proved."
  },
  {
   "property": "C22",
   "status": "proved",
   "theorems": [
    "Odes.Radau.radau_stays_inside",
    "Odes.Radau.radau_return_inside"
   ],
   "note": "Exact arithmetic, arbitrary right hand side, Jacobian and linear algebra (NaN included); standard settings stated in Std."
  },
  {
   "property": "C23",
   "status": "proved",
   "theorems": [
    "Odes.Radau.radau_counters",
    "Odes.Radau.radau_counters_return"
   ],
   "note": ""
  },
  {
   "property": "C24",
   "status": "partial",
   "theorems": [
    "Odes.Radau.radau_evaluations_undercounted",
    "Odes.Radau.radau_evaluations_partial",
    "Odes.Radau.radau_evaluations_exact_partial"
   ],
   "note": "The code violates the claim: the evaluation in estrad is not counted (witness run proved). The count is a lower bound, exact when that branch is not taken."
  },
  {
   "property": "C25",
   "status": "proved",
   "theorems": [
    "Odes.NumJac.numjac_full",
    "Odes.NumJac.numjac_band",
    "Odes.NumJac.numjac_full_affine",
    "Odes.NumJac.numjac_band_affine",
    "Odes.NumJac.numjac_of_radau"
   ],
   "note": "Loop executed on bounds-checked buffers, any scalar type for restoration and bounds, exact real arithmetic for affine exactness."
  },
  {
   "property": "C26",
   "status": "proved",
   "theorems": [
    "Odes.Radau.radau_next_step",
    "Odes.Radau.radau_newton_step_size",
    "Odes.Radau.std_default"
   ],
   "note": "Forward integration, standard settings (Std), arbitrary right hand side and linear algebra."
  },
  {
   "property": "C27",
   "status": "proved",
   "theorems": [
    "Odes.Radau.radau_tolerances",
    "Odes.Radau.radau_tolerances_agree",
    "Odes.Radau.radau_tolerances_real",
    "Odes.Radau.radau_tolerances_oob"
   ],
   "note": "Precondition stated: the vector form needs an entry per component (out of bounds read otherwise)."
  },
  {
   "property": "C28",
   "status": "proved",
   "theorems": [
    "Odes.Radau.radau_fnewt_usable",
    "Odes.Radau.radau_setFnewt_throws",
    "Odes.Radau.radau_setFnewt_used"
   ],
   "note": "All histories of setter calls; tolerances positive. A NaN criterion given by the caller is accepted by the code (the comparison is false), which the statement of the invariant shows."
  },
  {
   "property": "C29",
   "status": "partial",
   "theorems": [
    "Odes.Radau.radau_second_call_differs",
    "Odes.Radau.radau_calls_agree_partial"
   ],
   "note": "The code violates the claim: faccon is not reset, the second of two equal calls makes 4 evaluations instead of 7 (witness proved). With equal faccon whole runs agree (simulation, all problems and lengths)."
  },
  {
   "property": "C30",
   "status": "partial",
   "theorems": [
    "Odes.Radau.radau_accepts_nan",
    "Odes.Radau.radau_error_test_partial"
   ],
   "note": "The code violates the claim: MAX(sqrt(nan),1e-10) is 1e-10, the step is accepted (witness run proved). For norms that are numbers the test is right."
  },
  {
   "property": "C31",
   "status": "partial",
   "theorems": [
    "Odes.Radau.radau_last_step_stale",
    "Odes.Radau.radau_last_step_partial"
   ],
   "note": "The code violates the claim when the first step is the last one: hopt keeps the value of an earlier call (proved). Holds from the second accepted step on."
  },
  {
   "property": "C32",
   "status": "partial",
   "theorems": [
    "Odes.Radau.radau_nit_one_never_ends",
    "Odes.Radau.radau_newton_bounded_partial"
   ],
   "note": "The bound of nit iterations is proved; the code violates the progress part: with nit=1 no Newton loop can converge and the call never ends (proved)."
  },
  {
   "property": "C33",
   "status": "proved",
   "theorems": [
    "Odes.Radau.radau_nodes",
    "Odes.Radau.radau_eigenvalues",
    "Odes.Radau.radau_transformation",
    "Odes.Radau.radau_error_weights",
    "Odes.Radau.radauA_unique",
    "Odes.Radau.radauA_collocation"
   ],
   "note": "Method characterised by the collocation conditions; eigenvalues exact, T and TI to 1e-19, block diagonalisation to 1e-18."
  },
  {
   "property": "C34",
   "status": "proved",
   "theorems": [
    "Odes.Radau.radau_newton_linear",
    "Odes.Radau.radau_newton_stops",
    "Odes.Radau.radau_exact_constants",
    "Odes.Radau.radau_newton_printed",
    "Odes.Radau.radau_full_newton",
    "Odes.Radau.radau_band_newton"
   ],
   "note": "Exact arithmetic. Exact for the exact transformation (shown to exist); for the printed T, TI the residual of the stage equations is bounded by 1e-18 times the size of the data. The contract of the linear algebra is met by the models of full and banded storage; with Hessenberg reduction it is not (dechc_solhc_wrong)."
  },
  {
   "property": "C35",
   "status": "partial",
   "theorems": [
    "Odes.Rodas.rodas_not_delivered",
    "Odes.Rodas.rodas_array_unchanged",
    "Odes.Rodas.rodas_reads_array_partial"
   ],
   "note": "The code violates the claim (put copies the vector onto itself): the caller's array is never changed, proved for every size; the run does start from the array."
  },
  {
   "property": "C36",
   "status": "partial",
   "theorems": [
    "Odes.Rodas.rodas_vector_tolerances_oob",
    "Odes.Rodas.rodas_tolerances_partial"
   ],
   "note": "The code violates the claim: reads _rtol[n] for every n >= 1, component i uses entry i+1; scalar tolerances proved."
  },
  {
   "property": "C37",
   "status": "proved",
   "theorems": [
    "Odes.Rodas.rodas_returns_at_xend",
    "Odes.Rodas.rodas_times_in_interval"
   ],
   "note": "Exact arithmetic, arbitrary RHS and linear algebra (NaN included)."
  },
  {
   "property": "C38",
   "status": "partial",
   "theorems": [
    "Odes.Rodas.rodas_step_limit",
    "Odes.Rodas.rodas_terminates_partial",
    "Odes.Rodas.rodas_nan_never_ends",
    "Odes.Rodas.rodas_infinite_run"
   ],
   "note": "The code violates termination: with NaN values the rejection loop never ends (the step limit is tested only after an acceptance), proved. Step limit at acceptances proved; termination proved for real data with errors below 1 for small steps."
  },
  {
   "property": "C39",
   "status": "partial",
   "theorems": [
    "Odes.Rodas.rodas_rejection_shrinks",
    "Odes.Rodas.rodas_step_ratio",
    "Odes.Rodas.rodas_nan_step_size"
   ],
   "note": "Proved for real error estimates; for a NaN estimate the code sets h to NaN (negation proved)."
  },
  {
   "property": "C40",
   "status": "proved",
   "theorems": [
    "Odes.Rodas.rodas_stages",
    "Odes.Rodas.rodas_run_is_rosenbrock",
    "Odes.Rodas.rodas_full_stages",
    "Odes.Rodas.rodas_band_stages",
    "Odes.Rodas.rodas_hess_stages"
   ],
   "note": "Linear algebra enters through a contract, shown to be met by the models of full, banded and Hessenberg storage; LAPACK is a parameter."
  },
  {
   "property": "C41",
   "status": "proved",
   "theorems": [
    "Odes.Rodas.rodas_tables",
    "Odes.Rodas.rodas_methods",
    "Odes.Rodas.rodas_step_classic"
   ],
   "note": "Whole tables by kernel evaluation over Q, tolerance 1e-14."
  },
  {
   "property": "C42",
   "status": "proved",
   "theorems": [
    "Odes.Rodas.rodas_autonomous_modes_agree"
   ],
   "note": "Whole runs agree, not only stages; real right hand sides."
  },
  {
   "property": "C43",
   "status": "partial",
   "theorems": [
    "Odes.Rodas.rodas_counters_wrong",
    "Odes.Rodas.rodas_counters_partial"
   ],
   "note": "The code violates the claim: rejections before the first acceptance are not counted (witness run proved); factorisations = steps and the inequality proved."
  },
  {
   "property": "C44",
   "status": "partial",
   "theorems": [
    "Odes.Rodas.rodas_lastTimeStep_wrong",
    "Odes.Rodas.rodas_lastTimeStep_partial"
   ],
   "note": "The code violates the claim: the proposal for the next step is reported (witness run proved)."
  },
  {
   "property": "C45",
   "status": "partial",
   "theorems": [
    "Odes.Rodas.rodas_empty_interval_never_returns",
    "Odes.Radau.radau_empty_never_ends",
    "Odes.Rock4.rock4_empty_interval"
   ],
   "note": "Rodas never returns normally on an empty interval and Radau5 does not terminate (both proved); Rock4 satisfies the claim."
  },
  {
   "property": "C46",
   "status": "proved",
   "theorems": [
    "Odes.Rock4.rock4_returns_at_tend",
    "Odes.Rock4.rock4_stays_in_interval",
    "Odes.Rock4.rock4_empty_interval"
   ],
   "note": "Exact arithmetic; NaN/inf data covered."
  },
  {
   "property": "C47",
   "status": "proved",
   "theorems": [
    "Odes.Rock4.rock4_terminates",
    "Odes.Rock4.rock4_outcomes",
    "Odes.Rock4.rock4_returns_or_throws",
    "Odes.Rock4.rock4_nan_rho_ub"
   ],
   "note": "Termination for every input; the third outcome besides return/exception is the undefined int conversion for non-representable stage numbers (excluded for rho in [0,R], (tend-t0)R<=1e18, finite h; exhibited for NaN rho)."
  },
  {
   "property": "C48",
   "status": "proved",
   "theorems": [
    "Odes.Rock4.rock4_tables_in_bounds",
    "Odes.Rock4.rock4_degree_block",
    "Odes.Rock4.rock4_step_reads_only_block"
   ],
   "note": ""
  },
  {
   "property": "C49",
   "status": "proved",
   "theorems": [
    "Odes.Rock4.rock4_stages_cover_spectrum"
   ],
   "note": ""
  },
  {
   "property": "C50",
   "status": "partial",
   "theorems": [
    "Odes.Rock4.rock4_rho_not_renewed",
    "Odes.Rock4.rock4_rho_renewed_partial"
   ],
   "note": "The code violates the claim: proved negation (arbitrarily many attempts without renewal); holds as long as nothing was rejected."
  },
  {
   "property": "C51",
   "status": "proved",
   "theorems": [
    "Odes.Rock4.rock4_buffers_disjoint",
    "Odes.Rock4.rock4_returns_at_tend"
   ],
   "note": ""
  },
  {
   "property": "C52",
   "status": "proved",
   "theorems": [
    "Odes.Rock4.rock4_kernel_formula",
    "Odes.Rock4.rock4_kernel_hypotheses"
   ],
   "note": ""
  },
  {
   "property": "C53",
   "status": "proved",
   "theorems": [
    "Odes.Rock4.rock4_rejected_no_effect"
   ],
   "note": ""
  },
  {
   "property": "C54",
   "status": "proved",
   "theorems": [
    "Odes.Rock4.rock4_counters"
   ],
   "note": ""
  },
  {
   "property": "C55",
   "status": "partial",
   "theorems": [
    "Odes.Rock4.rock4_nbStages_wrong",
    "Odes.Rock4.rock4_nbStages_partial",
    "Odes.Rock4.rock4_nstagesmax"
   ],
   "note": "The code violates the claim: NbStages is always 4 less; proved."
  },
  {
   "property": "C56",
   "status": "partial",
   "theorems": [
    "Odes.Omp.exec_spec",
    "Odes.Omp.omp_cl1",
    "Odes.Omp.omp_cl2",
    "Odes.Omp.omp_cl3",
    "Odes.Omp.omp_ct",
    "Odes.Omp.omp_apply",
    "Odes.Omp.omp_apply2",
    "Odes.Omp.omp_rpp2_lost_update",
    "Odes.Omp.omp_changes_acceptance",
    "Odes.Omp.omp_rpp2_partial",
    "Odes.Omp.omp_rpp2_le_partial"
   ],
   "note": "Element-wise loops: proved for every interleaving. Error norm: the code violates the claim (no reduction clause): lost update proved."
  },
  {
   "property": "C57",
   "status": "proved",
   "theorems": [
    "Odes.Rock4.rock4_error_is_rms",
    "Odes.Rock4.rock4_error_monotone",
    "Odes.Rock4.rock4_error_not_negative"
   ],
   "note": ""
  },
  {
   "property": "C58",
   "status": "partial",
   "theorems": [
    "Odes.rock4_tables_tile",
    "Odes.rock4_tables_agree_partial",
    "Odes.not_rock4_tables_equal"
   ],
   "note": "Sizes, degrees and tiling proved for both copies. The code violates \"the same numbers\": about 330 literals differ in the last printed digit (negation proved at RECF[5]); they agree to a relative 1e-15 (proved for all entries). The numbers are the decimal literals; rounding to double is not modelled."
  },
  {
   "property": "C59",
   "status": "proved",
   "theorems": [
    "Odes.Rock4L.rock4l_linear"
   ],
   "note": "Any commutative ring of scalars, any tables, every formula; buffers and pointer permutations modelled."
  },
  {
   "property": "C60",
   "status": "partial",
   "theorems": [
    "Odes.Rock4L.rock4l_affine_doc_wrong",
    "Odes.Rock4L.rock4l_affine_partial"
   ],
   "note": "The code violates the claim: with the documented operator (g not multiplied by a) the affine step is wrong, for all tables (negation proved). With the operator of the shipped example it is the step of y'=Ay+b."
  },
  {
   "property": "C61",
   "status": "partial",
   "theorems": [
    "Odes.Rock4L.rock4l_run",
    "Odes.Rock4L.rock4l_too_small",
    "Odes.Rock4L.rock4l_too_large_partial",
    "Odes.Rock4L.rock4l_nonpositive",
    "Odes.Rock4L.rock4l_empty",
    "Odes.Rock4L.rock4l_huge_step_ub",
    "Odes.Rock4L.lastStep_bounds"
   ],
   "note": "Exact arithmetic, both modes, whole runs: number and lengths of steps, exceptions. The code violates \"too large steps raise an exception\" when the number of stages does not fit an int (undefined conversion, proved)."
  },
  {
   "property": "C62",
   "status": "partial",
   "theorems": [
    "Odes.Rock4L.rock4l_count_wrong",
    "Odes.Rock4L.rock4l_applications",
    "Odes.Rock4L.rock4l_run"
   ],
   "note": "The code violates the claim: one evaluation too many is reported per step (proved for all runs); the exact relation is in rock4l_run."
  },
  {
   "property": "C63",
   "status": "proved",
   "theorems": [
    "Odes.Rock4L.rock4l_mode",
    "Odes.Rock4L.rock4l_mode_ok",
    "Odes.Sdirkl.sdirkl_mode"
   ],
   "note": "Both solvers."
  },
  {
   "property": "C64",
   "status": "proved",
   "theorems": [
    "Odes.Sdirkl.sdirkl_is_rk",
    "Odes.Sdirkl.sdirkl_is_rk_affine",
    "Odes.Sdirkl.sdirkl_step1",
    "Odes.Sdirkl.sdirkl_step2"
   ],
   "note": "Any field; work arrays, aloc and Zcomb modelled with their left-over contents; contract of Op.apply: it solves with I - dt A[0][0] L."
  },
  {
   "property": "C65",
   "status": "partial",
   "theorems": [
    "Odes.Sdirkl.sdirkl_crN_not_consistent",
    "Odes.Sdirkl.sdirkl_crN_is_half_euler",
    "Odes.Sdirkl.sdirkl_row_sums",
    "Odes.Sdirkl.sdirkl_order_rkMethod1",
    "Odes.Sdirkl.sdirkl_order_rkMethod2",
    "Odes.Sdirkl.sdirkl_order_rkRS",
    "Odes.Sdirkl.sdirkl_order_eulerImp"
   ],
   "note": "The code violates the claim: CrN has D=1 where d=b/a=2, so it advances half a step (proved for all problems; not consistent, negation proved). The other methods have local error C dt^(p+1) (orders 4, 4, 2, 1 on linear problems) up to 1e-14 in the coefficients."
  },
  {
   "property": "C66",
   "status": "proved",
   "theorems": [
    "Odes.Sdirkl.sdirkl_linear",
    "Odes.Sdirkl.sdirkl_affine_linear"
   ],
   "note": ""
  },
  {
   "property": "C67",
   "status": "partial",
   "theorems": [
    "Odes.Symp.symp_coeffs",
    "Odes.Symp.symp_step",
    "Odes.Symp.symp_coeffs_narrowed"
   ],
   "note": "Any history, any scalar type. The code violates the claim for long double: change_h takes a double, so the coefficients are the tables times the step size rounded to double (proved); for double the claim is proved."
  },
  {
   "property": "C68",
   "status": "proved",
   "theorems": [
    "Odes.Symp.symp_failure"
   ],
   "note": "Any scalar type (NaN included), any history."
  },
  {
   "property": "C69",
   "status": "partial",
   "theorems": [
    "Odes.Symp.symp_success_partial",
    "Odes.Symp.symp_false",
    "Odes.Symp.symp_one_iteration",
    "Odes.Symp.symp_stops_only_exact"
   ],
   "note": "Success exactly after the first iteration where the residual is below the threshold and not smaller than the preceding value. The code violates \"at least two iterations\": the value left in Test (0 after construction) is taken for the preceding one (witness proved for all tables)."
  },
  {
   "property": "C70",
   "status": "proved",
   "theorems": [
    "Odes.Symp.symp_quadratic",
    "Odes.Symp.symp_preserves",
    "Odes.Symp.symp_linear",
    "Odes.Symp.symp_drift",
    "Odes.Symp.symp_gauss_drift",
    "Odes.Symp.symp_table_defect",
    "Odes.Symp.symp_sweep",
    "Odes.Symp.symp_preserves_contraction"
   ],
   "note": "Exact arithmetic; exact identity for the change, exact conservation for an exact tableau and exact stages, bound for the shipped tables after any number of steps of any sizes; defect of all tables checked."
  },
  {
   "property": "C71",
   "status": "proved",
   "theorems": [
    "Odes.Symp.symp_comp_zero",
    "Odes.Symp.symp_comp_float",
    "Odes.Symp.symp_comp_acc",
    "Odes.Symp.symp_comp_needs"
   ],
   "note": "Exact arithmetic: compensation stays 0. Floating point (p bits, unbounded exponents, round to nearest): the subtractions are exact when the correction is not larger than u (Dekker), and this condition is needed (proved)."
  },
  {
   "property": "C72",
   "status": "partial",
   "theorems": [
    "Odes.Symp.symp_defined_iff",
    "Odes.Symp.symp_ext_square",
    "Odes.Symp.symp_ext_wrong",
    "Odes.Symp.symp_ext_stale",
    "Odes.Symp.symp_ext_uninit"
   ],
   "note": "The code violates the claim (all proved): out of bounds exactly when it extrapolates with more stages than components; with fewer stages than components the last component is never predicted; with as many the prediction is wrong for constant slopes with every shipped table; a first call with firstStep=false and h=1 reads memory never written."
  },
  {
   "property": "C73",
   "status": "proved",
   "theorems": [
    "Odes.Symp.symp_construct",
    "Odes.Symp.symp_tables"
   ],
   "note": ""
  },
  {
   "property": "C74",
   "status": "partial",
   "theorems": [
    "Odes.Symp.symp_maxIter",
    "Odes.Symp.symp_maxIter_partial"
   ],
   "note": "The code violates the claim: after every successful step maxIter is one less than the number of iterations (proved for all runs); after a failure it is correct."
  },
  {
   "property": "C75",
   "status": "partial",
   "theorems": [
    "Odes.Vec.copy_double_free",
    "Odes.Vec.copy_aliases",
    "Odes.Vec.matrix_copy_ub",
    "Odes.Vec.assignF_copies_partial"
   ],
   "note": "The code violates the claim: negations proved. Only assignment from a vector of the same size copies (assignF_copies_partial)."
  },
  {
   "property": "C76",
   "status": "partial",
   "theorems": [
    "Odes.Rodas.rodas_backward_never_returns",
    "Odes.Rodas.rodas_backward_partial",
    "Odes.Rodas.rodas_backward_ends_partial"
   ],
   "note": "The code violates the claim when x0+xend>=0 (ABS macro expands ABS(xend-x) to -xend-x): negation proved. For xend<x0 with x0+xend<0 it is proved that every accepted step is negative, that the times stay in [xend,x0] and (real data, right hand side bounded near every point) that the call ends, at xend after Rosenbrock steps with error estimates at most 1, or by one of its three exceptions."
  },
  {
   "property": "C77",
   "status": "partial",
   "theorems": [
    "Odes.Rodas.rodas_first_step",
    "Odes.Radau.radau_first_step",
    "Odes.Radau.radau_first_step_partial",
    "Odes.Radau.radau_first_step_wrong"
   ],
   "note": "Rodas: proved. Radau5 violates the claim: when the Newton loop of the first accepted step ended with didNotConverge, half of the step is reported (radau_first_step_wrong, one step of size 0.1, 0.05 reported); proved otherwise (radau_first_step: exactly these two cases)."
  },
  {
   "property": "C78",
   "status": "partial",
   "theorems": [
    "Odes.Radau.radau_extrapolation_wrong",
    "Odes.Radau.radau_interp_partial",
    "Odes.Radau.radau_extrapolation_repaired",
    "Odes.Radau.radau_start_data_partial"
   ],
   "note": "The code violates the claim: aaa uses 1/C1M1 instead of 1/C1 (Radau5cc.hpp 621), so not even solutions of constant slope are extrapolated. What holds and the size of the defect are in radau_interp_partial; that the data are those of the last accepted step in radau_start_data_partial."
  },
  {
   "property": "C79",
   "status": "proved",
   "theorems": [
    "Odes.Rock4L.Test.rock4l_test_contract"
   ],
   "note": "Any field."
  },
  {
   "property": "C80",
   "status": "partial",
   "theorems": [
    "Odes.Rock4L.Test.rock4l_test_rho_small",
    "Odes.Rock4L.Test.rock4l_test_rho_partial"
   ],
   "note": "The code violates the claim: -4/h^2 is an eigenvalue and rho() is smaller, for every number of points (proved). Every eigenvalue is at most 4/h^2 in modulus and rho() is at least 1-3/Size^2 times it (proved)."
  },
  {
   "property": "C81",
   "status": "proved",
   "theorems": [
    "Odes.rock4_shipped_order",
    "Odes.rock4_shipped_embedded_order",
    "Odes.rock4l_shipped_order",
    "Odes.rock4l_shipped_embedded_order",
    "Odes.rock4_shipped_order_real",
    "Odes.rock4_kernel_shipped",
    "Odes.Spec.Taylor.flow_exact",
    "Odes.Spec.taylor_poly"
   ],
   "note": "Exact arithmetic on the decimal literals; right hand sides described by their Taylor expansion in a commutative real algebra with h^5=0 (every polynomial field has one)."
  },
  {
   "property": "C82",
   "status": "proved",
   "theorems": [
    "Odes.Sdirkl.sdirkl_energy",
    "Odes.Sdirkl.sdirkl_contractive",
    "Odes.Sdirkl.sdirkl_heat",
    "Odes.Sdirkl.lap1_dissipative",
    "Odes.Sdirkl.Shipped.stable"
   ],
   "note": "Exact arithmetic; holds for the literals as printed."
  },
  {
   "property": "C83",
   "status": "partial",
   "theorems": [
    "Odes.Lapl.superlu_arrays",
    "Odes.Lapl.lapl_arrays",
    "Odes.Lapl.superlu_empty_column",
    "Odes.Lapl.superlu_wide_ub",
    "Odes.Lapl.lapl_reinit"
   ],
   "note": "Proved when no column is empty, hence for the example for every n. The code violates the general claim: an empty column gives wrong arrays, more columns than rows writes out of bounds, a second initialisation with a smaller size leaves colptr uninitialised (all proved)."
  },
  {
   "property": "C84",
   "status": "proved",
   "theorems": [
    "Odes.Symp.symp_table_order"
   ],
   "note": "Decimal literals as exact numbers; rounding to double (and the passage of the long double literals through initializer_list<double>) not modelled."
  },
  {
   "property": "C85",
   "status": "partial",
   "theorems": [
    "Odes.rock4_stable_partial",
    "Odes.rock4_almost_stable",
    "Odes.not_rock4_stable",
    "Odes.rock4_amp_le",
    "Odes.rock4l_amp_le",
    "Odes.rock4l_step_stable",
    "Odes.not_rock4l_step_stable",
    "Odes.rock4l_run_stable_partial",
    "Odes.rock4l_step_contracts",
    "Odes.rock4_run_stable_partial"
   ],
   "note": "Proved for 47 of the 50 degrees on the whole interval, in both tables. The tables violate the claim for the degrees 63 (end of the interval), 129 and 148 (near -8.39): negation proved, with matrices for which the step chosen by the solver increases the norm; there the factor is at most 1.15, 1.01, 1.01 (proved). Decimal literals, exact arithmetic."
  },
  {
   "property": "C86",
   "status": "proved",
   "theorems": [
    "Odes.Symp.symp_step_map",
    "Odes.Symp.symp_symplectic",
    "Odes.Symp.symp_symplectic_exact",
    "Odes.Symp.symp_table_sums",
    "Odes.Symp.symp_gauss_symplectic"
   ],
   "note": "Exact arithmetic. The map is the one computed with the number of sweeps of the call (first step or new step size); explicit bound for the shipped tables; exact for an exact tableau."
  },
  {
   "property": "C87",
   "status": "proved",
   "theorems": [
    "Odes.Symp.symp_reversible",
    "Odes.Symp.symp_reversible_exact",
    "Odes.Symp.symp_table_symmetric",
    "Odes.Symp.symp_gauss_reversible"
   ],
   "note": "Exact arithmetic; explicit bound for the shipped tables, exact for a symmetric tableau and exact stages."
  },
  {
   "property": "C88",
   "status": "partial",
   "theorems": [
    "Odes.Symp.symp_contraction_partial",
    "Odes.Symp.symp_contraction_fails",
    "Odes.Symp.symp_stops_only_exact"
   ],
   "note": "The code violates the claim in exact arithmetic: harmonic oscillator, two stages, h=1, the iteration is a contraction and step() returns false whatever the number of iterations allowed (proved); a call with a contracting iteration succeeds after more than one sweep only if a sweep changed nothing. Proved: success when two consecutive sweeps agree exactly below the limit."
  },
  {
   "property": "C89",
   "status": "partial",
   "theorems": [
    "Odes.Symp.Test.outer_rhs_partial",
    "Odes.Symp.Test.outer_energy",
    "Odes.Symp.Test.outer_H",
    "Odes.Symp.Test.outer_H_fails",
    "Odes.Symp.Test.hamil_rounding",
    "Odes.Symp.Test.outer_H_fails_shipped",
    "Odes.Symp.Test.kepler_field",
    "Odes.Symp.Test.kepler_H",
    "Odes.Symp.Test.kepler_reversed"
   ],
   "note": "The code violates the claim in two ways. (1) In all four classes the equations are those of H with time reversed (outer_rhs_partial: minus the right hand side of Newton's equations; kepler_field, kepler_reversed). (2) H of the planets leaves out the pairs of consecutive bodies (outer_H) and is not a first integral (outer_H_fails). Proved: the energy including these pairs is a first integral, and H is one for Kepler2."
  },
  {
   "property": "C90",
   "status": "partial",
   "theorems": [
    "Odes.Symp.Test.outer_rhs_partial",
    "Odes.Symp.Test.outer_rhs_ub",
    "Odes.Symp.Test.outer_evals_ub",
    "Odes.Symp.Test.outer_flat",
    "Odes.Symp.Test.rhsL_ub",
    "Odes.Symp.Test.evalsArr_ub"
   ],
   "note": "The code violates the claim (rhsL_ub, evalsArr_ub: with every operation rounded): dpdt zeroes 3*n elements instead of 3*nb. Out of bounds of Y1 exactly for the last three stages, hence undefined behaviour in every step with any number of stages. With the usual memory layout (members one after the other) the results are right but the compensation e is zeroed in each iteration. The part which holds is outer_rhs_partial."
  },
  {
   "property": "C91",
   "status": "proved",
   "theorems": [
    "Odes.Symp.Test.outer_momentum",
    "Odes.Symp.Test.angForm_quad",
    "Odes.Symp.Test.outer_angular",
    "Odes.Symp.Test.keplerAng_quad",
    "Odes.Symp.Test.kepler_angular"
   ],
   "note": "Exact arithmetic; right hand side taken as the function of vectors which operator() computes (C90)."
  },
  {
   "property": "C92",
   "status": "proved",
   "theorems": [
    "Odes.Stiff.heat_rhs",
    "Odes.Stiff.heat_rhs_ub",
    "Odes.Stiff.field_heat",
    "Odes.Stiff.kpp_radau_rhs",
    "Odes.Stiff.kpp_rodas_rhs",
    "Odes.Stiff.fradau_rhs",
    "Odes.Stiff.bz_rhs",
    "Odes.Stiff.field_bz",
    "Odes.Stiff.fisher_rhs",
    "Odes.Stiff.field_fisher"
   ],
   "note": "Exact arithmetic, every n >= 2; for n = 1 the code reads outside (heat_rhs_ub)."
  },
  {
   "property": "C93",
   "status": "partial",
   "theorems": [
    "Odes.Stiff.heat_jac_partial",
    "Odes.Stiff.heat_jac_radau_fails",
    "Odes.Stiff.heat_jac_rodas_fails",
    "Odes.Stiff.heat_jac_uninitialised",
    "Odes.Stiff.kpp_radau_jac_fails",
    "Odes.Stiff.fradau_jac_fails",
    "Odes.Stiff.kpp_rodas_jac_fails",
    "Odes.Stiff.ore_jac_radau",
    "Odes.Stiff.ore_jac_rodas_partial",
    "Odes.Stiff.ore_jac_rodas_fails",
    "Odes.Stiff.bz_band_fails",
    "Odes.Stiff.bz_jac_fails",
    "Odes.Stiff.bz_alias"
   ],
   "note": "The code violates the claim (negations proved): KPP of Radau5 and Rodas, FRadau5 (boundary lines; an entry never written), Oregonator of Rodas (sign), BZ (declared band too small, wrong entries, two entries of the same storage). Proved: the Oregonator of Radau5, and all other entries of the heat-type Jacobians."
  },
  {
   "property": "C94",
   "status": "proved",
   "theorems": [
    "Odes.Stiff.e5_eq",
    "Odes.Stiff.e5_invariant",
    "Odes.Stiff.e5_nonneg",
    "Odes.Rodas.rodas_linear_invariant",
    "Odes.Rodas.rodas_e5",
    "Odes.Radau.radau_linear_invariant",
    "Odes.Radau.radau_e5"
   ],
   "note": "Exact arithmetic. Whole runs of Rodas and of Radau5; the step of E5 in both."
  },
  {
   "property": "C95",
   "status": "proved",
   "theorems": [
    "Odes.Stiff.fisher_lipschitz",
    "Odes.Stiff.fisher_deriv",
    "Odes.Stiff.fisher_rho",
    "Odes.Stiff.fisher_differentiable",
    "Odes.Stiff.fisher_bounds"
   ],
   "note": "Exact arithmetic."
  },
  {
   "property": "C96",
   "status": "proved",
   "theorems": [
    "Odes.Radau.radau_run_is_newton"
   ],
   "note": "Exact arithmetic on finite data, forward integration. The linear systems are solved or the run throws (contract of LAPACK)."
  },
  {
   "property": "C97",
   "status": "proved",
   "theorems": [
    "Odes.Avc.avc_ions",
    "Odes.Avc.avc_charge_n",
    "Odes.Avc.avc_charge_a"
   ],
   "note": "Real numbers; any values of the constants; solutions in the sense of derivatives on an interval."
  },
  {
   "property": "C98",
   "status": "partial",
   "theorems": [
    "Odes.Avc.avc_defined_partial",
    "Odes.Avc.avc_defined_wrong",
    "Odes.Avc.avc_init_defined",
    "Odes.Avc.avc_recovery",
    "Odes.Avc.avc_recovery_stays",
    "Odes.Avc.avc_init_volumes"
   ],
   "note": "The code violates the claim: at a potential of 0 mV or 8 mV it computes 0/0 (removable singularities of the channel formulas; negation proved). Proved: these are the only points; recovery variables stay in [0,1]; the initial state is in the domain."
  },
  {
   "property": "C99",
   "status": "partial",
   "theorems": [
    "Odes.Avc.avc_time",
    "Odes.Avc.avc_autonomous_wrong",
    "Odes.Rodas.rodas_flag_matters",
    "Odes.Rodas.rodas_flag_attempt",
    "Odes.Rodas.rodas_autonomous_modes_agree"
   ],
   "note": "The code violates the claim: AvcF is declared autonomous and depends on the time at every meaningful state (proved). Proved: what the flag costs (one step of each method on y'=t: error of at least 0.02 h^2 instead of at most 1e-13 h^2), and that the two modes agree when the right hand side does not depend on the time. E5, KPP and Oregonator do not use their argument t (models without time)."
  },
  {
   "property": "C100",
   "status": "proved",
   "theorems": [
    "Odes.Rodas.rodas_step_contractive",
    "Odes.Rodas.rodas_step_damps",
    "Odes.Rodas.rodas_matrix_nonsingular",
    "Odes.Rodas.rodas_step_exists",
    "Odes.Rodas.rodas_run_contractive",
    "Odes.Rodas.rodas_test_equation"
   ],
   "note": "Exact arithmetic with the coefficients exactly as printed; Jacobian computed by the code (its difference quotients are exact here) or supplied."
  },
  {
   "property": "C101",
   "status": "partial",
   "theorems": [
    "Odes.Sdirkl.sdirkl_converges",
    "Odes.Sdirkl.sdirkl_converges_dissipative",
    "Odes.Sdirkl.sdirkl_crN_diverges"
   ],
   "note": "Exact arithmetic with the printed coefficients, solver of the linear systems exact. Proved for the four methods. The code violates the claim for CrN (negation proved: on y'=1 the result is half of the exact one whatever the step). The constant C is not explicit."
  },
  {
   "property": "C102",
   "status": "proved",
   "theorems": [
    "Odes.SdirklTest.sdirkltest_exact",
    "Odes.SdirklTest.sdirkltest_turn",
    "Odes.SdirklTest.sdirkltest_main"
   ],
   "note": "Exact arithmetic; cos, exp, atan as mathematical functions; solver of the linear systems exact (C83). Writing of the file not modelled."
  },
  {
   "property": "C103",
   "status": "proved",
   "theorems": [
    "Odes.rock4_near_exp",
    "Odes.rock4l_step_error",
    "Odes.rock4l_run_error",
    "Odes.rock4_run_error",
    "Odes.rock4_call_error"
   ],
   "note": "Exact arithmetic with the printed coefficients. The stability factors of C85 enter: 1 up to 63 stages, at most 1.15 per step beyond."
  },
  {
   "property": "C104",
   "status": "proved",
   "theorems": [
    "Odes.Rodas.rodas_step_error",
    "Odes.Rodas.rodas_run_error",
    "Odes.Rodas.rodas_test_equation_error"
   ],
   "note": "Exact arithmetic with the coefficients exactly as printed; Jacobian computed by the code or supplied; forward integration."
  },
  {
   "property": "C105",
   "status": "proved",
   "theorems": [
    "Odes.Radau.radau_step_stable",
    "Odes.Radau.radau_step_error",
    "Odes.Radau.radau_run_error"
   ],
   "note": "Exact arithmetic with the transformation matrices exactly as printed; Jacobian computed by the code or supplied; forward integration. The factor 1+1e-15 and the term 3e-16 |v| come from the printed digits of T and T^-1."
  },
  {
   "property": "C106",
   "status": "partial",
   "theorems": [
    "Odes.Lapl.csr_transposed_partial",
    "Odes.Lapl.csr_bad_cases",
    "Odes.Lapl.csr_empty_last",
    "Odes.Lapl.csr_not_rows",
    "Odes.Lapl.csr_lapl"
   ],
   "note": "The code violates the claim (negation proved): the arrays are those of the transposed matrix; an empty last column leaves ia unwritten, an empty first column throws, more columns than rows write out of bounds. The class is not used."
  },
  {
   "property": "C107",
   "status": "partial",
   "theorems": [
    "Odes.Rock4L.Main.rock4l_main",
    "Odes.Rock4L.Main.rock4l_main_init",
    "Odes.Rock4L.Main.normdiff_partial",
    "Odes.Rock4L.Main.normdiff_wrong",
    "Odes.Rock4L.Main.search_spec"
   ],
   "note": "The code violates the claim about normdiff (negation proved): the loop assigns instead of accumulating, so only the last components are compared. The rest holds in exact arithmetic."
  },
  {
   "property": "C108",
   "status": "proved",
   "theorems": [
    "Odes.rock4_damped",
    "Odes.rock4l_damped",
    "Odes.rock4l_rough_error",
    "Odes.Rock4L.Main.rock4l_main_error",
    "Odes.Rock4L.Main.rock4l_main_last"
   ],
   "note": "Exact arithmetic. Degrees up to 59; for 67..86 the damping also holds numerically but was not certified, 63, 129 and 148 do not damp (C85)."
  },
  {
   "property": "C109",
   "status": "proved",
   "theorems": [
    "Odes.Symp.symp_float_error",
    "Odes.Symp.symp_gauss_float_error",
    "Odes.Symp.free_errorF"
   ],
   "note": "Exponents without bound (no overflow, no underflow), Double=double, successful calls, first=true as in test/main.cc. The order proved is q+1 <= s+1, with explicit constants; order 2s is C123."
  },
  {
   "property": "C110",
   "status": "partial",
   "theorems": [
    "Odes.TimeLoop.rock4l_float_end_partial",
    "Odes.TimeLoop.rock4l_float_throws",
    "Odes.TimeLoop.rock4l_float_diverges",
    "Odes.TimeLoop.rock4l_float_hangs",
    "Odes.TimeLoop.rock4_float_end_partial",
    "Odes.TimeLoop.rock4_float_throws",
    "Odes.TimeLoop.rock4l_sim",
    "Odes.TimeLoop.rock4_sim"
   ],
   "note": "Violated by the code: rock4l_float_throws, rock4_float_throws (exception after the end of the work, -0.5 to 0.1) and rock4l_float_hangs (t does not advance) are the negations with witnesses. The other theorems need a last step which starts beyond tend/2. Unbounded exponents; the rest of the program (number of stages, error test, next step) is arbitrary. rock4l_sim and rock4_sim: the loop modelled is that of the models of C47 and C61."
  },
  {
   "property": "C111",
   "status": "proved",
   "theorems": [
    "Odes.Hess.dech_solh_float_residual",
    "Odes.Hess.dech_solh_float",
    "Odes.Hess.dech_solh_float_error"
   ],
   "note": "Unbounded exponents (no overflow, no underflow); rounding to nearest with any rule for ties; the product and the sum of B(i)+=A(i,k)*t are rounded separately (no fma contraction)."
  },
  {
   "property": "C112",
   "status": "partial",
   "theorems": [
    "Odes.EndLoop.radau_float_end",
    "Odes.EndLoop.rodas_float_end_partial",
    "Odes.EndLoop.rodas_float_no_zero_step_partial",
    "Odes.EndLoop.rodas_float_zero_step",
    "Odes.EndLoop.rodas_zero_step_diverges",
    "Odes.EndLoop.rodas_sim",
    "Odes.EndLoop.radau_init_sim",
    "Odes.EndLoop.radau_sim"
   ],
   "note": "Radau5 has the property (until a Newton iteration ends with didNotConverge, C16/C18). Rodas violates it: after a step shorter than about 2^15 units in the last place of xend, x can be exactly xend without last being set; a step with h=0 follows, and (one unknown) the do loop never ends. Without such short steps there is no step of length zero; the interval and the final time hold for Rodas without that condition. Unbounded exponents; one-step mode left out."
  },
  {
   "property": "C113",
   "status": "partial",
   "theorems": [
    "Odes.Log.Radau.radau_log_partial",
    "Odes.Log.Radau.radau_log_return_partial",
    "Odes.Log.Radau.radau_log_rejected_wrong",
    "Odes.Log.Radau.radau_log_rejected_witness",
    "Odes.Log.Rodas.rodas_log_partial",
    "Odes.Log.Rodas.rodas_log_misses_rejection",
    "Odes.Log.Rodas.rodas_log_witness",
    "Odes.Log.Rock4.rock4_log_partial",
    "Odes.Log.Rock4.rock4_log_rejected_wrong",
    "Odes.Log.Rock4.rock4_log_witness"
   ],
   "note": "Violated by all three. Radau5: everything but the size printed with a rejection, which is the rejected one. Rodas: nothing is logged for a rejection, so the last logged size is then not the one in force. Rock4: the log is never cleared, and the size printed is not the next one (0.8 of it, or 1e-5). What holds is proved."
  },
  {
   "property": "C114",
   "status": "partial",
   "theorems": [
    "Odes.Radau.radau_hess_newton_partial",
    "Odes.Radau.radau_hess_newton_fails"
   ],
   "note": "Violated: dechc has a faulty branch (C09); on a regular 2x2 problem it reports success and the Newton iteration is wrong. Proved whenever that branch is not entered and dechc returns 0 (its return value is ignored by decomc)."
  },
  {
   "property": "C115",
   "status": "partial",
   "theorems": [
    "Odes.Alloc.hessenberg_work_partial",
    "Odes.Alloc.hessenberg_work_mismatch",
    "Odes.Alloc.rock4_release_partial",
    "Odes.Alloc.rock4l_assumed_alignment",
    "Odes.Alloc.sizesplit_const"
   ],
   "note": "Violated with ALIGN_BLOCKED: Matrices<true,true> releases memory of _mm_malloc by delete[] as soon as LAPACK wants more than n cells (equivalence proved), and Rock4L declares misaligned pointers aligned unless 8 divides the number of unknowns (equivalence proved). Holds without ALIGN_BLOCKED, and for Rock4 if the arrays of the caller come from allocDoubleArray."
  },
  {
   "property": "C116",
   "status": "proved",
   "theorems": [
    "Odes.Radau.radau_b_stable",
    "Odes.Radau.radau_b_step_error",
    "Odes.Radau.radau_newton_residual",
    "Odes.Radau.radau_b_run_error"
   ],
   "note": "Exact arithmetic; the residuals of the Newton iterations appear in the bound as what the code computes, they are not bounded by the tolerance."
  },
  {
   "property": "C117",
   "status": "partial",
   "theorems": [
    "Odes.Rodas.rodas_calls_agree",
    "Odes.Rock4.rock4_calls_agree_partial",
    "Odes.Rock4.rock4_no_step_keeps_old",
    "Odes.Rock4.rock4_calls_disagree",
    "Odes.Rock4L.rock4l_calls_agree"
   ],
   "note": "Holds in full for Rodas and ROCK4L. ROCK4 violates the claim: LastAcceptedTimeStep and NbStages are neither initialised by the constructor nor reset by a call, so after a call which makes no step they are what the object contained; proved with two new objects. Everything else agrees."
  },
  {
   "property": "C118",
   "status": "partial",
   "theorems": [
    "Odes.Mains.init_kpp",
    "Odes.Mains.init_fkpp",
    "Odes.Mains.init_bz",
    "Odes.Mains.init_ore",
    "Odes.Mains.rodas_main_loops",
    "Odes.Mains.rodas_main_ends",
    "Odes.Mains.rodas_main_throws",
    "Odes.Mains.rock4_main_partial",
    "Odes.Mains.rock4_main_reports_initial",
    "Odes.Mains.symp_main_steps",
    "Odes.Mains.symp_main_years_partial",
    "Odes.Mains.symp_main_days",
    "Odes.Mains.symp_main_half",
    "Odes.Mains.symp_main_run",
    "Odes.Mains.symp_main_file",
    "Odes.Mains.symp_main_fileZ",
    "Odes.Mains.symp_main_outcome",
    "Odes.Mains.symp_main_outcomeZ",
    "Odes.Mains.symp_main_throws",
    "Odes.Mains.symp_main_throwsZ",
    "Odes.Mains.radau_main_loops_partial",
    "Odes.Mains.radau_main_time_partial",
    "Odes.Mains.radau_main_steps",
    "Odes.Mains.radau_main_unique",
    "Odes.Mains.radau_main_aborts",
    "Odes.Mains.radau_main_turns_differ",
    "Odes.Mains.radau_main_empty"
   ],
   "note": "Violated in three programs. ROCK4: the exception is caught and the program goes on to print ok and to write the results at the end of the integration; the file then contains the values at an earlier time, for instance the initial values. SymplecticRK: the loop makes years*365.25*h steps of size h, so the time is right for h=1 only (h=1/2 gives 50 years instead of 200). Holds for init and for the program of Rodas (at least one loop; with none t is not initialised). Radau5: the second of two turns can differ from the first one (radau_main_turns_differ: 4 evaluations in place of 7, C29) and with integration time 0 the program never ends (radau_main_empty); what is printed depends on the previous turns through faccon only. SymplecticRK stops by exactly one of end and exception (symp_main_outcome); the exception is not caught, and whether the lines given to the stream before it reach the file is not determined."
  },
  {
   "property": "C119",
   "status": "proved",
   "theorems": [
    "Odes.rock4_local_error",
    "Odes.rock4_step_lipschitz",
    "Odes.rock4_nonlinear_run",
    "Odes.rock4_nonlinear_call",
    "Odes.nonlinear_constants"
   ],
   "note": "Exact arithmetic with the printed coefficients, real data, shipped tables. The constant C is not explicit: it depends on the polynomials and on the solution, and is found only in front of powers of h. The bound is only claimed when it is at most 1 (so that the values stay near the solution); nothing is said about tolerances."
  },
  {
   "property": "C120",
   "status": "proved",
   "theorems": [
    "Odes.Rodas.jac_exact",
    "Odes.Rodas.jac_numerical",
    "Odes.Rodas.rodas_nonlinear_step",
    "Odes.Rodas.rodas_nonlinear_run",
    "Odes.Rodas.rodas_nonlinear_call",
    "Odes.Rodas.rodas_logistic",
    "Odes.Rodas.rodas_oregonator"
   ],
   "note": "Exact arithmetic with the printed coefficients, real data, linear systems solved as specified (any of the matrix classes). The constant C is not explicit, and is found only in front of powers of h. The bound is only claimed when it is at most 1; a call which throws is not covered."
  },
  {
   "property": "C121",
   "status": "partial",
   "theorems": [
    "Odes.Symp.extrap_long_double",
    "Odes.Symp.extrap_double_partial",
    "Odes.Symp.extrap_tables_agree_partial",
    "Odes.Symp.not_extrap_double_digits"
   ],
   "note": "The nodes are the row sums of the table icoeffs<8,long double>. long double: error at most 2e-26 (table printed with 33 digits, elements up to 6e3). The table for double violates the claim: it is given with 15 digits, but agrees with the other one only to a relative 1.2e-11 (q[1]: last four digits wrong, proved), and predicts with error 7e-10. The class is not used (and extrap.hpp does not compile, line 8); the tables used instead are those of C72."
  },
  {
   "property": "C122",
   "status": "proved",
   "theorems": [
    "Odes.Radau.radau_local",
    "Odes.Radau.radau_step_order",
    "Odes.Radau.radau_nonlinear_run",
    "Odes.Radau.radau_e5_order"
   ],
   "note": "Exact arithmetic with the printed constants, real data, linear systems solved as specified (any of the matrix classes). The stopping test of the Newton iteration is not used: what it leaves enters the bound as the defect of the steps made (the same quantity as in C116). That the stage increments stay below rho is a hypothesis on the run: Newton may converge to stages far away, which solve the equations as well."
  },
  {
   "property": "C123",
   "status": "proved",
   "theorems": [
    "Odes.Symp.symp_table_gauss",
    "Odes.Symp.step_order",
    "Odes.Symp.symp_double_order",
    "Odes.Symp.symp_long_order",
    "Odes.Symp.free_order"
   ],
   "note": "Exponents without bound (no overflow, no underflow), Double=double or both long double (narrow is the identity), successful calls, first=true as in test/main.cc. h0 and C are not explicit; C is found only in front of h^(2s). The bound is claimed while it, plus the movement of the iterates, is below the radius of the neighbourhood."
  },
  {
   "property": "C124",
   "status": "proved",
   "theorems": [
    "Odes.Symp.Test.kepler_exists",
    "Odes.Symp.Test.kepler_orbit",
    "Odes.Symp.Test.kepler_order",
    "Odes.Symp.Test.kepler_rounding",
    "Odes.Symp.Test.kepler_program",
    "Odes.Symp.Test.keplerH_rounding",
    "Odes.Symp.Test.kepler_main",
    "Odes.Symp.Test.circle_order",
    "Odes.Symp.Test.kepler_init"
   ],
   "note": "kepler_main: the file of test/main.cc with the class Kepler2, both kinds of lines. Exponents without bound, Double=double, successful calls, first=true. kepler_order is for any way to compute the right hand side, kepler_program for that of Kepler2.hpp; pow of the library is a parameter with error of at most one unit in the last place. h0 and C are not explicit; C is found only in front of h^(2s). The equations are those of Kepler with time reversed (C89). circle_order: all hypotheses met on the unit circle."
  },
  {
   "property": "C125",
   "status": "proved",
   "theorems": [
    "Odes.rock4_smooth_local",
    "Odes.rock4_smooth_lipschitz",
    "Odes.rock4_smooth_run",
    "Odes.rock4_smooth_call",
    "Odes.smooth_constants",
    "Odes.fisher_smooth",
    "Odes.rock4_fisher_call",
    "Odes.fisher_uniform",
    "Odes.rock4_fisher",
    "Odes.fisher_range",
    "Odes.fisher_range_closed",
    "Odes.fisher_shipped"
   ],
   "note": "Exact arithmetic with the printed coefficients, real data, shipped tables. C is not explicit and is found only in front of powers of h and in the condition C H <= 1. The bound is only claimed when it is at most rho/2. rock4_fisher: from every state strictly between 0 and 1 (the solution exists and stays there). For the initial data of the shipped program (ones and zeros, where the clipped term has a kink) only the existence and the range of the solution are proved (fisher_shipped), not the order."
  },
  {
   "property": "C126",
   "status": "partial",
   "theorems": [
    "Odes.Symp.Test.planets_init",
    "Odes.Symp.Test.planets_start",
    "Odes.Symp.Test.planets_smoothly",
    "Odes.Symp.Test.planets_away",
    "Odes.Symp.Test.planets_exists",
    "Odes.Symp.Test.planets_rounding",
    "Odes.Symp.Test.planets_order_partial",
    "Odes.Symp.Test.planets_program_partial",
    "Odes.Symp.Test.shipped_program",
    "Odes.Symp.Test.outer_evals_ub",
    "Odes.Symp.Test.planets_flat_partial",
    "Odes.Symp.Test.planets_main_partial",
    "Odes.Symp.Test.energy_sol",
    "Odes.Symp.Test.planets_main_energy_partial",
    "Odes.Symp.Test.hamil_rounding",
    "Odes.Symp.Test.planets_main_H_partial",
    "Odes.Symp.Test.rhsL_of",
    "Odes.Symp.Test.evalsL_evalsZ",
    "Odes.Symp.stepZ_iff",
    "Odes.Symp.symp_zeroed_order"
   ],
   "note": "planets_main_partial: the same for every line of values written to the file by the loop of test/main.cc; planets_main_energy_partial: their energy, that of Spec/NBody; planets_main_H_partial: the lines with H, which leaves out the pairs of neighbours (C89), so that it is not constant. planets_flat_partial (with Odes.Symp.symp_zeroed_order and stepZ_iff): the members v, Y, Y1, delta, e, a taken to lie one after the other, so that delta and e are zero after the evaluations of every iteration (evalsL_evalsZ: with every operation rounded, the loops of Outer.hpp on this block of memory have exactly this effect): the bound holds with G+kappa/h in place of G, that is one more rounding of the state per step. planets_program_partial: every operation of operator() rounded (eta explicit), but without its writes beyond the array: the shipped classes write there (negation: outer_evals_ub, C90), so the claim does not hold of the shipped program. The equations are those of Newton with time reversed (C89). init with decimal literals as real numbers; shipped_program: masses and G rounded, any floating point state near the one of init. L contains 1/mu, 3e8 with the rounded mass of Pluto: the bound is meaningful for very small steps only."
  }
 ]
}