{
 "claims": [
  {
   "property": "C01",
   "status": "proved",
   "theorems": [
    "Russell.Sparse.C01_put_exact",
    "Russell.Sparse.C01_new_exact",
    "Russell.Sparse.C01_from_exact"
   ],
   "note": "Every matrix reachable through new/put/reset/from; sizes that fit an i32."
  },
  {
   "property": "C02",
   "status": "proved",
   "theorems": [
    "Russell.Sparse.C02_history_dense",
    "Russell.Sparse.C02_reset_forgets",
    "Russell.Sparse.C02_toDense_overwrites"
   ],
   "note": "Arbitrary (rounding) addition."
  },
  {
   "property": "C03",
   "status": "proved",
   "theorems": [
    "Russell.Sparse.C03_csr_from_coo_dense",
    "Russell.Sparse.C03_csr_from_coo_dense_any",
    "Russell.Sparse.C03_csr_from_empty"
   ],
   "note": ""
  },
  {
   "property": "C04",
   "status": "proved",
   "theorems": [
    "Russell.Sparse.C04_csc_from_coo_dense",
    "Russell.Sparse.C04_csc_from_coo_dense_any",
    "Russell.Sparse.C04_csc_from_empty"
   ],
   "note": ""
  },
  {
   "property": "C05",
   "status": "proved",
   "theorems": [
    "Russell.Sparse.C05_csr_canonical",
    "Russell.Sparse.C05_csc_canonical"
   ],
   "note": ""
  },
  {
   "property": "C06",
   "status": "proved",
   "theorems": [
    "Russell.Sparse.C06_csr_mismatch",
    "Russell.Sparse.C06_csc_mismatch",
    "Russell.Sparse.C06_csr_updates",
    "Russell.Sparse.C06_csc_updates",
    "Russell.Sparse.C06_unequal_lengths_counterexample"
   ],
   "note": ""
  },
  {
   "property": "C07",
   "status": "proved",
   "theorems": [
    "Russell.Sparse.C07_from_csr",
    "Russell.Sparse.C07_from_csc",
    "Russell.Sparse.C07_from_csr_exact",
    "Russell.Sparse.C07_new_from_csr",
    "Russell.Sparse.C07_new_from_csc"
   ],
   "note": ""
  },
  {
   "property": "C08",
   "status": "proved",
   "theorems": [
    "Russell.Sparse.C08_csr_roundtrip",
    "Russell.Sparse.C08_csr_roundtrip_identity",
    "Russell.Sparse.C08_new_csr_roundtrip",
    "Russell.Sparse.C08_csc_roundtrip",
    "Russell.Sparse.C08_csc_roundtrip_identity",
    "Russell.Sparse.C08_new_csc_roundtrip",
    "Russell.Sparse.C08_first_pointer_counterexample"
   ],
   "note": "Without the first-pointer hypothesis the claim fails (counterexample theorem); the property is stated for valid matrices as produced by the conversions or by new with first pointer 0."
  },
  {
   "property": "C09",
   "status": "proved",
   "theorems": [
    "Russell.Sparse.C09_csr_matVecMul",
    "Russell.Sparse.C09_csc_matVecMul",
    "Russell.Sparse.C09_coo_matVecMul",
    "Russell.Sparse.C09_coo_matVecMulUpdate",
    "Russell.Sparse.C09_coo_matTVecMul"
   ],
   "note": ""
  },
  {
   "property": "C10",
   "status": "proved",
   "theorems": [
    "Russell.Sparse.C10_assign",
    "Russell.Sparse.C10_add"
   ],
   "note": ""
  },
  {
   "property": "C11",
   "status": "proved",
   "theorems": [
    "Russell.Sparse.C11_lagrange_block"
   ],
   "note": ""
  },
  {
   "property": "C12",
   "status": "proved",
   "theorems": [
    "Russell.Sparse.C12_actual_nnz"
   ],
   "note": ""
  },
  {
   "property": "C13",
   "status": "partial",
   "theorems": [
    "Russell.Sparse.C13_csr_new_ok_iff",
    "Russell.Sparse.C13_csc_new_ok_iff",
    "Russell.Sparse.C13_csr_new_no_panic_partial",
    "Russell.Sparse.C13_csc_new_no_panic_partial",
    "Russell.Sparse.C13_new_panics_counterexample"
   ],
   "note": "Acceptance is characterised exactly (both directions). The claim 'malformed arrays give Err rather than a panic' is false for pointers beyond the index array (counterexample theorem); proved when no pointer exceeds the number of indices."
  },
  {
   "property": "C14",
   "status": "proved",
   "theorems": [
    "Russell.Sparse.C14_count_vis",
    "Russell.Sparse.C14_vis_entries",
    "Russell.Sparse.C14_count_real",
    "Russell.Sparse.C14_roundtrip_real",
    "Russell.Sparse.C14_roundtrip_real_exact",
    "Russell.Sparse.C14_no_entries_counterexample"
   ],
   "note": "Values are abstract numbers with a writer and a reader of tokens (Faithful). A matrix without kept entries is written but rejected by the reader (C14_no_entries_counterexample)."
  },
  {
   "property": "C15",
   "status": "proved",
   "theorems": [
    "Russell.Sparse.C15_symmetric_real",
    "Russell.Sparse.C15_symmetric_complex",
    "Russell.Sparse.C15_general_real",
    "Russell.Sparse.C15_accepts_real",
    "Russell.Sparse.C15_accepts_complex",
    "Russell.Sparse.C15_panic_only_defects",
    "Russell.Sparse.C15_panic_counterexample",
    "Russell.Sparse.C15_hermitian_counterexample"
   ],
   "note": "The panics are listed in Defect; C15_panic_counterexample exhibits them. Hermitian files are read as general (C15_hermitian_counterexample)."
  },
  {
   "property": "C16",
   "status": "proved",
   "theorems": [
    "Russell.Sparse.C16_verify",
    "Russell.Sparse.C16_errors",
    "Russell.Sparse.C16_max_abs_a",
    "Russell.Sparse.C16_duplicates_counterexample",
    "Russell.Sparse.C16_verify_complex",
    "Russell.Sparse.C16_nan_counterexample"
   ],
   "note": "Real case over an ordered field with abstract square root. Counterexamples: max_abs_a is the maximum over triplets, not over the matrix, when there are duplicates; with complex NaN the error is reported as zero."
  },
  {
   "property": "C17",
   "status": "proved",
   "theorems": [
    "Russell.Sparse.C17_checks",
    "Russell.Sparse.C17_entries",
    "Russell.Sparse.C17_affine",
    "Russell.Sparse.C17_step",
    "Russell.Sparse.C17_restore_counterexample"
   ],
   "note": "Abstract callback that may fail; exactness for affine functions over a field; counterexample: y is not restored when the callback fails."
  },
  {
   "property": "C18",
   "status": "proved",
   "theorems": [
    "Russell.Sparse.Solver.C18_umfpack_protocol",
    "Russell.Sparse.Solver.C18_umfpack_factorize",
    "Russell.Sparse.Solver.C18_cudss_protocol",
    "Russell.Sparse.Solver.C18_cudss_factorize",
    "Russell.Sparse.Solver.C18_mumps_protocol",
    "Russell.Sparse.Solver.C18_mumps_factorize",
    "Russell.Sparse.Solver.C18_failed_refactorization_counterexample",
    "Russell.Sparse.Solver.C18_mumps_other_object_counterexample",
    "Russell.Sparse.Solver.C18_mumps_dangling_counterexample",
    "Russell.Sparse.Solver.C18_mumps_rectangular_counterexample",
    "Russell.Sparse.Solver.C18_cudss_pattern_counterexample",
    "Russell.Sparse.Solver.C18_kinds"
   ],
   "note": "The library is an arbitrary function of the history of calls; memory (for MUMPS) is an arbitrary map from addresses to live arrays. Complex variants have the same code and are covered by the generic entry type. The exceptions in the statement are theorems."
  },
  {
   "property": "C19",
   "status": "proved",
   "theorems": [
    "Russell.Lab.C19_sort2",
    "Russell.Lab.C19_sort3",
    "Russell.Lab.C19_sort4"
   ],
   "note": ""
  },
  {
   "property": "C20",
   "status": "proved",
   "theorems": [
    "Russell.Lab.C20_argsort",
    "Russell.Lab.C20_argsort2",
    "Russell.Lab.C20_argsort3",
    "Russell.Lab.C20_comparator"
   ],
   "note": ""
  },
  {
   "property": "C21",
   "status": "proved",
   "theorems": [
    "Russell.Lab.C21_find_min_max"
   ],
   "note": ""
  },
  {
   "property": "C22",
   "status": "proved",
   "theorems": [
    "Russell.Lab.C22_valleys_and_peaks",
    "Russell.Lab.C22_alternate"
   ],
   "note": ""
  },
  {
   "property": "C23",
   "status": "proved",
   "theorems": [
    "Russell.Lab.C23_new_filled",
    "Russell.Lab.C23_set_get",
    "Russell.Lab.C23_initialized",
    "Russell.Lab.C23_identity_diagonal",
    "Russell.Lab.C23_from",
    "Russell.Lab.C23_from_triangle",
    "Russell.Lab.C23_sources",
    "Russell.Lab.C23_transposed",
    "Russell.Lab.C23_extract",
    "Russell.Lab.C23_row_alias_counterexample"
   ],
   "note": ""
  },
  {
   "property": "C24",
   "status": "proved",
   "theorems": [
    "Russell.Lab.C24_linspace",
    "Russell.Lab.C24_linspace_small",
    "Russell.Lab.C24_differences",
    "Russell.Lab.C24_cumulative",
    "Russell.Lab.C24_split_join"
   ],
   "note": ""
  },
  {
   "property": "C25",
   "status": "proved",
   "theorems": [
    "Russell.Lab.C25_blas_band",
    "Russell.Lab.C25_band_entries",
    "Russell.Lab.C25_band_err"
   ],
   "note": ""
  },
  {
   "property": "C26",
   "status": "proved",
   "theorems": [
    "Russell.Lab.C26_small_mat_inv",
    "Russell.Lab.C26_singular",
    "Russell.Lab.C26_small_accepts",
    "Russell.Lab.C26_outside_block_counterexample",
    "Russell.Lab.C26_refused_nearly_singular",
    "Russell.Lab.C26_accepts",
    "Russell.Lab.C26_refuses_small_column"
   ],
   "note": ""
  },
  {
   "property": "C27",
   "status": "proved",
   "theorems": [
    "Russell.Lab.C27_gaussj_sol",
    "Russell.Lab.C27_gaussj_inv",
    "Russell.Lab.C27_singular",
    "Russell.Lab.C27_small_solve_lin_sys"
   ],
   "note": ""
  },
  {
   "property": "C28",
   "status": "proved",
   "theorems": [
    "Russell.Lab.C28_sort_vec_mat",
    "Russell.Lab.C28_empty_counterexample"
   ],
   "note": ""
  },
  {
   "property": "C29",
   "status": "proved",
   "theorems": [
    "Russell.Lab.C29_array_op",
    "Russell.Lab.C29_array_opx"
   ],
   "note": ""
  },
  {
   "property": "C30",
   "status": "proved",
   "theorems": [
    "Russell.Lab.C30_factorial",
    "Russell.Lab.C30_neg_one_pow",
    "Russell.Lab.C30_sign_ramp_heaviside",
    "Russell.Lab.C30_boxcar"
   ],
   "note": ""
  },
  {
   "property": "C31",
   "status": "proved",
   "theorems": [
    "Russell.Lab.C31_pn",
    "Russell.Lab.C31_pn_values",
    "Russell.Lab.C31_deriv1",
    "Russell.Lab.C31_deriv2"
   ],
   "note": ""
  },
  {
   "property": "C32",
   "status": "proved",
   "theorems": [
    "Russell.Lab.C32_tn",
    "Russell.Lab.C32_tn_deriv1",
    "Russell.Lab.C32_tn_deriv2",
    "Russell.Lab.C32_un",
    "Russell.Lab.C32_un_deriv1",
    "Russell.Lab.C32_un_deriv2"
   ],
   "note": ""
  },
  {
   "property": "C33",
   "status": "proved",
   "theorems": [
    "Russell.Lab.C33_find_span",
    "Russell.Lab.C33_find_span_end",
    "Russell.Lab.C33_new",
    "Russell.Lab.C33_calc_basis",
    "Russell.Lab.C33_calc_basis_end",
    "Russell.Lab.C33_out_of_range",
    "Russell.Lab.C33_unclamped_counterexample",
    "Russell.Lab.C33_recursive_basis",
    "Russell.Lab.C33_calc_point",
    "Russell.Lab.C33_bounding_box"
   ],
   "note": "Exact arithmetic (ordered field). Derivatives of the basis functions are not modelled."
  },
  {
   "property": "C34",
   "status": "proved",
   "theorems": [
    "Russell.Lab.Interp.C34_new",
    "Russell.Lab.Interp.C34_new_error",
    "Russell.Lab.Interp.C34_matrices",
    "Russell.Lab.Interp.C34_exact",
    "Russell.Lab.Interp.C34_nodes",
    "Russell.Lab.Interp.C34_errors",
    "Russell.Lab.Interp.C34_gauss_ends_counterexample",
    "Russell.Lab.Interp.C34_psi",
    "Russell.Lab.Interp.C34_eval_basis",
    "Russell.Lab.Interp.C34_eval",
    "Russell.Lab.Interp.C34_data",
    "Russell.Lab.Interp.C34_deriv1",
    "Russell.Lab.Interp.C34_deriv2"
   ],
   "note": "Over the reals with f64 infinities for division by zero. On the Chebyshev-Gauss grid the derivatives at -1 and 1 are those at the first and last nodes (C34_gauss_ends_counterexample)."
  },
  {
   "property": "C35",
   "status": "proved",
   "theorems": [
    "Russell.Lab.C35_brent",
    "Russell.Lab.C35_success",
    "Russell.Lab.C35_near_root",
    "Russell.Lab.C35_interpolation"
   ],
   "note": "Exact arithmetic; the near-root theorem is over the reals."
  },
  {
   "property": "C36",
   "status": "proved",
   "theorems": [
    "Russell.Lab.C36_bracket",
    "Russell.Lab.C36_minimum_inside",
    "Russell.Lab.C36_first_probe",
    "Russell.Lab.C36_strict_counterexample"
   ],
   "note": "The strict inequalities of the documentation fail (counterexample theorem); the property states the true version."
  },
  {
   "property": "C37",
   "status": "proved",
   "theorems": [
    "Russell.Lab.C37_brent",
    "Russell.Lab.C37_parabola"
   ],
   "note": "Exact arithmetic."
  },
  {
   "property": "C38",
   "status": "proved",
   "theorems": [
    "Russell.Lab.C38_leading",
    "Russell.Lab.C38_one_root",
    "Russell.Lab.C38_three_roots",
    "Russell.Lab.C38_multiple_root",
    "Russell.Lab.C38_cutoff_counterexample"
   ],
   "note": "Real arithmetic (cos, acos, cbrt exact). Inside of the numerical cut-off the claim fails (counterexample theorem), so the property is stated outside of it."
  },
  {
   "property": "C39",
   "status": "proved",
   "theorems": [
    "Russell.Lab.C39_length",
    "Russell.Lab.C39_least_squares",
    "Russell.Lab.C39_through_zero",
    "Russell.Lab.C39_degenerate"
   ],
   "note": "Exact arithmetic."
  },
  {
   "property": "C40",
   "status": "proved",
   "theorems": [
    "Russell.Lab.C40_accepts",
    "Russell.Lab.C40_columns",
    "Russell.Lab.C40_nodup",
    "Russell.Lab.C40_missing_label_counterexample",
    "Russell.Lab.C40_duplicate_labels_counterexample"
   ],
   "note": "The parser of the values is a parameter; the file is text. Missing columns at the end and duplicate given labels are accepted (counterexamples)."
  },
  {
   "property": "C41",
   "status": "proved",
   "theorems": [
    "Russell.Stat.C41_histogram",
    "Russell.Stat.C41_few_stations",
    "Russell.Stat.C41_total",
    "Russell.Stat.C41_nan_counterexample"
   ],
   "note": "For non-decreasing stations over a linear order; NaN is the subject of C41_nan_counterexample."
  },
  {
   "property": "C42",
   "status": "proved",
   "theorems": [
    "Russell.Stat.C42_quantile",
    "Russell.Stat.C42_quantile_sorted",
    "Russell.Stat.C42_quantile_node",
    "Russell.Stat.C42_quartiles",
    "Russell.Stat.C42_median",
    "Russell.Stat.C42_inter_quartile_range"
   ],
   "note": "Over an Archimedean ordered field with floor; ceil(x) as used by the code."
  },
  {
   "property": "C43",
   "status": "proved",
   "theorems": [
    "Russell.Stat.C43_outliers",
    "Russell.Stat.C43_order"
   ],
   "note": "The order of equal values is that of the stable sort."
  },
  {
   "property": "C44",
   "status": "proved",
   "theorems": [
    "Russell.Stat.C44_statistics",
    "Russell.Stat.C44_small",
    "Russell.Stat.C44_variance_nonneg",
    "Russell.Stat.C44_mean_between",
    "Russell.Stat.C44_std_dev"
   ],
   "note": "Exact arithmetic; the square root is any function s with s(x)^2 = x for x >= 0."
  },
  {
   "property": "C45",
   "status": "proved",
   "theorems": [
    "Russell.Pde.C45_numbering",
    "Russell.Pde.C45_history",
    "Russell.Pde.C45_out_of_range"
   ],
   "note": "Prescribed indices in range (out of range panics: C45_out_of_range)."
  },
  {
   "property": "C46",
   "status": "proved",
   "theorems": [
    "Russell.Pde.C46_get_dx_1d",
    "Russell.Pde.C46_new_1d",
    "Russell.Pde.C46_new_2d",
    "Russell.Pde.C46_uniform_1d",
    "Russell.Pde.C46_uniform_2d",
    "Russell.Pde.C46_cgl_2d",
    "Russell.Pde.C46_indexing",
    "Russell.Pde.C46_sides",
    "Russell.Pde.C46_for_each_coord",
    "Russell.Pde.C46_get_dx_dy"
   ],
   "note": "Exact arithmetic; the cosine in the Chebyshev-Gauss-Lobatto grid is any function."
  },
  {
   "property": "C47",
   "status": "proved",
   "theorems": [
    "Russell.Pde.C47_validate_2d",
    "Russell.Pde.C47_functions_2d",
    "Russell.Pde.C47_get_nodes_2d",
    "Russell.Pde.C47_enabled_corner_counterexample",
    "Russell.Pde.C47_enabled_ij_partial",
    "Russell.Pde.C47_validate_1d",
    "Russell.Pde.C47_get_nodes_1d",
    "Russell.Pde.C47_functions_1d",
    "Russell.Pde.C47_side_1d"
   ],
   "note": "Histories of any length in 1D and 2D; boundary functions are total functions. The documented behaviour of enabled_ij at corners is false (counterexample theorem); C47_enabled_ij_partial says what it returns."
  },
  {
   "property": "C48",
   "status": "proved",
   "theorems": [
    "Russell.Pde.C48_new_1d",
    "Russell.Pde.C48_sps_1d",
    "Russell.Pde.C48_lmm_1d",
    "Russell.Pde.C48_no_unknown_1d",
    "Russell.Pde.C48_vectors_1d",
    "Russell.Pde.C48_solve_1d",
    "Russell.Pde.C48_solve_ok_1d",
    "Russell.Pde.C48_new_2d",
    "Russell.Pde.C48_sps_2d",
    "Russell.Pde.C48_lmm_2d",
    "Russell.Pde.C48_no_unknown_2d",
    "Russell.Pde.C48_vectors_2d",
    "Russell.Pde.C48_solve_2d",
    "Russell.Pde.C48_solve_ok_2d"
   ],
   "note": "Exact arithmetic over an ordered field; objects built with the public functions (grid, boundary conditions, new); sizes that fit an i32. The linear solver is abstract: it returns solutions only. Without unknown nodes get_matrices_sps panics (theorem)."
  },
  {
   "property": "C49",
   "status": "proved",
   "theorems": [
    "Russell.Pde.C49_systems_1d",
    "Russell.Pde.C49_solve_1d",
    "Russell.Pde.C49_systems_2d",
    "Russell.Pde.C49_solve_2d"
   ],
   "note": "Both for the assembled systems (every solution of one gives a solution of the other) and for the returned vectors (equal for positive diffusion coefficients and alpha >= 0)."
  },
  {
   "property": "C50",
   "status": "proved",
   "theorems": [
    "Russell.Ode.C50_n_step_max_counterexample",
    "Russell.Ode.C50_station_near_end_counterexample",
    "Russell.Ode.C50_reported",
    "Russell.Ode.C50_recorded",
    "Russell.Ode.C50_last_ready",
    "Russell.Ode.C50_h_out",
    "Russell.Ode.C50_x_out_accepts",
    "Russell.Ode.C50_x_out",
    "Russell.Ode.C50_initialize",
    "Russell.Ode.C50_small_h_out_counterexample"
   ],
   "note": "Exact arithmetic in an ordered field with floor; method and callbacks arbitrary. h_out must exceed 1e-13 (C50_small_h_out_counterexample) and the stations are those of initialize; the final report is made at the end of the solution, at most 10 eps before x1. Failed assertions in Output::last: C50_n_step_max_counterexample, C50_station_near_end_counterexample."
  },
  {
   "property": "C51",
   "status": "proved",
   "theorems": [
    "Russell.Lab.C51_logistic",
    "Russell.Lab.C51_smooth_ramp_deriv1",
    "Russell.Lab.C51_smooth_ramp_deriv2",
    "Russell.Lab.C51_smooth_ramp_near"
   ],
   "note": ""
  },
  {
   "property": "C52",
   "status": "proved",
   "theorems": [
    "Russell.Lab.C52_gauss_aux",
    "Russell.Lab.C52_gauss_points",
    "Russell.Lab.C52_lobatto_points"
   ],
   "note": ""
  },
  {
   "property": "C53",
   "status": "proved",
   "theorems": [
    "Russell.Lab.C53_small_mat_add",
    "Russell.Lab.C53_small_mat_update",
    "Russell.Lab.C53_small_mat_mat_mul",
    "Russell.Lab.C53_panics"
   ],
   "note": ""
  },
  {
   "property": "C54",
   "status": "proved",
   "theorems": [
    "Russell.Stat.C54_uniform_cdf",
    "Russell.Stat.C54_uniform_moments",
    "Russell.Stat.C54_gumbel_cdf",
    "Russell.Stat.C54_gumbel_mu_sig",
    "Russell.Stat.C54_frechet_cdf",
    "Russell.Stat.C54_normal",
    "Russell.Stat.C54_normal_moments",
    "Russell.Stat.C54_lognormal",
    "Russell.Stat.C54_lognormal_moments",
    "Russell.Stat.C54_lognormal_mu_sig"
   ],
   "note": "Over the reals with exact constants; erf is any function with the derivative of the error function; the gamma function (mean and variance of Frechet) and the samplers are not modelled."
  },
  {
   "property": "C55",
   "status": "proved",
   "theorems": [
    "Russell.Pde.C55_exact_1d",
    "Russell.Pde.C55_periodic_counterexample",
    "Russell.Pde.C55_exact_2d",
    "Russell.Pde.C55_corner_counterexample"
   ],
   "note": "Exact arithmetic. The two counterexample theorems show why periodic directions are excluded."
  },
  {
   "property": "C56",
   "status": "proved",
   "theorems": [
    "Russell.Lab.C56_norm_max",
    "Russell.Lab.C56_norm_sum",
    "Russell.Lab.C56_norm_zero",
    "Russell.Lab.C56_norm_chunk",
    "Russell.Lab.C56_max_abs_diff",
    "Russell.Lab.C56_max_scaled",
    "Russell.Lab.C56_rms_scaled"
   ],
   "note": "Exact arithmetic over an ordered field with an abstract square root; the BLAS kernels idamax, dasum, dnrm2 are modelled by their definition."
  },
  {
   "property": "C57",
   "status": "partial",
   "theorems": [
    "Russell.Sparse.C57_roundtrip_complex_partial",
    "Russell.Sparse.C57_complex_counterexample"
   ],
   "note": "The claim is false of the code: write_matrix_market.rs:261 tests |im| < tol (C57_complex_counterexample). Proved for matrices in which that test agrees with |im| > tol on every stored value."
  },
  {
   "property": "C58",
   "status": "proved",
   "theorems": [
    "Russell.Ode.C58_one_step_counterexample",
    "Russell.Ode.C58_overshoot_counterexample",
    "Russell.Ode.C58_equal_steps",
    "Russell.Ode.C58_variable_steps",
    "Russell.Ode.C58_step_record"
   ],
   "note": "Exact arithmetic. In f64 one step too many may be made (C58_overshoot_counterexample, evaluated with a model of rounding to nearest even); reaching x1 with the last step allowed is an error (C58_one_step_counterexample)."
  },
  {
   "property": "C59",
   "status": "proved",
   "theorems": [
    "Russell.Ode.C59_variable_steps",
    "Russell.Ode.C59_equal_steps",
    "Russell.Ode.C59_steps_determine",
    "Russell.Ode.C59_no_panic",
    "Russell.Ode.C59_dense5"
   ],
   "note": "Exact arithmetic over an ordered field; sqrt and powf are parameters with the properties used (MathFns.Good)."
  },
  {
   "property": "C60",
   "status": "proved",
   "theorems": [
    "Russell.Ode.C60_local_error",
    "Russell.Ode.C60_dense5_error",
    "Russell.Ode.C60_order",
    "Russell.Ode.C60_doPri8",
    "Russell.Ode.C60_doPri8_nodes",
    "Russell.Ode.C60_doPri8_step",
    "Russell.Ode.C60_step",
    "Russell.Ode.C60_dense5"
   ],
   "note": "Polynomial right-hand sides (every composition of + and *; formal power series and, over the reals, actual solutions). For DoPri8 the coefficients are decimal, so its order conditions hold within 3e-29 (C60_doPri8, C60_doPri8_nodes, C60_doPri8_step)."
  },
  {
   "property": "C61",
   "status": "proved",
   "theorems": [
    "Russell.Ode.C61_update_params_counterexample",
    "Russell.Ode.C61_accepted_step",
    "Russell.Ode.C61_rejected_step"
   ],
   "note": "For parameters as given to new; after update_params the bounds are stale (C61_update_params_counterexample)."
  },
  {
   "property": "C62",
   "status": "partial",
   "theorems": [
    "Russell.Ode.C62_ends",
    "Russell.Ode.C62_smooth_partial",
    "Russell.Ode.C62_smooth8_counterexample"
   ],
   "note": "Ends: both methods. Derivatives: DoPri5 at both ends, DoPri8 at the left end. The claim is false for DoPri8 at the right end, because k[11] is used for the right-hand side at the new point (C62_smooth8_counterexample)."
  },
  {
   "property": "C63",
   "status": "partial",
   "theorems": [
    "Russell.Ode.C63_estimate_error_partial",
    "Russell.Ode.C63_doPri8_estimators",
    "Russell.Ode.C63_doPri8_estimate",
    "Russell.Ode.C63_estimator_partial",
    "Russell.Ode.C63_estimate_partial",
    "Russell.Ode.C63_fehlberg7_counterexample"
   ],
   "note": "The claim is false for Fehlberg7, declared 8 instead of 7 (C63_fehlberg7_counterexample). DoPri8 combines two estimators; each of them vanishes to its order within 5e-28, the precision of the decimal coefficients (C63_doPri8_estimators, C63_doPri8_estimate)."
  },
  {
   "property": "C64",
   "status": "proved",
   "theorems": [
    "Russell.Ode.C64_detect",
    "Russell.Ode.C64_error"
   ],
   "note": ""
  },
  {
   "property": "C65",
   "status": "proved",
   "theorems": [
    "Russell.Tensor.C65_unique",
    "Russell.Tensor.C65_set_std_matrix",
    "Russell.Tensor.C65_from_std_matrix",
    "Russell.Tensor.C65_get_std",
    "Russell.Tensor.C65_to_std_matrix",
    "Russell.Tensor.C65_as_std_matrix",
    "Russell.Tensor.C65_to_std_matrix_counterexample",
    "Russell.Tensor.C65_as_std_matrix_2d",
    "Russell.Tensor.C65_as_general",
    "Russell.Tensor.C65_sym2d_as_symmetric",
    "Russell.Tensor.C65_identity",
    "Russell.Tensor.C65_clear",
    "Russell.Tensor.C65_sym_set_std",
    "Russell.Tensor.C65_sym_add_std",
    "Russell.Tensor.C65_sym_set_std_counterexample",
    "Russell.Tensor.C65_set_vector",
    "Russell.Tensor.C65_set_tensor",
    "Russell.Tensor.C65_update"
   ],
   "note": "Over the reals with exact roots, default (array) build. to_std_matrix and sym_set_std in 2D: see the counterexamples."
  },
  {
   "property": "C66",
   "status": "proved",
   "theorems": [
    "Russell.Tensor.C66_determinant",
    "Russell.Tensor.C66_transpose",
    "Russell.Tensor.C66_trace",
    "Russell.Tensor.C66_norm",
    "Russell.Tensor.C66_squared",
    "Russell.Tensor.C66_deviator",
    "Russell.Tensor.C66_deviator_norm",
    "Russell.Tensor.C66_deviator_determinant",
    "Russell.Tensor.C66_inverse",
    "Russell.Tensor.C66_decompose",
    "Russell.Tensor.C66_decompose_counterexample",
    "Russell.Tensor.C66_axial_vector",
    "Russell.Tensor.C66_t2_add",
    "Russell.Tensor.C66_ddot",
    "Russell.Tensor.C66_dot",
    "Russell.Tensor.C66_t2_dot_t1",
    "Russell.Tensor.C66_t1_dot_t2",
    "Russell.Tensor.C66_dyad",
    "Russell.Tensor.C66_dyad_counterexample",
    "Russell.Tensor.C66_mismatch",
    "Russell.Tensor.C66_tensor1"
   ],
   "note": "Over the reals with exact roots. decompose assumes zero skew components in the given sym, the 2D dyad assumes plane vectors; both are needed (counterexamples)."
  },
  {
   "property": "C67",
   "status": "proved",
   "theorems": [
    "Russell.Tensor.C67_principal",
    "Russell.Tensor.C67_deviatoric",
    "Russell.Tensor.C67_jj",
    "Russell.Tensor.C67_stress_strain",
    "Russell.Tensor.C67_symmetric",
    "Russell.Tensor.C67_sigma_t_counterexample",
    "Russell.Tensor.C67_rotation",
    "Russell.Tensor.C67_lode_range",
    "Russell.Tensor.C67_lode_principal",
    "Russell.Tensor.C67_from_octahedral",
    "Russell.Tensor.C67_from_octahedral_alpha"
   ],
   "note": "Over the reals. invariant_sigma_t is the norm of the deviator, which is sqrt(2 J2) for symmetric tensors only (counterexample)."
  },
  {
   "property": "C68",
   "status": "proved",
   "theorems": [
    "Russell.Tensor.C68_norm",
    "Russell.Tensor.C68_jj2",
    "Russell.Tensor.C68_jj3",
    "Russell.Tensor.C68_sigma_s",
    "Russell.Tensor.C68_p",
    "Russell.Tensor.C68_refused",
    "Russell.Tensor.C68_sigma_t",
    "Russell.Tensor.C68_q",
    "Russell.Tensor.C68_lode"
   ],
   "note": "Over the reals; gradients restricted to curves within the representation of sigma."
  },
  {
   "property": "C69",
   "status": "proved",
   "theorems": [
    "Russell.Tensor.C69_constant_ii",
    "Russell.Tensor.C69_constant_tt",
    "Russell.Tensor.C69_constant_jj",
    "Russell.Tensor.C69_constant_pp_iso",
    "Russell.Tensor.C69_constant_pp_sym",
    "Russell.Tensor.C69_constant_pp_skew",
    "Russell.Tensor.C69_constant_pp_dev",
    "Russell.Tensor.C69_constant_pp_symdev",
    "Russell.Tensor.C69_set_pp_symdev",
    "Russell.Tensor.C69_calc_inverse",
    "Russell.Tensor.C69_calc_inverse_accepts",
    "Russell.Tensor.C69_calc_inverse_singular",
    "Russell.Tensor.C69_calc_inverse_mismatch",
    "Russell.Tensor.C69_update_mismatch",
    "Russell.Tensor.C69_sym_set_std_general",
    "Russell.Tensor.C69_sym_set_std_counterexample",
    "Russell.Tensor.C69_get_std",
    "Russell.Tensor.C69_unique",
    "Russell.Tensor.C69_set_std_array",
    "Russell.Tensor.C69_from_std_array",
    "Russell.Tensor.C69_as_std_matrix",
    "Russell.Tensor.C69_set_std_matrix",
    "Russell.Tensor.C69_to_std_array",
    "Russell.Tensor.C69_as_std_array",
    "Russell.Tensor.C69_to_std_array_counterexample",
    "Russell.Tensor.C69_set_tensor",
    "Russell.Tensor.C69_update",
    "Russell.Tensor.C69_sym_set_std"
   ],
   "note": "Over the reals with exact roots. to_std_array assumes zero out-of-plane entries and sym_set_std an in-plane component in 2D; both are needed (counterexamples)."
  },
  {
   "property": "C70",
   "status": "proved",
   "theorems": [
    "Russell.Tensor.C70_t4_add",
    "Russell.Tensor.C70_t4_ddot_t4_update",
    "Russell.Tensor.C70_t4_ddot_t4",
    "Russell.Tensor.C70_t2_dyad_t2",
    "Russell.Tensor.C70_t2_dyad_t2_update",
    "Russell.Tensor.C70_t4_ddot_t2_update",
    "Russell.Tensor.C70_t4_ddot_t2",
    "Russell.Tensor.C70_t2_ddot_t4",
    "Russell.Tensor.C70_t2_ddot_t4_ddot_t2",
    "Russell.Tensor.C70_t4_ddot_t2_dyad_t2_ddot_t4",
    "Russell.Tensor.C70_t2_odyad_t2",
    "Russell.Tensor.C70_t2_udyad_t2",
    "Russell.Tensor.C70_t2_ssd",
    "Russell.Tensor.C70_t2_qsd_t2",
    "Russell.Tensor.C70_mismatch",
    "Russell.Tensor.C70_mismatch4",
    "Russell.Tensor.C70_mismatch_products"
   ],
   "note": "Over the reals with exact roots."
  },
  {
   "property": "C71",
   "status": "proved",
   "theorems": [
    "Russell.Tensor.C71_inverse",
    "Russell.Tensor.C71_inverse_sym",
    "Russell.Tensor.C71_squared",
    "Russell.Tensor.C71_squared_sym",
    "Russell.Tensor.C71_jj2",
    "Russell.Tensor.C71_aux_jj3_new",
    "Russell.Tensor.C71_jj3",
    "Russell.Tensor.C71_aux_sigma_t_new",
    "Russell.Tensor.C71_sigma_t",
    "Russell.Tensor.C71_q",
    "Russell.Tensor.C71_aux_lode_new",
    "Russell.Tensor.C71_lode",
    "Russell.Tensor.C71_refused"
   ],
   "note": "Over the reals with exact roots; Hessians as derivatives along curves within the symmetric tensors."
  },
  {
   "property": "C72",
   "status": "proved",
   "theorems": [
    "Russell.Tensor.C72_new",
    "Russell.Tensor.C72_set",
    "Russell.Tensor.C72_stress",
    "Russell.Tensor.C72_stress_mismatch",
    "Russell.Tensor.C72_bulk_shear",
    "Russell.Tensor.C72_set_bulk_shear",
    "Russell.Tensor.C72_get_bulk_shear",
    "Russell.Tensor.C72_energy",
    "Russell.Tensor.C72_plane_stress",
    "Russell.Tensor.C72_out_of_plane_refused",
    "Russell.Tensor.C72_compliance_inverse",
    "Russell.Tensor.C72_compliance",
    "Russell.Tensor.C72_compliance_plane_stress",
    "Russell.Tensor.C72_compliance_mismatch_counterexample",
    "Russell.Tensor.C72_compliance_counterexample"
   ],
   "note": "Over the reals. calc_compliance on a mismatching tensor returns an error where the documentation says panic; the tolerance of the inverse is absolute, so tiny moduli are refused (counterexamples)."
  },
  {
   "property": "C73",
   "status": "proved",
   "theorems": [
    "Russell.Tensor.C73_as_std_matrix_a",
    "Russell.Tensor.C73_as_std_matrix_b",
    "Russell.Tensor.C73_to_std_matrix_dims",
    "Russell.Tensor.C73_set_std_matrix",
    "Russell.Tensor.C73_to_std_array",
    "Russell.Tensor.C73_as_std_array",
    "Russell.Tensor.C73_to_std_array_counterexample",
    "Russell.Tensor.C73_set_tensor",
    "Russell.Tensor.C73_update",
    "Russell.Tensor.C73_add",
    "Russell.Tensor.C73_mismatch",
    "Russell.Tensor.C73_sym_set_std",
    "Russell.Tensor.C73_sym_set_std_counterexample",
    "Russell.Tensor.C73_dot_t1",
    "Russell.Tensor.C73_ddot_t2",
    "Russell.Tensor.C73_contr_mismatch",
    "Russell.Tensor.C73_permutation",
    "Russell.Tensor.C73_permutation_unique",
    "Russell.Tensor.C73_get_std",
    "Russell.Tensor.C73_representable_a",
    "Russell.Tensor.C73_representable_b",
    "Russell.Tensor.C73_unique",
    "Russell.Tensor.C73_set_std_array",
    "Russell.Tensor.C73_from_std_array"
   ],
   "note": "Over the reals with exact roots. In 2D to_std_array keeps stale out-of-plane entries and sym_set_std loses an out-of-plane component (counterexamples)."
  },
  {
   "property": "C74",
   "status": "proved",
   "theorems": [
    "Russell.Lab.C74_decomposition",
    "Russell.Lab.C74_decomposition'",
    "Russell.Lab.C74_eigenvectors",
    "Russell.Lab.C74_all_eigenvalues",
    "Russell.Lab.C74_each_eigenvalue",
    "Russell.Lab.C74_checks",
    "Russell.Lab.C74_total",
    "Russell.Lab.C74_diagonal",
    "Russell.Lab.C74_two",
    "Russell.Lab.C74_scale_counterexample"
   ],
   "note": "Exact real arithmetic; the tolerance is absolute, so that tiny matrices are returned as they are (counterexample). Convergence within 20 iterations is proved for n <= 2 and nearly diagonal matrices only; otherwise results are characterised if returned."
  },
  {
   "property": "C75",
   "status": "proved",
   "theorems": [
    "Russell.Tensor.C75_new",
    "Russell.Tensor.C75_decompose",
    "Russell.Tensor.C75_eigenvalues",
    "Russell.Tensor.C75_total",
    "Russell.Tensor.C75_compose",
    "Russell.Tensor.C75_round_trip",
    "Russell.Tensor.C75_compose_mul",
    "Russell.Tensor.C75_octahedral"
   ],
   "note": "Exact real arithmetic; on top of C74."
  },
  {
   "property": "C76",
   "status": "proved",
   "theorems": [
    "Russell.Nonlin.C76_status_never_returned",
    "Russell.Nonlin.C76_fixed_status",
    "Russell.Nonlin.C76_steps_success",
    "Russell.Nonlin.C76_steps_counterexample",
    "Russell.Nonlin.C76_success_counterexample",
    "Russell.Nonlin.C76_fixed_success_counterexample",
    "Russell.Nonlin.C76_initial_stepsize",
    "Russell.Nonlin.C76_stepsize_accepted",
    "Russell.Nonlin.C76_stepsize_rejected",
    "Russell.Nonlin.C76_m_failure_counterexample",
    "Russell.Nonlin.C76_pid_after_tiny",
    "Russell.Nonlin.C76_nan_stepsize",
    "Russell.Nonlin.C76_precise_stop_hides",
    "Russell.Nonlin.C76_failure_not_restored",
    "Russell.Nonlin.C76_auto",
    "Russell.Nonlin.C76_fixed"
   ],
   "note": "Exact real arithmetic with a predicate for finite numbers; linear solver and user functions arbitrary. Several statements of the documentation fail and are given as counterexamples."
  },
  {
   "property": "C77",
   "status": "proved",
   "theorems": [
    "Russell.Nonlin.C77_residuals",
    "Russell.Nonlin.C77_newton",
    "Russell.Nonlin.C77_rdiff_three_points",
    "Russell.Nonlin.C77_listed",
    "Russell.Nonlin.C77_auto",
    "Russell.Nonlin.C77_fixed",
    "Russell.Nonlin.C77_monotone",
    "Russell.Nonlin.C77_target",
    "Russell.Nonlin.C77_target_min",
    "Russell.Nonlin.C77_wrong_direction",
    "Russell.Nonlin.C77_rdiff_nonneg",
    "Russell.Nonlin.C77_rdiff_straight",
    "Russell.Nonlin.C77_affine_step",
    "Russell.Nonlin.C77_affine",
    "Russell.Nonlin.C77_write_matrix",
    "Russell.Nonlin.C77_write_matrix_run",
    "Russell.Nonlin.C77_write_matrix_zero",
    "Russell.Nonlin.C77_wrong_direction_counterexample"
   ],
   "note": "Exact real arithmetic; on top of C76."
  },
  {
   "property": "C78",
   "status": "proved",
   "theorems": [
    "Russell.Nonlin.C78_progress",
    "Russell.Nonlin.C78_first_step",
    "Russell.Nonlin.C78_target",
    "Russell.Nonlin.C78_target_predictor",
    "Russell.Nonlin.C78_theta_sticks",
    "Russell.Nonlin.C78_reject_keeps_tangent",
    "Russell.Nonlin.C78_write_matrix_panic",
    "Russell.Nonlin.C78_rdiff_nonneg",
    "Russell.Nonlin.C78_rdiff_straight",
    "Russell.Nonlin.C78_affine_step",
    "Russell.Nonlin.C78_affine",
    "Russell.Nonlin.C78_stale_tangent_counterexample",
    "Russell.Nonlin.C78_initial_tangent",
    "Russell.Nonlin.C78_correction",
    "Russell.Nonlin.C78_auto",
    "Russell.Nonlin.C78_fixed"
   ],
   "note": "Exact real arithmetic and exact linear solvers; on top of C76. Deviations of the code are stated as counterexamples or as theorems about what happens instead."
  },
  {
   "property": "C79",
   "status": "proved",
   "theorems": [
    "Russell.Lab.C79_validate",
    "Russell.Lab.C79_armijo",
    "Russell.Lab.C79_complete",
    "Russell.Lab.C79_default_min_alpha",
    "Russell.Lab.C79_wrappers",
    "Russell.Lab.C79_differentiable"
   ],
   "note": "Exact arithmetic over an ordered field (real numbers for the differentiability statement)."
  },
  {
   "property": "C80",
   "status": "proved",
   "theorems": [
    "Russell.Lab.C80_solve",
    "Russell.Lab.C80_validate",
    "Russell.Lab.C80_affine_step",
    "Russell.Lab.C80_affine",
    "Russell.Lab.C80_last_update_unchecked_counterexample",
    "Russell.Lab.C80_line_search_step",
    "Russell.Lab.C80_line_search_exhausted_counterexample"
   ],
   "note": "Exact arithmetic; dgesv is a parameter that returns a solution or an error. Two deviations are given as counterexamples."
  },
  {
   "property": "C81",
   "status": "proved",
   "theorems": [
    "Russell.Lab.C81_forward7",
    "Russell.Lab.C81_backward7",
    "Russell.Lab.C81_second_forward8",
    "Russell.Lab.C81_second_backward8",
    "Russell.Lab.C81_second_central9",
    "Russell.Lab.C81_exact",
    "Russell.Lab.C81_central5",
    "Russell.Lab.C81_central5_exact",
    "Russell.Lab.C81_central5_estimates",
    "Russell.Lab.C81_central5_selection",
    "Russell.Lab.C81_approx_eq",
    "Russell.Lab.C81_num_jacobian",
    "Russell.Lab.C81_num_jacobian_error",
    "Russell.Lab.C81_vec_deriv1",
    "Russell.Lab.C81_vec_deriv2",
    "Russell.Lab.C81_vec_deriv_error"
   ],
   "note": "Exact arithmetic; rounding errors are outside of the model; powf(v,1/3) is a parameter with values in (0,1] on (0,1]."
  },
  {
   "property": "C82",
   "status": "proved",
   "theorems": [
    "Russell.Ode.C82_step",
    "Russell.Ode.C82_affine",
    "Russell.Ode.C82_solve",
    "Russell.Ode.C82_modified_newton_counterexample",
    "Russell.Ode.C82_last_iteration_counterexample"
   ],
   "note": "Exact real arithmetic; linear solvers are parameters that return a solution or an error. Two deviations are given as counterexamples."
  },
  {
   "property": "C83",
   "status": "proved",
   "theorems": [
    "Russell.Ode.C83_tolerances_ok",
    "Russell.Ode.C83_tolerances",
    "Russell.Ode.C83_radau_tolerance",
    "Russell.Ode.C83_set_tolerances",
    "Russell.Ode.C83_newton_tolerance_counterexample",
    "Russell.Ode.C83_validate_iff",
    "Russell.Ode.C83_defaults",
    "Russell.Ode.C83_valid_suffices",
    "Russell.Ode.C83_m_min_counterexample",
    "Russell.Ode.C83_m_max_counterexample",
    "Russell.Ode.C83_new",
    "Russell.Ode.C83_solve_no_panic",
    "Russell.Ode.C83_update"
   ],
   "note": "Ranges (C83_validate_iff), defaults (C83_defaults), tolerances (C83_tolerances*, C83_radau_tolerance, C83_set_tolerances), construction (C83_new, C83_update), link to the methods (C83_valid_suffices, C83_solve_no_panic). What does not hold: C83_*_counterexample. Options of the linear solver are not modelled."
  },
  {
   "property": "C84",
   "status": "proved",
   "theorems": [
    "Russell.Ode.C84_nodes",
    "Russell.Ode.C84_transformation",
    "Russell.Ode.C84_estimator",
    "Russell.Ode.C84_polynomial",
    "Russell.Ode.C84_interpolation",
    "Russell.Ode.C84_starting_values",
    "Russell.Ode.C84_increment",
    "Russell.Ode.C84_stationary",
    "Russell.Ode.C84_linear",
    "Russell.Ode.C84_quadrature"
   ],
   "note": "Constants against the exact tableau (C84_nodes, C84_transformation, C84_estimator); Newton iterations (C84_increment, C84_stationary, C84_linear, C84_quadrature); polynomial (C84_polynomial, C84_interpolation)."
  },
  {
   "property": "C85",
   "status": "proved",
   "theorems": [
    "Russell.Ode.C85_equal_diverging_counterexample",
    "Russell.Ode.C85_old_matrices",
    "Russell.Ode.C85_second_solve_counterexample",
    "Russell.Ode.C85_last_step_counterexample",
    "Russell.Ode.C85_step",
    "Russell.Ode.C85_variable_steps",
    "Russell.Ode.C85_equal_steps",
    "Russell.Ode.C85_accept",
    "Russell.Ode.C85_reject",
    "Russell.Ode.C85_reject_counterexample",
    "Russell.Ode.C85_dense",
    "Russell.Ode.C85_concurrent"
   ],
   "note": "C85_step, C85_variable_steps, C85_equal_steps, C85_accept, C85_reject, C85_dense, C85_concurrent, C85_old_matrices; deviations as counterexamples: equal steps accept diverging iterations, the second solve keeps the Jacobian of the first, the last step keeps the factorization of another stepsize, m_max < 1."
  },
  {
   "property": "C86",
   "status": "proved",
   "theorems": [
    "Russell.Lab.C86_gauss",
    "Russell.Lab.C86_integrate",
    "Russell.Lab.C86_polynomial",
    "Russell.Lab.C86_affine",
    "Russell.Lab.C86_validate",
    "Russell.Lab.C86_close_counterexample"
   ],
   "note": "C86_integrate (partition, accuracy, counters, no panic), C86_gauss and C86_polynomial (degree up to 2n-1), C86_affine (success), C86_validate. What does not hold: C86_close_counterexample (underflow for nearly equal bounds). No bound of the error of general functions is claimed: the method only compares estimates."
  },
  {
   "property": "C87",
   "status": "proved",
   "theorems": [
    "Russell.Lab.C87_new",
    "Russell.Lab.C87_set_function",
    "Russell.Lab.C87_set_data",
    "Russell.Lab.C87_polynomial",
    "Russell.Lab.C87_set_gen_data",
    "Russell.Lab.C87_adapt_function",
    "Russell.Lab.C87_adapt_polynomial",
    "Russell.Lab.C87_adapt_data",
    "Russell.Lab.C87_max_error",
    "Russell.Lab.C87_constant_data_counterexample",
    "Russell.Lab.C87_adapt_counterexample",
    "Russell.Lab.C87_failed_function_counterexample",
    "Russell.Lab.C87_failed_adapt_counterexample",
    "Russell.Lab.C87_adapt_panic_counterexample"
   ],
   "note": "exact real arithmetic; unique interpolant through the Chebyshev-Gauss-Lobatto nodes, adaptive degree, errors of the function; five deviations as counterexamples"
  },
  {
   "property": "C88",
   "status": "proved",
   "theorems": [
    "Russell.Lab.C88_constant",
    "Russell.Lab.C88_chebyshev",
    "Russell.Lab.C88_all_roots",
    "Russell.Lab.C88_refine",
    "Russell.Lab.C88_quotient",
    "Russell.Lab.C88_refine_affine",
    "Russell.Lab.C88_linear_counterexample",
    "Russell.Lab.C88_zero_derivative_counterexample",
    "Russell.Lab.C88_outside_counterexample"
   ],
   "note": "exact real arithmetic; mat_eigenvalues by the contract EigContract (roots of the characteristic polynomial); three deviations as counterexamples"
  },
  {
   "property": "C89",
   "status": "proved",
   "theorems": [
    "Russell.Lab.C89_mat_inverse",
    "Russell.Lab.C89_dimensions",
    "Russell.Lab.C89_accepts",
    "Russell.Lab.C89_accepts_large",
    "Russell.Lab.C89_small_determinant_counterexample"
   ],
   "note": "exact arithmetic; dgetrf and dgetri by the contract LapackContract (satisfiable, see the examples); one deviation as counterexample"
  },
  {
   "property": "C90",
   "status": "proved",
   "theorems": [
    "Russell.Pde.C90_metrics_2d",
    "Russell.Pde.C90_metrics_3d",
    "Russell.Pde.C90_checks",
    "Russell.Pde.C90_ell_counterexample",
    "Russell.Pde.C90_laplacian",
    "Russell.Pde.C90_mapping_2d",
    "Russell.Pde.C90_mapping_3d",
    "Russell.Pde.C90_small_domain_counterexample",
    "Russell.Pde.C90_second_dimension_counterexample"
   ],
   "note": "exact arithmetic; three deviations as counterexamples"
  },
  {
   "property": "C91",
   "status": "proved",
   "theorems": [
    "Russell.Pde.C91_new",
    "Russell.Pde.C91_boundary",
    "Russell.Pde.C91_corners_counterexample",
    "Russell.Pde.C91_reproduction",
    "Russell.Pde.C91_derivatives",
    "Russell.Pde.C91_second_derivatives",
    "Russell.Pde.C91_no_second_counterexample",
    "Russell.Pde.C91_triangulate_points",
    "Russell.Pde.C91_triangulate_triangles",
    "Russell.Pde.C91_triangulate_orientation",
    "Russell.Pde.C91_triangulate_covering"
   ],
   "note": "exact arithmetic; the boundary functions are pure and write both components; two deviations as counterexamples"
  },
  {
   "property": "C92",
   "status": "proved",
   "theorems": [
    "Russell.Pde.C92_new",
    "Russell.Pde.C92_boundary",
    "Russell.Pde.C92_reproduction",
    "Russell.Pde.C92_derivatives",
    "Russell.Pde.C92_second_derivatives",
    "Russell.Pde.C92_edges_counterexample",
    "Russell.Pde.C92_no_second_counterexample"
   ],
   "note": "exact arithmetic; the boundary functions are pure and write all components; two deviations as counterexamples"
  },
  {
   "property": "C93",
   "status": "proved",
   "theorems": [
    "Russell.Pde.C93_new",
    "Russell.Pde.C93_solve",
    "Russell.Pde.C93_systems",
    "Russell.Pde.C93_complete",
    "Russell.Pde.C93_poisson",
    "Russell.Pde.C93_exact",
    "Russell.Pde.C93_flow",
    "Russell.Pde.C93_panics",
    "Russell.Pde.C93_natural_counterexample",
    "Russell.Pde.C93_dirichlet"
   ],
   "note": "exact real arithmetic; linear solvers by contract (returns solutions only; for existence: finds one when there is one), realized by chooseSolver; boundary conditions name Xmin and Xmax only; one deviation as counterexample"
  },
  {
   "property": "C94",
   "status": "proved",
   "theorems": [
    "Russell.Pde.C94_new",
    "Russell.Pde.C94_solve",
    "Russell.Pde.C94_complete",
    "Russell.Pde.C94_panics",
    "Russell.Pde.C94_systems",
    "Russell.Pde.C94_flow",
    "Russell.Pde.C94_dirichlet",
    "Russell.Pde.C94_natural_counterexample"
   ],
   "note": "exact real arithmetic; linear solvers by contract (returns solutions only; for existence: finds one when there is one), realized by chooseSolver; unique solvability proved for values on all sides; one deviation as counterexample"
  },
  {
   "property": "C95",
   "status": "proved",
   "theorems": [
    "Russell.Pde.C95_solve",
    "Russell.Pde.C95_orthogonal",
    "Russell.Pde.C95_complete",
    "Russell.Pde.C95_panics",
    "Russell.Pde.C95_systems",
    "Russell.Pde.C95_flow",
    "Russell.Pde.C95_oblique_counterexample",
    "Russell.Pde.C95_new"
   ],
   "note": "exact real arithmetic; on top of C90, C91 (metrics, mapping) and C94; linear solvers by contract; one deviation as counterexample (flow along the crossing grid line instead of the normal)"
  },
  {
   "property": "C96",
   "status": "proved",
   "theorems": [
    "Russell.Ode.Samples.C96_brusselator_pde",
    "Russell.Ode.Samples.C96_brusselator_pde_panic",
    "Russell.Ode.Samples.C96_periodic_counterexample",
    "Russell.Ode.Samples.C96_simple_equation_constant",
    "Russell.Ode.Samples.C96_kreyszig_eq6",
    "Russell.Ode.Samples.C96_hairer_wanner_eq1",
    "Russell.Ode.Samples.C96_kreyszig_ex4",
    "Russell.Ode.Samples.C96_brusselator_ode",
    "Russell.Ode.Samples.C96_robertson",
    "Russell.Ode.Samples.C96_van_der_pol",
    "Russell.Ode.Samples.C96_simple_system_with_mass_matrix",
    "Russell.Ode.Samples.C96_arenstorf",
    "Russell.Ode.Samples.C96_amplifier1t",
    "Russell.Ode.Samples.C96_robertson_mass",
    "Russell.Ode.Samples.C96_arenstorf_integral",
    "Russell.Ode.Samples.C96_set",
    "Russell.Ode.Samples.C96_equations"
   ],
   "note": "exact real arithmetic, decimal constants with their decimal values; reference results y_ref (numbers) left out; one deviation as counterexample (periodic Brusselator)"
  },
  {
   "property": "C97",
   "status": "proved",
   "theorems": [
    "Russell.Pde.C97_quadrilateral_2d",
    "Russell.Pde.C97_quarter_ring_2d",
    "Russell.Pde.C97_half_ring_2d",
    "Russell.Pde.C97_quarter_perforated_lozenge_2d",
    "Russell.Pde.C97_lozenge_counterexample",
    "Russell.Pde.C97_brick_3d",
    "Russell.Pde.C97_quarter_ring_3d"
   ],
   "note": "All six sample mappings; bijectivity for the rings; the closures are pure functions and the lock of quarter_ring_3d is left out."
  },
  {
   "property": "C98",
   "status": "proved",
   "theorems": [
    "Russell.Pde.C98_d2_problem_04",
    "Russell.Pde.C98_terms_counterexample",
    "Russell.Pde.C98_d1_problem_01",
    "Russell.Pde.C98_d1_problem_02",
    "Russell.Pde.C98_d1_problem_03",
    "Russell.Pde.C98_d1_problem_04a",
    "Russell.Pde.C98_d1_problem_04b",
    "Russell.Pde.C98_d1_problem_05",
    "Russell.Pde.C98_d2_problem_01",
    "Russell.Pde.C98_d2_problem_02",
    "Russell.Pde.C98_d2_problem_05",
    "Russell.Pde.C98_d2_problem_06",
    "Russell.Pde.C98_d2_problem_07",
    "Russell.Pde.C98_d2_problem_03",
    "Russell.Pde.C98_d2_problem_03_keywords",
    "Russell.Pde.C98_d2_problem_08",
    "Russell.Pde.C98_d2_problem_09"
   ],
   "note": "Classical solutions, continuous up to the boundary, second derivatives inside, flows as one-sided directional derivatives. Uniqueness by a maximum principle (2D) or an energy argument (1D). Real arithmetic; the overflow of the series beyond 227 terms is not modelled."
  },
  {
   "property": "C99",
   "status": "proved",
   "theorems": [
    "Russell.Lab.C99_basis_deriv",
    "Russell.Lab.C99_basis_deriv_errors",
    "Russell.Lab.C99_curve_deriv",
    "Russell.Lab.C99_algorithms_agree",
    "Russell.Lab.C99_ready",
    "Russell.Lab.C99_get_elements",
    "Russell.Lab.C99_elements_partition",
    "Russell.Lab.C99_basis_deriv_real",
    "Russell.Lab.C99_dimension_counterexample",
    "Russell.Lab.C99_stale_counterexample",
    "Russell.Lab.C99_span_counterexample",
    "Russell.Lab.C99_index_counterexample"
   ],
   "note": "Exact arithmetic in an ordered field; the pieces as polynomials. The four counterexample theorems record the deviations."
  },
  {
   "property": "C100",
   "status": "proved",
   "theorems": [
    "Russell.Nonlin.Samples.C100_new",
    "Russell.Nonlin.Samples.C100_mat_approx_eq",
    "Russell.Nonlin.Samples.C100_check_ggu",
    "Russell.Nonlin.Samples.C100_check_ggu_counterexample",
    "Russell.Nonlin.Samples.C100_simple_linear_problem",
    "Russell.Nonlin.Samples.C100_cubic_poly_1",
    "Russell.Nonlin.Samples.C100_cubic_poly_2",
    "Russell.Nonlin.Samples.C100_two_eq_ref",
    "Russell.Nonlin.Samples.C100_two_eq_nr_prob_1",
    "Russell.Nonlin.Samples.C100_two_eq_nr_prob_2",
    "Russell.Nonlin.Samples.C100_one_eq_with_fold_point",
    "Russell.Nonlin.Samples.C100_singular_initial_state",
    "Russell.Nonlin.Samples.C100_circle_ul",
    "Russell.Nonlin.Samples.C100_bspline_problem_1",
    "Russell.Nonlin.Samples.C100_bspline_curve",
    "Russell.Nonlin.Samples.C100_bspline_end_counterexample"
   ],
   "note": "Real arithmetic; named constants are exact. Deviations are recorded by C100_check_ggu_counterexample and C100_bspline_end_counterexample. singular_initial_state: derivative for u > 0."
  },
  {
   "property": "C101",
   "status": "proved",
   "theorems": [
    "Russell.Lab.C101_mat_vec_mul",
    "Russell.Lab.C101_vec_mat_mul",
    "Russell.Lab.C101_mat_mat_mul",
    "Russell.Lab.C101_sym_rank_op",
    "Russell.Lab.C101_herm_rank_op",
    "Russell.Lab.C101_vec_outer",
    "Russell.Lab.C101_sums",
    "Russell.Lab.C101_vectors",
    "Russell.Lab.C101_small_vectors",
    "Russell.Lab.C101_matrices",
    "Russell.Lab.C101_dimensions",
    "Russell.Lab.C101_empty_inner",
    "Russell.Lab.C101_empty_inner_counterexample",
    "Russell.Lab.C101_rank_op_empty_counterexample",
    "Russell.Lab.C101_mat_norm",
    "Russell.Lab.C101_mat_norm_empty",
    "Russell.Lab.C101_mat_max_abs_diff",
    "Russell.Lab.C101_vec_norm_diff",
    "Russell.Lab.C101_vec_max_scaled_diff",
    "Russell.Lab.C101_vec_rms_scaled_diff",
    "Russell.Lab.C101_vec_zip",
    "Russell.Lab.C101_mat_zip"
   ],
   "note": "Exact arithmetic; gemv, ger, gemm, syrk, herk and lange are modelled by their published contracts, including the restrictions on the leading dimension (a violation is a panic). Deviations are recorded by C101_empty_inner_counterexample and C101_rank_op_empty_counterexample."
  },
  {
   "property": "C102",
   "status": "proved",
   "theorems": [
    "Russell.Lab.C102_svd",
    "Russell.Lab.C102_complex_svd",
    "Russell.Lab.C102_svd_empty",
    "Russell.Lab.C102_dgeev_data",
    "Russell.Lab.C102_mat_eigen",
    "Russell.Lab.C102_mat_eigen_lr",
    "Russell.Lab.C102_mat_eigenvalues",
    "Russell.Lab.C102_eigen_empty",
    "Russell.Lab.C102_gen_eigen_counterexample_run",
    "Russell.Lab.C102_complex_gen_eigen_lr_counterexample_run",
    "Russell.Lab.C102_complex_eigen",
    "Russell.Lab.C102_complex_eigen_lr",
    "Russell.Lab.C102_complex_gen_eigen",
    "Russell.Lab.C102_complex_gen_eigen_lr_counterexample",
    "Russell.Lab.C102_complex_gen_eigen_lr_right",
    "Russell.Lab.C102_gen_eigen_lr",
    "Russell.Lab.C102_gen_eigen",
    "Russell.Lab.C102_gen_eigen_counterexample",
    "Russell.Lab.C102_eigen_sym",
    "Russell.Lab.C102_eigen_herm",
    "Russell.Lab.C102_herm_decomposition",
    "Russell.Lab.C102_cholesky",
    "Russell.Lab.C102_cholesky_empty",
    "Russell.Lab.C102_cholesky_iff",
    "Russell.Lab.C102_pseudo_inverse",
    "Russell.Lab.C102_pseudo_inverse_invertible",
    "Russell.Lab.C102_pseudo_inverse_empty",
    "Russell.Lab.C102_pseudo_inverse_counterexample"
   ],
   "note": "Exact arithmetic; LAPACK by contract: illegal arguments give a negative info, an access outside of an array is a panic, the numerical part is an arbitrary partial function about which only what the manual promises is assumed. The computation of lwork in i32 is modelled without overflow (orders near 2^28). Deviations are recorded by the four counterexample theorems."
  },
  {
   "property": "C103",
   "status": "proved",
   "theorems": [
    "Russell.Ieee.C103_float_split",
    "Russell.Ieee.C103_float_is_integer",
    "Russell.Ieee.C103_float_is_neg_integer",
    "Russell.Ieee.C103_float_split_special",
    "Russell.Ieee.C103_float_split_inf_counterexample",
    "Russell.Ieee.C103_float_decompose",
    "Russell.Ieee.C103_float_decompose_special",
    "Russell.Ieee.C103_float_compose",
    "Russell.Ieee.C103_compose_decompose",
    "Russell.Ieee.C103_float_compose_special",
    "Russell.Ieee.C103_float_compose_counterexample",
    "Russell.Ieee.C103_i_pow_n",
    "Russell.Ieee.C103_x_times_i_pow_n",
    "Russell.Ieee.C103_i_pow_n_counterexample",
    "Russell.Ieee.C103_modulo",
    "Russell.Ieee.C103_modulo_special",
    "Russell.Ieee.C103_round_nearest"
   ],
   "note": "Bit patterns below 2^64; the IEEE operations are defined by correct rounding (C103_round_nearest). i32 additions panic on overflow as in debug builds. f64::powi in x_times_i_pow_n is the exact power. The loop of modulo is modelled with a panic if a pass does not decrease r, which is proved not to happen."
  },
  {
   "property": "C104",
   "status": "proved",
   "theorems": [
    "Russell.Ieee.C104_round_mono",
    "Russell.Ieee.C104_approx_eq_accepts",
    "Russell.Ieee.C104_approx_eq_rejects",
    "Russell.Ieee.C104_approx_eq_symm",
    "Russell.Ieee.C104_nan_tolerance_counterexample",
    "Russell.Ieee.C104_array_approx_eq",
    "Russell.Ieee.C104_complex_approx_eq",
    "Russell.Ieee.C104_complex_array_approx_eq",
    "Russell.Ieee.C104_mat_approx_eq",
    "Russell.Ieee.C104_complex_mat_approx_eq",
    "Russell.Ieee.C104_assert_alike"
   ],
   "note": "f64 only (the functions are generic in the number type). The messages of the panics are not modelled. Deviation recorded by C104_nan_tolerance_counterexample."
  },
  {
   "property": "C105",
   "status": "proved",
   "theorems": [
    "Russell.Lab.C105_mat_to_numpy",
    "Russell.Lab.C105_mat_to_mathematica",
    "Russell.Lab.C105_mat_to_static_array",
    "Russell.Lab.C105_vec_to_static_array",
    "Russell.Lab.C105_vismatrix",
    "Russell.Lab.C105_vismatrix_tol",
    "Russell.Lab.C105_format_scientific",
    "Russell.Lab.C105_format_scientific_special",
    "Russell.Lab.C105_scientific_width",
    "Russell.Lab.C105_vec_fmt_scientific",
    "Russell.Lab.C105_vec_fmt_nan_counterexample",
    "Russell.Lab.C105_numpy_empty_counterexample",
    "Russell.Lab.C105_generate3d",
    "Russell.Lab.C105_format_nanoseconds",
    "Russell.Lab.C105_format_nanoseconds_units",
    "Russell.Lab.C105_format_nanoseconds_injective"
   ],
   "note": "Texts are lists of characters. The Rust formatting of f64 is a parameter (texts of the entries, mantissa and exponent), except in format_nanoseconds, where the quotient by a power of ten is printed as its exact decimal expansion. format_nanoseconds_with_digits and the file system calls of mat_write_vismatrix are not modelled. Mesh grids in exact arithmetic. Deviations recorded by the two counterexample theorems."
  },
  {
   "property": "C106",
   "status": "proved",
   "theorems": [
    "Russell.Sparse.C106_assign_real",
    "Russell.Sparse.C106_add_real",
    "Russell.Sparse.C106_options_by_name",
    "Russell.Sparse.C106_ordering_by_name_counterexample",
    "Russell.Sparse.C106_mumps_options",
    "Russell.Sparse.C106_umfpack_options",
    "Russell.Sparse.C106_cudss_options",
    "Russell.Sparse.C106_get_sym",
    "Russell.Sparse.C106_memory_errors",
    "Russell.Sparse.C106_memory_errors_counterexample",
    "Russell.Sparse.C106_messages_differ",
    "Russell.Sparse.C106_messages_show_code",
    "Russell.Sparse.C106_statistics",
    "Russell.Sparse.C106_total_is_sum"
   ],
   "note": "Texts are lists of characters, to_lowercase on ASCII letters only. Averages in exact rational arithmetic, u128 without overflow; the JSON text itself is not modelled. Real and complex numbers are exact. Deviations are theorems ending in _counterexample."
  },
  {
   "property": "C107",
   "status": "proved",
   "theorems": [
    "Russell.Lab.C107_rf_accurate",
    "Russell.Lab.C107_rd_accurate",
    "Russell.Lab.C107_rf_converges",
    "Russell.Lab.C107_rd_converges",
    "Russell.Lab.C107_elliptic_f",
    "Russell.Lab.C107_elliptic_e",
    "Russell.Lab.C107_elliptic_domain",
    "Russell.Lab.C107_elliptic_special",
    "Russell.Lab.C107_elliptic_f_endpoint_counterexample",
    "Russell.Lab.C107_elliptic_f_near_one_counterexample"
   ],
   "note": "Real arithmetic, sin, cos and sqrt are exact; f64::INFINITY is the top element. Carlson integrals are defined as Lebesgue integrals and tied to the Legendre integrals by proved substitutions. Deviations are theorems ending in _counterexample."
  },
  {
   "property": "C108",
   "status": "proved",
   "theorems": [
    "Russell.Lab.C108_rc_accurate",
    "Russell.Lab.C108_rc_converges",
    "Russell.Lab.C108_rj_accurate",
    "Russell.Lab.C108_elliptic_pi_accurate",
    "Russell.Lab.C108_elliptic_pi",
    "Russell.Lab.C108_elliptic_pi_domain",
    "Russell.Lab.C108_elliptic_pi_special",
    "Russell.Lab.C108_elliptic_pi_endpoint_counterexample",
    "Russell.Lab.C108_rj_loop_rf"
   ],
   "note": "Real arithmetic as in C107. The branches for Cauchy principal values (rc with y < 0, rj with p <= 0) are modelled, their accuracy is not claimed; convergence of elliptic_pi is proved for n >= 0, for n < 0 accuracy of returned values only."
  },
  {
   "property": "C109",
   "status": "proved",
   "theorems": [
    "Russell.Lab.C109_kn_exact",
    "Russell.Lab.C109_kn_stable",
    "Russell.Lab.C109_kn_special",
    "Russell.Lab.C109_kn_negative_counterexample",
    "Russell.Lab.C109_in_accurate",
    "Russell.Lab.C109_in_tiny",
    "Russell.Lab.C109_in_parity",
    "Russell.Lab.C109_in_overflow"
   ],
   "note": "bessel_i0, bessel_k0, bessel_k1 (rational approximations) are parameters; rounding not modelled"
  },
  {
   "property": "C110",
   "status": "proved",
   "theorems": [
    "Russell.Lab.C110_jn_low",
    "Russell.Lab.C110_jn_forward",
    "Russell.Lab.C110_jn_tiny",
    "Russell.Lab.C110_jn_small",
    "Russell.Lab.C110_jn_backward",
    "Russell.Lab.C110_jn_zero_counterexample",
    "Russell.Lab.C110_jn_asymptotic",
    "Russell.Lab.C110_jn_parity",
    "Russell.Lab.C110_yn_forward",
    "Russell.Lab.C110_yn_asymptotic",
    "Russell.Lab.C110_yn_special"
   ],
   "note": "bessel_j0/j1/y0/y1 are parameters; rounding not modelled; for |x| > 2 below the order the accuracy of the ratio and the exact form of the value are proved, not an error bound of the value, which does not exist near zeros of J0 (counterexample)"
  },
  {
   "property": "C111",
   "status": "proved",
   "theorems": [
    "Russell.Lab.C111_gamma_accurate",
    "Russell.Lab.C111_gamma_factorial",
    "Russell.Lab.C111_gamma_recurrence",
    "Russell.Lab.C111_gamma_overflow",
    "Russell.Lab.C111_gamma_underflow",
    "Russell.Lab.C111_gamma_special"
   ],
   "note": "truncation and approximation errors; rounding errors of the floating point evaluation are not covered; arguments closer than 2^-53 to a pole below -200 do not exist as f64"
  },
  {
   "property": "C112",
   "status": "proved",
   "theorems": [
    "Russell.Lab.C112_sin_pi",
    "Russell.Lab.C112_ln_gamma_accurate",
    "Russell.Lab.C112_ln_gamma_tiny",
    "Russell.Lab.C112_ln_gamma_huge",
    "Russell.Lab.C112_threshold_counterexample",
    "Russell.Lab.C112_ln_gamma_special"
   ],
   "note": "truncation and approximation errors; rounding errors are not covered; the deviation of the threshold is proved as counterexample"
  },
  {
   "property": "C113",
   "status": "proved",
   "theorems": [
    "Russell.Lab.C113_beta_terminates",
    "Russell.Lab.C113_beta_accurate",
    "Russell.Lab.C113_beta_notable",
    "Russell.Lab.C113_beta_symm",
    "Russell.Lab.C113_beta_symm_counterexample",
    "Russell.Lab.C113_beta_large",
    "Russell.Lab.C113_beta_zero",
    "Russell.Lab.C113_beta_neg_integer",
    "Russell.Lab.C113_ln_beta_accurate",
    "Russell.Lab.C113_ln_beta_large",
    "Russell.Lab.C113_ln_beta_sign_counterexample",
    "Russell.Lab.C113_ln_beta_small_counterexample",
    "Russell.Lab.C113_beta_special"
   ],
   "note": "rounding errors are not covered; the accuracy of ln_beta is proved outside the two deviations"
  },
  {
   "property": "C114",
   "status": "proved",
   "theorems": [
    "Russell.Lab.C114_system_shapes",
    "Russell.Lab.C114_solve",
    "Russell.Lab.C114_solve_overflow",
    "Russell.Lab.C114_complex_inverse",
    "Russell.Lab.C114_complex_dimensions",
    "Russell.Lab.C114_complex_accepts",
    "Russell.Lab.C114_complex_accepts_large",
    "Russell.Lab.C114_small_determinant_counterexample"
   ],
   "note": "Exact arithmetic. The numerical part of gesv, getrf and getri is a parameter with the published contract (A = P L U, info, A X = B). The content of the arrays after an error is not modelled. C114_small_determinant_counterexample records the refused regular matrix."
  },
  {
   "property": "C115",
   "status": "proved",
   "theorems": [
    "Russell.Lab.C115_erf_accurate",
    "Russell.Lab.C115_erfc_accurate",
    "Russell.Lab.C115_erfc_underflow",
    "Russell.Lab.C115_erf_odd",
    "Russell.Lab.C115_erfc_reflect",
    "Russell.Lab.C115_complement",
    "Russell.Lab.C115_erf_range",
    "Russell.Lab.C115_erfc_range",
    "Russell.Lab.C115_special"
   ],
   "note": "Real-number model of erf and erfc (rounding not modelled, sign of zero not kept); the reference function is the integral itself. The approximations are verified with kernel-checked polynomial positivity certificates and the Taylor series with remainder."
  },
  {
   "property": "C116",
   "status": "proved",
   "theorems": [
    "Russell.Lab.C116_erf_inv_accurate",
    "Russell.Lab.C116_inverse",
    "Russell.Lab.C116_round_trip",
    "Russell.Lab.C116_odd_sign",
    "Russell.Lab.C116_increasing",
    "Russell.Lab.C116_special",
    "Russell.Lab.C116_erfc_inv",
    "Russell.Lab.C116_erfc_inv_small_counterexample",
    "Russell.Lab.C116_domain"
   ],
   "note": "arithmetic of the approximations over the reals; deviation of erfc_inv for tiny arguments proved with the IEEE subtraction as C116_erfc_inv_small_counterexample"
  },
  {
   "property": "C117",
   "status": "proved",
   "theorems": [
    "Russell.Lab.C117_j0_accurate",
    "Russell.Lab.C117_j1_accurate",
    "Russell.Lab.C117_symmetry",
    "Russell.Lab.C117_special",
    "Russell.Lab.C117_limits",
    "Russell.Lab.C117_zero"
   ],
   "note": "arithmetic over the reals; the differential equations J0' = -J1, J1' = J0 - J1/x are derived from the power series and the error for x >= 2 follows from the residuals of the approximations in them"
  },
  {
   "property": "C118",
   "status": "proved",
   "theorems": [
    "Russell.Lab.C118_yn_accurate",
    "Russell.Lab.C118_jn_accurate",
    "Russell.Lab.C118_y0_accurate",
    "Russell.Lab.C118_y1_accurate",
    "Russell.Lab.C118_special",
    "Russell.Lab.C118_limits",
    "Russell.Lab.C118_spec"
   ],
   "note": "arithmetic over the reals; Euler's constant is enclosed by an Euler-Maclaurin bracket, the logarithmic series are differentiated term by term, and the energy argument of C117 is reused with a phase shift of pi/2"
  },
  {
   "property": "C119",
   "status": "proved",
   "theorems": [
    "Russell.Lab.C119_i0_accurate",
    "Russell.Lab.C119_i1_accurate",
    "Russell.Lab.C119_parity",
    "Russell.Lab.C119_special",
    "Russell.Lab.C119_in_accurate",
    "Russell.Lab.C119_spec"
   ],
   "note": "All real arguments. For |x| >= 15 the residual of the approximation in the differential equation is bounded and integrated from 15; no asymptotic expansion is assumed. Overflow of f64 is not modelled; infinite arguments give NaN in the source and in the model."
  },
  {
   "property": "C120",
   "status": "proved",
   "theorems": [
    "Russell.Lab.C120_k01_accurate",
    "Russell.Lab.C120_kn_accurate",
    "Russell.Lab.C120_special"
   ],
   "note": "x > 1: the residual of the rational approximation in the differential equation of sqrt(x) exp(x) K(x) is bounded on the whole half line and integrated back from infinity; x <= 1: the error is followed from 1 to the left by Wronskians"
  },
  {
   "property": "C121",
   "status": "proved",
   "theorems": [
    "Russell.Sparse.Solver.C121_compute_solves",
    "Russell.Sparse.Solver.C121_compute_outcome",
    "Russell.Sparse.Solver.C121_not_available",
    "Russell.Sparse.Solver.C121_ideal"
   ],
   "note": "exact arithmetic; the libraries are functions of the calls made and are assumed sound (stated as hypotheses); failures to allocate the library objects are not modelled"
  },
  {
   "property": "C122",
   "status": "proved",
   "theorems": [
    "Russell.Lab.C122_elapsed",
    "Russell.Lab.C122_display",
    "Russell.Lab.C122_laps"
   ],
   "note": "readings of the clock are inputs of the model; numbers of nanoseconds are unbounded"
  },
  {
   "property": "C123",
   "status": "proved",
   "theorems": [
    "Russell.Nonlin.C123_file_is_output",
    "Russell.Nonlin.C123_several_solves",
    "Russell.Nonlin.C123_disabled",
    "Russell.Nonlin.C123_footer_errors",
    "Russell.Nonlin.C123_icon",
    "Russell.Nonlin.C123_columns"
   ],
   "note": "the formats of numbers, statistics and status are parameters; printing to the standard output does not fail"
  }
 ]
}