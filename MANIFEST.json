{
 "claims": [
  {
   "property": "C01",
   "status": "proved",
   "theorems": [
    "Mfpml.Props.C01_pso_in_design_space",
    "Mfpml.Props.C01_pso_in_design_space_any_arithmetic"
   ],
   "note": "PSO positions, best points and every evaluated population."
  },
  {
   "property": "C02",
   "status": "proved",
   "theorems": [
    "Mfpml.Props.C02_pso_running_minimum"
   ],
   "note": ""
  },
  {
   "property": "C03",
   "status": "proved",
   "theorems": [
    "Mfpml.Props.C03_pso_best_attained"
   ],
   "note": ""
  },
  {
   "property": "C04",
   "status": "partial",
   "theorems": [
    "Mfpml.Props.C04_pso_dictionary_partial",
    "Mfpml.Props.C04_pso_dictionary_early_stop_zero",
    "Mfpml.Props.C04_pso_dictionary_counterexample"
   ],
   "note": "Holds for runs that use all generations; false after an early stop (zero rows are reported), counterexample proved."
  },
  {
   "property": "C05",
   "status": "proved",
   "theorems": [
    "Mfpml.Props.C05_pso_stopping_rule"
   ],
   "note": ""
  },
  {
   "property": "C06",
   "status": "proved",
   "theorems": [
    "Mfpml.Props.C06_pso_step"
   ],
   "note": ""
  },
  {
   "property": "C07",
   "status": "proved",
   "theorems": [
    "Mfpml.Props.C07_pso_personal_best",
    "Mfpml.Props.C06_pso_step"
   ],
   "note": "At the end of the run: C07_pso_personal_best. In every generation: the personal bests that enter the velocities, `own` in C06_pso_step."
  },
  {
   "property": "C08",
   "status": "proved",
   "theorems": [
    "Mfpml.Props.C08_de_in_design_space",
    "Mfpml.Props.C08_de_in_design_space_any_arithmetic",
    "Mfpml.Props.de_call_log"
   ],
   "note": ""
  },
  {
   "property": "C09",
   "status": "proved",
   "theorems": [
    "Mfpml.Props.C09_de_selection"
   ],
   "note": ""
  },
  {
   "property": "C10",
   "status": "proved",
   "theorems": [
    "Mfpml.Props.C10_de_running_minimum"
   ],
   "note": ""
  },
  {
   "property": "C11",
   "status": "partial",
   "theorems": [
    "Mfpml.Props.C11_de_dictionary_partial",
    "Mfpml.Props.C11_de_dictionary_counterexample"
   ],
   "note": "As C04: false after an early stop."
  },
  {
   "property": "C12",
   "status": "partial",
   "theorems": [
    "Mfpml.Props.C12_de_run_partial",
    "Mfpml.Props.C12_de_three_members",
    "Mfpml.Props.C12_de_partners_partial",
    "Mfpml.Props.C12_de_partners_counterexample",
    "Mfpml.Props.C12_de_best_two_members_degenerate"
   ],
   "note": "The collision fix-up can create a new collision; counterexample proved, partial theorem says what holds."
  },
  {
   "property": "C13",
   "status": "proved",
   "theorems": [
    "Mfpml.Props.C13_de_trial"
   ],
   "note": ""
  },
  {
   "property": "C14",
   "status": "proved",
   "theorems": [
    "Mfpml.Props.C14_pso_returns_iff",
    "Mfpml.Props.C14_de_returns_iff"
   ],
   "note": ""
  },
  {
   "property": "C15",
   "status": "proved",
   "theorems": [
    "Mfpml.Props.C15_samples_in_bounds",
    "Mfpml.Props.C15_samples_in_bounds_any_arithmetic",
    "Mfpml.Props.C15_normalisation_inverts_scaling"
   ],
   "note": ""
  },
  {
   "property": "C16",
   "status": "proved",
   "theorems": [
    "Mfpml.Props.C16_lhs_stratified"
   ],
   "note": "scipy's Latin hypercube contract is the hypothesis."
  },
  {
   "property": "C17",
   "status": "proved",
   "theorems": [
    "Mfpml.Props.C17_random_reproducible",
    "Mfpml.Props.C17_random_clobbers_global_state"
   ],
   "note": ""
  },
  {
   "property": "C18",
   "status": "partial",
   "theorems": [
    "Mfpml.Props.C18_sobol_block_partial",
    "Mfpml.Props.C18_sobol_fails_beyond_30"
   ],
   "note": "Proved for n <= 30; every n > 30 raises ValueError (proved)."
  },
  {
   "property": "C19",
   "status": "proved",
   "theorems": [
    "Mfpml.Props.C19_fix_number"
   ],
   "note": ""
  },
  {
   "property": "C20",
   "status": "proved",
   "theorems": [
    "Mfpml.Props.C20_mf_sizes",
    "Mfpml.Props.C20_mf_assertion_iff",
    "Mfpml.Props.C20_mf_returns_iff"
   ],
   "note": ""
  },
  {
   "property": "C21",
   "status": "proved",
   "theorems": [
    "Mfpml.Props.C21_mf_nested"
   ],
   "note": ""
  },
  {
   "property": "C22",
   "status": "partial",
   "theorems": [
    "Mfpml.Props.C22_mf_bounds_non_nested_partial",
    "Mfpml.Props.C22_mf_bounds_nested_partial",
    "Mfpml.Props.C22_mf_bounds_shared_partial",
    "Mfpml.Props.C22_mf_bounds_non_nested_any_arithmetic_partial",
    "Mfpml.Props.C22_mf_bounds_nested_any_arithmetic_partial",
    "Mfpml.Props.C22_mf_bounds_shared_any_arithmetic_partial",
    "Mfpml.Props.C22_mf_bounds_nested_counterexample"
   ],
   "note": "False for nested designs with different design spaces (counterexample); proved otherwise."
  },
  {
   "property": "C23",
   "status": "partial",
   "theorems": [
    "Mfpml.Props.C23_mf_sobol_always_nested"
   ],
   "note": "The property is false: with an integer seed and a shared space the designs are always nested (proved for every execution)."
  },
  {
   "property": "C24",
   "status": "partial",
   "theorems": [
    "Mfpml.Props.C24_mf_reproducible_partial",
    "Mfpml.Props.C24_mf_nested_lhs_counterexample"
   ],
   "note": "False for nested LHS, proved otherwise."
  },
  {
   "property": "C25",
   "status": "partial",
   "theorems": [
    "Mfpml.Props.C25_mf_list_emptied",
    "Mfpml.Props.C25_mf_second_call_fails"
   ],
   "note": "The property is false for every successful call; its negation is proved."
  },
  {
   "property": "C26",
   "status": "proved",
   "theorems": [
    "Mfpml.Props.C26_rbf_values",
    "Mfpml.Props.C26_rbf_parameters",
    "Mfpml.Props.C26_rbf_consequences"
   ],
   "note": ""
  },
  {
   "property": "C27",
   "status": "proved",
   "theorems": [
    "Mfpml.Props.C27_rbf_posDef"
   ],
   "note": ""
  },
  {
   "property": "C28",
   "status": "proved",
   "theorems": [
    "Mfpml.Props.C28_quadratic",
    "Mfpml.Props.C28_quadratic_basis",
    "Mfpml.Props.C28_ordinary_linear"
   ],
   "note": ""
  },
  {
   "property": "C29",
   "status": "proved",
   "theorems": [
    "Mfpml.Props.C29_normalize_input",
    "Mfpml.Props.C29_normalize_input_degenerate"
   ],
   "note": ""
  },
  {
   "property": "C30",
   "status": "proved",
   "theorems": [
    "Mfpml.Props.C30_normalize_output",
    "Mfpml.Props.C30_normalize_output_constant"
   ],
   "note": ""
  },
  {
   "property": "C31",
   "status": "proved",
   "theorems": [
    "Mfpml.Props.C31_train_succeeds",
    "Mfpml.Props.C31_train_succeeds_default",
    "Mfpml.Props.C31_dependent_basis_fails",
    "Mfpml.Props.C31_constant_fails"
   ],
   "note": "Optimisers enter through the contracts GoodMinimizer / GoodPopOptimizer."
  },
  {
   "property": "C32",
   "status": "proved",
   "theorems": [
    "Mfpml.Props.C32_restarts_known_noise",
    "Mfpml.Props.C32_restarts_free_noise"
   ],
   "note": ""
  },
  {
   "property": "C33",
   "status": "proved",
   "theorems": [
    "Mfpml.Props.C33_gls"
   ],
   "note": ""
  },
  {
   "property": "C34",
   "status": "proved",
   "theorems": [
    "Mfpml.Props.C34_interpolation",
    "Mfpml.Props.C34_residual"
   ],
   "note": ""
  },
  {
   "property": "C35",
   "status": "proved",
   "theorems": [
    "Mfpml.Props.C35_std"
   ],
   "note": ""
  },
  {
   "property": "C36",
   "status": "partial",
   "theorems": [
    "Mfpml.Props.C36_batch_partial",
    "Mfpml.Props.C36_batch_independence_false"
   ],
   "note": "The property is false: the kernel adds its nugget wherever the positions in the two sample arrays agree. The exact dependence is proved."
  },
  {
   "property": "C37",
   "status": "partial",
   "theorems": [
    "Mfpml.Props.C37_gp",
    "Mfpml.Props.C37_hk",
    "Mfpml.Props.C37_ck",
    "Mfpml.Props.C37_sk_partial",
    "Mfpml.Props.C37_sk_counterexample"
   ],
   "note": "Holds for the GP, hierarchical Kriging and co-Kriging; false for scaled Kriging with rho other than 1 (exact difference proved, counterexample given)."
  },
  {
   "property": "C38",
   "status": "partial",
   "theorems": [
    "Mfpml.Props.C38_noise_sticky",
    "Mfpml.Props.C38_retraining_false",
    "Mfpml.Props.C38_hk_noise_sticky",
    "Mfpml.Props.C38_ck_noise_sticky"
   ],
   "note": "The property is false; every later training keeps the first noise (proved), counterexample given."
  },
  {
   "property": "C39",
   "status": "proved",
   "theorems": [
    "Mfpml.Props.C39_affine_equivariance"
   ],
   "note": ""
  },
  {
   "property": "C40",
   "status": "proved",
   "theorems": [
    "Mfpml.Props.C40_likelihood_order",
    "Mfpml.Props.C40_training_order"
   ],
   "note": ""
  },
  {
   "property": "C41",
   "status": "proved",
   "theorems": [
    "Mfpml.Props.C41_hk_interpolates",
    "Mfpml.Props.C41_hk_train_succeeds"
   ],
   "note": ""
  },
  {
   "property": "C42",
   "status": "proved",
   "theorems": [
    "Mfpml.Props.C42_hk_uncertainty"
   ],
   "note": ""
  },
  {
   "property": "C43",
   "status": "partial",
   "theorems": [
    "Mfpml.Props.C43_sk_reproduces_partial",
    "Mfpml.Props.C43_sk_failure_iff",
    "Mfpml.Props.C43_sk_counterexample"
   ],
   "note": "False for predict(X): it multiplies the discrepancy instead of the low-fidelity prediction by rho. Holds for return_std=True and for rho = 1; exact failure condition proved."
  },
  {
   "property": "C44",
   "status": "proved",
   "theorems": [
    "Mfpml.Props.C44_sk_rho",
    "Mfpml.Props.C44_sk_rho_off"
   ],
   "note": "For the bumpiness objective the optimiser is only assumed to report a point inside its bounds."
  },
  {
   "property": "C45",
   "status": "proved",
   "theorems": [
    "Mfpml.Props.C45_sk_error",
    "Mfpml.Props.C45_sk_error_shapes"
   ],
   "note": ""
  },
  {
   "property": "C46",
   "status": "partial",
   "theorems": [
    "Mfpml.Props.C46_ck_repeated_predict_partial",
    "Mfpml.Props.C46_ck_counterexample"
   ],
   "note": "The property is false: every call multiplies the noise by std(yh). The mean is stable; the exact standard deviations of all calls are proved."
  },
  {
   "property": "C47",
   "status": "partial",
   "theorems": [
    "Mfpml.Props.C47_ck_retraining_partial",
    "Mfpml.Props.C47_ck_counterexample"
   ],
   "note": "The property is false: every training divides the noise by std(yh). The exact noise after k trainings is proved."
  },
  {
   "property": "C48",
   "status": "proved",
   "theorems": [
    "Mfpml.Props.C48_joint_covariance",
    "Mfpml.Props.C48_trained",
    "Mfpml.Props.C48_train_succeeds"
   ],
   "note": ""
  },
  {
   "property": "C49",
   "status": "proved",
   "theorems": [
    "Mfpml.Props.C49_ck_jitter"
   ],
   "note": ""
  },
  {
   "property": "C50",
   "status": "proved",
   "theorems": [
    "Mfpml.Props.C50_ck_predict_lf"
   ],
   "note": ""
  },
  {
   "property": "C51",
   "status": "proved",
   "theorems": [
    "Mfpml.Props.C51_sf_best"
   ],
   "note": "For objectives that return one response per sample. Holds for any arithmetic, floating-point numbers included."
  },
  {
   "property": "C52",
   "status": "proved",
   "theorems": [
    "Mfpml.Props.C52_sf_budget",
    "Mfpml.Props.C52_sf_aligned"
   ],
   "note": "Holds for any arithmetic, floating-point numbers included."
  },
  {
   "property": "C53",
   "status": "proved",
   "theorems": [
    "Mfpml.Props.C53_sf_resume"
   ],
   "note": "Holds for any arithmetic, floating-point numbers included."
  },
  {
   "property": "C54",
   "status": "proved",
   "theorems": [
    "Mfpml.Props.C54_mf_best"
   ],
   "note": "Holds for any arithmetic, floating-point numbers included."
  },
  {
   "property": "C55",
   "status": "proved",
   "theorems": [
    "Mfpml.Props.C55_mf_bookkeeping",
    "Mfpml.Props.C55_mf_counts"
   ],
   "note": "Holds for any arithmetic, floating-point numbers included."
  },
  {
   "property": "C56",
   "status": "partial",
   "theorems": [
    "Mfpml.Props.C56_whole_budget_partial",
    "Mfpml.Props.C56_mf_counterexample"
   ],
   "note": "Holds for the single-fidelity and constrained optimisers; false for the multi-fidelity one, which compares the error strictly and makes no iteration at all (proved)."
  },
  {
   "property": "C57",
   "status": "proved",
   "theorems": [
    "Mfpml.Props.C57_error_measure"
   ],
   "note": ""
  },
  {
   "property": "C58",
   "status": "proved",
   "theorems": [
    "Mfpml.Props.C58_cons_best"
   ],
   "note": "Holds for any arithmetic, floating-point numbers included."
  },
  {
   "property": "C59",
   "status": "partial",
   "theorems": [
    "Mfpml.Props.C59_cons_bestX_partial",
    "Mfpml.Props.C59_counterexample"
   ],
   "note": "False: infeasible designs with the same objective value are reported too. Exact content of best_x proved."
  },
  {
   "property": "C60",
   "status": "proved",
   "theorems": [
    "Mfpml.Props.C60_query_best"
   ],
   "note": "scipy's search is an argument; its accuracy enters the statement."
  },
  {
   "property": "C61",
   "status": "partial",
   "theorems": [
    "Mfpml.Props.C61_default_partial",
    "Mfpml.Props.C61_counterexample",
    "Mfpml.Props.C61_library_optimizers"
   ],
   "note": "The property is false: with an optimiser object every query raises. Without one, the query returns the search result."
  },
  {
   "property": "C62",
   "status": "partial",
   "theorems": [
    "Mfpml.Props.C62_ei_partial",
    "Mfpml.Props.C62_counterexample"
   ],
   "note": "False by less than 1e-9: 1e-9 is added to the standard deviation in one place only. The distance to the exact expected improvement is bounded."
  },
  {
   "property": "C63",
   "status": "proved",
   "theorems": [
    "Mfpml.Props.C63_pi",
    "Mfpml.Props.C63_pi_mono"
   ],
   "note": ""
  },
  {
   "property": "C64",
   "status": "proved",
   "theorems": [
    "Mfpml.Props.C64_lcb",
    "Mfpml.Props.C64_vflcb"
   ],
   "note": ""
  },
  {
   "property": "C65",
   "status": "partial",
   "theorems": [
    "Mfpml.Props.C65_cei_partial",
    "Mfpml.Props.C65_pof_mono",
    "Mfpml.Props.C65_counterexample"
   ],
   "note": "Proved at single points, the way query evaluates it; batches of any other size raise ValueError."
  },
  {
   "property": "C66",
   "status": "partial",
   "theorems": [
    "Mfpml.Props.C66_aei_hf",
    "Mfpml.Props.C66_aei_lf_partial",
    "Mfpml.Props.C66_counterexample"
   ],
   "note": "High fidelity in full. At low fidelity the value is nan where the model is certain and both fidelities agree."
  },
  {
   "property": "C67",
   "status": "partial",
   "theorems": [
    "Mfpml.Props.C67_vfei_partial",
    "Mfpml.Props.C67_vfei_rejects",
    "Mfpml.Props.C67_vfei_rejects_models",
    "Mfpml.Props.C67_counterexample"
   ],
   "note": "At low fidelity the code uses the high-fidelity standard deviation."
  },
  {
   "property": "C76",
   "status": "proved",
   "theorems": [
    "Mfpml.Props.C76_gp_known",
    "Mfpml.Props.C76_gp_free",
    "Mfpml.Props.C76_hk",
    "Mfpml.Props.C76_hk_free",
    "Mfpml.Props.C76_ck"
   ],
   "note": ""
  },
  {
   "property": "C77",
   "status": "proved",
   "theorems": [
    "Mfpml.Props.C77_resume",
    "Mfpml.Props.C77_cons_budget",
    "Mfpml.Props.C55_mf_bookkeeping"
   ],
   "note": "Holds for any arithmetic, floating-point numbers included."
  },
  {
   "property": "C78",
   "status": "partial",
   "theorems": [
    "Mfpml.Props.C78_sf_crash_partial",
    "Mfpml.Props.C78_cons_crash_partial",
    "Mfpml.Props.C78_mf_crash_partial",
    "Mfpml.Props.C78_mf_counterexample"
   ],
   "note": "Holds for the single-fidelity and the constrained optimiser; false for the multi-fidelity one, which only compares new responses with best (there, best stays a response observed at best_x)."
  },
  {
   "property": "C79",
   "status": "proved",
   "theorems": [
    "Mfpml.Props.C79_hk_free",
    "Mfpml.Props.C79_hk_known",
    "Mfpml.Props.C79_ck_free",
    "Mfpml.Props.C79_ck_known"
   ],
   "note": "Optimiser under the contract GoodMinimizer."
  },
  {
   "property": "C80",
   "status": "partial",
   "theorems": [
    "Mfpml.Props.C80_hk_query_partial",
    "Mfpml.Props.C80_sk_query_partial",
    "Mfpml.Props.C80_counterexample"
   ],
   "note": "Proved for hierarchical and scaled Kriging: every query returns a point of the design space and a fidelity (AEI and EPI unless the fidelities agree somewhere with no uncertainty; VFEI refuses scaled Kriging). False for co-Kriging: the model has no attribute 'bound', so the first query raises AttributeError."
  },
  {
   "property": "C81",
   "status": "proved",
   "theorems": [
    "Mfpml.Props.C81_unknown_fidelity"
   ],
   "note": "The exception is not the ValueError the code builds."
  },
  {
   "property": "C82",
   "status": "partial",
   "theorems": [
    "Mfpml.Props.C82_epi",
    "Mfpml.Props.C82_epi_hk_partial",
    "Mfpml.Props.C82_counterexample"
   ],
   "note": "The factor never vanishes: the code multiplies correlations where the reference multiplies 1 - correlation."
  },
  {
   "property": "C83",
   "status": "proved",
   "theorems": [
    "Mfpml.Props.C83_pso_raise",
    "Mfpml.Props.C83_de_raise",
    "Mfpml.Props.C83_total",
    "Mfpml.Props.C83_raise_reaches_caller"
   ],
   "note": ""
  },
  {
   "property": "C68",
   "status": "proved",
   "theorems": [
    "Mfpml.Props.C68_single_fidelity",
    "Mfpml.Props.C68_constraints",
    "Mfpml.Props.C68_any_dimension",
    "Mfpml.Props.C68_multi_fidelity"
   ],
   "note": ""
  },
  {
   "property": "C71",
   "status": "partial",
   "theorems": [
    "Mfpml.Props.C71_same_point",
    "Mfpml.Props.C71_other_point",
    "Mfpml.Props.C71_currin_partial",
    "Mfpml.Props.C71_counterexample"
   ],
   "note": "All transforms hold; mf_CurrinExp only for arrays of floats (with an integer array the column assignments truncate, proved)."
  },
  {
   "property": "C72",
   "status": "partial",
   "theorems": [
    "Mfpml.Props.C72_single_fidelity",
    "Mfpml.Props.C72_any_dimension",
    "Mfpml.Props.C72_multi_fidelity_partial",
    "Mfpml.Props.C72_counterexample"
   ],
   "note": "False for mf_Park91A, which divides by x1 ** 2 and has x1 = 0 in its domain; proved for all others and for mf_Park91A off x1 = 0."
  },
  {
   "property": "C73",
   "status": "partial",
   "theorems": [
    "Mfpml.Props.C73_partial",
    "Mfpml.Props.C73_same_dimension",
    "Mfpml.Props.C73_counterexample"
   ],
   "note": "False: Ackley and Thevenot write class attributes. Proved: what is kept, and that instances of the same dimension do not interfere."
  },
  {
   "property": "C74",
   "status": "partial",
   "theorems": [
    "Mfpml.Props.C74_partial",
    "Mfpml.Props.C74_rejects",
    "Mfpml.Props.C74_counterexample"
   ],
   "note": "False: AckleyN2(3) and Ackley(0) are accepted."
  },
  {
   "property": "C75",
   "status": "partial",
   "theorems": [
    "Mfpml.Props.C75_call_partial",
    "Mfpml.Props.C75_rest_ignored",
    "Mfpml.Props.C75_counterexample"
   ],
   "note": "False for lists of three or more arrays: from the third on they are ignored."
  },
  {
   "property": "C69",
   "status": "partial",
   "theorems": [
    "Mfpml.Props.C69_exact",
    "Mfpml.Props.C69_ackley",
    "Mfpml.Props.C69_thevenot_line",
    "Mfpml.Props.C69_thevenot_partial",
    "Mfpml.Props.C69_thevenot_counterexample",
    "Mfpml.Props.C69_printed_precision_partial",
    "Mfpml.Props.C69_hartman_partial",
    "Mfpml.Props.C69_counterexample",
    "Mfpml.Props.C69_C70_ackleyN2_counterexample"
   ],
   "note": "Exact for Branin, GoldPrice, Ackley (every dimension), Thevenot in one dimension, mf_Bohachevsky, mf_Booth and Branin_2 (on feasible points). False exactly, but true to one unit of the last printed digit, for Forrester and its three variants, Sixhump (both), Sasena and Branin_1. Hartman3 and Hartman6 (both fidelities): proved up to 1e-5 and 1e-3. False for AckleyN2 (optimum and optimum_scheme are exchanged) and for Thevenot in two or more dimensions."
  },
  {
   "property": "C70",
   "status": "partial",
   "theorems": [
    "Mfpml.Props.C70_exact",
    "Mfpml.Props.C70_any_dimension",
    "Mfpml.Props.C70_printed_precision",
    "Mfpml.Props.C70_counterexample",
    "Mfpml.Props.C69_C70_ackleyN2_counterexample"
   ],
   "note": "Proved for Branin, Forrester and variants, Sixhump (both), Sasena, Hartman6 (both), Branin_1, Ackley, Thevenot, mf_Bohachevsky, mf_Booth. False for GoldPrice (value 28611 at the listed point), Hartman3 (both), Branin_2 (infeasible, wrong by more than 0.04) and AckleyN2."
  },
  {
   "property": "C84",
   "status": "proved",
   "theorems": [
    "Mfpml.Props.C84_gp_training",
    "Mfpml.Props.C84_pso_search",
    "Mfpml.Props.C84_de_search",
    "Mfpml.Props.C84_good"
   ],
   "note": "C84_good discharges, for the library's own optimisers, the assumption about population optimisers in C31, C41, C44 and C48."
  },
  {
   "property": "C85",
   "status": "proved",
   "theorems": [
    "Mfpml.Props.C85_sf_confined"
   ],
   "note": "scipy's searches and samplers enter as arguments with the contract Lawful; exceptions and arbitrary return values of the problem are included."
  },
  {
   "property": "C86",
   "status": "proved",
   "theorems": [
    "Mfpml.Props.C86_sf_succeeds",
    "Mfpml.Props.C86_sf_too_few"
   ],
   "note": "Constant responses give nan in the code, reported as an error by the model."
  },
  {
   "property": "C87",
   "status": "proved",
   "theorems": [
    "Mfpml.Props.C87_reproducible"
   ],
   "note": ""
  },
  {
   "property": "C88",
   "status": "proved",
   "theorems": [
    "Mfpml.Props.C88_sf_surrogate_current",
    "Mfpml.Props.C88_sf_responses",
    "Mfpml.Props.C88_cons_surrogates_current",
    "Mfpml.Props.C88_ei_proposal"
   ],
   "note": ""
  },
  {
   "property": "C89",
   "status": "proved",
   "theorems": [
    "Mfpml.Props.C89_cons_confined",
    "Mfpml.Props.C89_cons_responses",
    "Mfpml.Props.C89_cons_succeeds"
   ],
   "note": ""
  },
  {
   "property": "C90",
   "status": "proved",
   "theorems": [
    "Mfpml.Props.C90_mf_confined",
    "Mfpml.Props.C90_mf_responses",
    "Mfpml.Props.C90_mf_surrogate",
    "Mfpml.Props.C90_mf_cokriging_fails"
   ],
   "note": ""
  },
  {
   "property": "C91",
   "status": "partial",
   "theorems": [
    "Mfpml.Props.C91_mf_sizes_partial",
    "Mfpml.Props.C91_mf_list_emptied_counterexample"
   ],
   "note": "Sizes hold. The list is emptied by every successful construction, so it cannot be used again."
  },
  {
   "property": "C92",
   "status": "partial",
   "theorems": [
    "Mfpml.Props.C92_failed_training_partial",
    "Mfpml.Props.C92_failed_training_counterexample",
    "Mfpml.Props.C92_failed_training_blocks_counterexample"
   ],
   "note": "False: train replaces the samples and responses before it can fail, so predict then mixes the old weights with the new data, or raises ValueError. The exact effect is proved; models with other kernel objects are unaffected."
  },
  {
   "property": "C93",
   "status": "partial",
   "theorems": [
    "Mfpml.Props.C93_response_array_partial",
    "Mfpml.Props.C93_bounds_array_partial",
    "Mfpml.Props.C93_predictions_frozen_counterexample"
   ],
   "note": "False: the model keeps views of both arrays and recomputes mean and standard deviation of the responses in every predict call. The exact effect of both kinds of writes is proved."
  },
  {
   "property": "C94",
   "status": "partial",
   "theorems": [
    "Mfpml.Props.C94_models_independent_partial",
    "Mfpml.Props.C94_shared_kernel_counterexample"
   ],
   "note": "False for models given the same kernel object; proved for every program in which nobody trains with or writes to the objects the model holds."
  },
  {
   "property": "C95",
   "status": "proved",
   "theorems": [
    "Mfpml.Props.C95_retraining_forgets",
    "Mfpml.Props.C95_two_histories"
   ],
   "note": ""
  },
  {
   "property": "C96",
   "status": "proved",
   "theorems": [
    "Mfpml.Props.C96_pso_confined",
    "Mfpml.Props.C96_de_confined",
    "Mfpml.Props.C96_sf_samplers_confined",
    "Mfpml.Props.C96_mf_samplers_confined",
    "Mfpml.Props.C96_closed_draws_counterexample"
   ],
   "note": "Gradual underflow is modelled, overflow is treated in C180. With draws from the closed interval [0, 1] the claim would be false at every precision (proved)."
  },
  {
   "property": "C97",
   "status": "proved",
   "theorems": [
    "Mfpml.Props.C97_results_stay",
    "Mfpml.Props.C97_runs_are_independent",
    "Mfpml.Props.C97_value_model"
   ],
   "note": "Objects with the same num_pop and num_dim; the number of arguments of the objective is fixed. For every pattern of array sharing between objective and optimiser."
  },
  {
   "property": "C98",
   "status": "partial",
   "theorems": [
    "Mfpml.Props.C98_pso_reports_partial",
    "Mfpml.Props.C98_no_reuse_no_effect_partial",
    "Mfpml.Props.C98_pso_same_array_forgets_personal_bests",
    "Mfpml.Props.C98_de_same_array_never_moves",
    "Mfpml.Props.C98_de_same_array_counterexample",
    "Mfpml.Props.C98_pso_same_array_counterexample"
   ],
   "note": "False in general. Proved: the optimum PSO reports is right for every pattern of reuse, and both optimisers are right if the first returned array is not returned again. With one array for all calls PSO forgets personal bests, and DE accepts nothing and reports a best_y that is not the objective at best_x."
  },
  {
   "property": "C99",
   "status": "partial",
   "theorems": [
    "Mfpml.Props.C99_pso_arrays_partial",
    "Mfpml.Props.C99_de_arrays_partial",
    "Mfpml.Props.C99_pso_counterexample",
    "Mfpml.Props.C99_de_counterexample"
   ],
   "note": "False. Proved exactly which arrays are overwritten and with what: PSO overwrites the first argument and the first returned array with the personal bests; DE overwrites them with the final population and its responses, and uses one array for all later calls."
  },
  {
   "property": "C100",
   "status": "proved",
   "theorems": [
    "Mfpml.Props.C100_best_linear_unbiased",
    "Mfpml.Props.C100_weighted_sum",
    "Mfpml.Props.C100_hk_best_linear_unbiased"
   ],
   "note": "The cross-correlation used by predict carries an extra 1e-10 when the row number of the point is that of a sample (C36); it is part of the statement. Spec.predErr_meaning derives the mean squared error used in the statement from the definition in any inner-product space of random variables."
  },
  {
   "property": "C101",
   "status": "proved",
   "theorems": [
    "Mfpml.Props.C101_more_samples"
   ],
   "note": "Rows beyond the training sizes (no row-number effect, see C36)."
  },
  {
   "property": "C102",
   "status": "partial",
   "theorems": [
    "Mfpml.Props.C102_ck_covariance",
    "Mfpml.Props.C102_ck_prediction_partial",
    "Mfpml.Props.C102_ck_std_too_small",
    "Mfpml.Props.C102_counterexample"
   ],
   "note": "The mean is the best linear unbiased prediction. The reported variance leaves out the contribution of the estimated mean, (1 - 1'A^-1 c)^2 / (1'A^-1 1), so for every trained model with non-zero process variance it is too small at some point."
  },
  {
   "property": "C103",
   "status": "partial",
   "theorems": [
    "Mfpml.Props.C103_gp_units",
    "Mfpml.Props.C103_hk_units",
    "Mfpml.Props.C103_sk_units",
    "Mfpml.Props.C103_ck_units_partial",
    "Mfpml.Props.C103_ck_counterexample"
   ],
   "note": "Proved for Kriging, hierarchical Kriging, scaled Kriging and for co-Kriging with noise estimated or zero. False for co-Kriging with a known non-zero noise: the noise is divided by the spread of the responses twice in the likelihood (co_kriging.py:382 and 571-573), so the same data in other units give another rho and length scale."
  },
  {
   "property": "C104",
   "status": "proved",
   "theorems": [
    "Mfpml.Props.C104_gp_inputs",
    "Mfpml.Props.C104_hk_inputs",
    "Mfpml.Props.C104_sk_inputs",
    "Mfpml.Props.C104_ck_inputs"
   ],
   "note": "Outcome of training (result or exception) and all predictions, in exact arithmetic."
  },
  {
   "property": "C105",
   "status": "partial",
   "theorems": [
    "Mfpml.Props.C105_gp_rows_partial",
    "Mfpml.Props.C105_hk_rows_partial",
    "Mfpml.Props.C105_sk_rows_partial",
    "Mfpml.Props.C105_ck_rows_partial",
    "Mfpml.Props.C105_hk_counterexample",
    "Mfpml.Props.C105_sk_counterexample",
    "Mfpml.Props.C105_ck_counterexample"
   ],
   "note": "False: the kernel adds its nugget wherever row numbers agree. Proved: a prediction depends on the point and its row number only, and not on the latter beyond the sizes of the training sets; the exact dependence of the means."
  },
  {
   "property": "C106",
   "status": "partial",
   "theorems": [
    "Mfpml.Props.C106_gp_order_partial",
    "Mfpml.Props.C106_gp_counterexample"
   ],
   "note": "False, for the same reason as C36. Proved: equal hyper-parameters, equal predictions in rows beyond the number of samples, the exact difference of the means in earlier rows."
  },
  {
   "property": "C107",
   "status": "partial",
   "theorems": [
    "Mfpml.Props.C107_sk_trains_iff",
    "Mfpml.Props.C107_sk_trains_partial",
    "Mfpml.Props.C107_hk_trains_iff",
    "Mfpml.Props.C107_ck_trains_iff",
    "Mfpml.Props.C107_sk_offset_fails",
    "Mfpml.Props.C107_sk_counterexample",
    "Mfpml.Props.C107_hk_counterexample"
   ],
   "note": "Exact conditions proved. False for scaled Kriging when the fidelities differ by a constant (the discrepancy is normalised by its zero spread), and for hierarchical Kriging when the low-fidelity predictions all equal the mean of the high-fidelity responses. Holds for co-Kriging."
  },
  {
   "property": "C108",
   "status": "partial",
   "theorems": [
    "Mfpml.Props.C108_sk_objects_partial",
    "Mfpml.Props.C108_sk_same_model",
    "Mfpml.Props.C108_sk_same_model_counterexample"
   ],
   "note": "Proved for two different model objects with different kernel objects, whatever their state. False when one object is passed for both: it is retrained on the differences, and predict returns rho + 1 times them."
  },
  {
   "property": "C109",
   "status": "partial",
   "theorems": [
    "Mfpml.Props.C109_failed_training_partial",
    "Mfpml.Props.C109_failed_training_counterexample",
    "Mfpml.Props.C109_hk_failed_training_partial",
    "Mfpml.Props.C109_hk_failed_training_counterexample",
    "Mfpml.Props.C109_ck_failed_training_partial",
    "Mfpml.Props.C109_ck_failed_training_counterexample"
   ],
   "note": "False: the low-fidelity model is already replaced when the high-fidelity part raises. Proved: which part is old and which is new in each case; other models keep their predictions. Hierarchical Kriging: samples, mean and spread are new and the weights old, so predictions change silently, raise, or are nan. Co-Kriging: a call with a wrong number of low-fidelity responses or with equal high-fidelity responses raises and moves all predictions to the new mean and spread."
  },
  {
   "property": "C110",
   "status": "partial",
   "theorems": [
    "Mfpml.Props.C110_response_arrays_partial",
    "Mfpml.Props.C110_response_arrays_counterexample",
    "Mfpml.Props.C110_hk_response_arrays_partial",
    "Mfpml.Props.C110_hk_response_arrays_counterexample"
   ],
   "note": "Proved for the high-fidelity array. False for the low-fidelity array, which the low-fidelity model keeps a view of; the exact change is proved."
  },
  {
   "property": "C111",
   "status": "proved",
   "theorems": [
    "Mfpml.Props.C111_mf_raises_in_training",
    "Mfpml.Props.C111_hk_succeeds",
    "Mfpml.Props.C111_sk_succeeds",
    "Mfpml.Props.C111_hk_new_succeeds",
    "Mfpml.Props.C111_sk_new_succeeds",
    "Mfpml.Props.C111_sk_vfei_fails"
   ],
   "note": ""
  },
  {
   "property": "C112",
   "status": "proved",
   "theorems": [
    "Mfpml.Props.C112_hk_retraining"
   ],
   "note": "Induction over the history; the noise must be known, because an estimated noise level is stored and used as known by later trainings."
  },
  {
   "property": "C113",
   "status": "partial",
   "theorems": [
    "Mfpml.Props.C113_ck_retraining_partial",
    "Mfpml.Props.C113_ck_trained_object",
    "Mfpml.Props.C113_ck_noise_free",
    "Mfpml.Props.C113_ck_flat_responses",
    "Mfpml.Props.C113_ck_retraining_counterexample"
   ],
   "note": "False: one training on equal high-fidelity responses makes the noise nan or infinite, and no later training of that object returns with finite values (proved for all histories); every training divides the noise and every standard deviation multiplies it. Proved: without such trainings the object is trained like a new one whose noise is the outcome of that account; for noise 0 like the object as created."
  },
  {
   "property": "C114",
   "status": "proved",
   "theorems": [
    "Mfpml.Props.C114_gp_evaluated",
    "Mfpml.Props.C114_gp_noise_free"
   ],
   "note": "In every batch and row, although the nugget is added by row number."
  },
  {
   "property": "C115",
   "status": "proved",
   "theorems": [
    "Mfpml.Props.C115_gp_mean",
    "Mfpml.Props.C115_gp_std"
   ],
   "note": "Constant basis, as in the statement; for other bases the trend adds its own variation."
  },
  {
   "property": "C116",
   "status": "partial",
   "theorems": [
    "Mfpml.Props.C116_ei_evaluated_partial",
    "Mfpml.Props.C116_ei_new_point_partial",
    "Mfpml.Props.C116_pi_first",
    "Mfpml.Props.C116_pi_counterexample"
   ],
   "note": "Proved for EI with a search that is within epsilon of the minimum. False for PI: predicted alone, the first sample has standard deviation 0, and if it is the best one PI rates it 1/2 and, with an exact search, proposes it again."
  },
  {
   "property": "C117",
   "status": "proved",
   "theorems": [
    "Mfpml.Props.C117_bases",
    "Mfpml.Props.C117_gp_continuous",
    "Mfpml.Props.C117_hk_continuous",
    "Mfpml.Props.C117_sk_continuous",
    "Mfpml.Props.C117_ck_continuous"
   ],
   "note": "Per row number: the nugget makes different rows different functions (C105)."
  },
  {
   "property": "C118",
   "status": "partial",
   "theorems": [
    "Mfpml.Props.C118_sf",
    "Mfpml.Props.C118_cons",
    "Mfpml.Props.C118_mf",
    "Mfpml.Props.C118_sf_reachable",
    "Mfpml.Props.C118_cons_reachable",
    "Mfpml.Props.C118_hk_trained",
    "Mfpml.Props.C118_sk_trained",
    "Mfpml.Props.C118_aei_partial",
    "Mfpml.Props.C118_epi_partial",
    "Mfpml.Props.C118_hk_aei_epi_partial",
    "Mfpml.Props.C118_sk_aei_epi_partial",
    "Mfpml.Props.C118_hk_first_sample",
    "Mfpml.Props.C118_aei_epi_counterexample"
   ],
   "note": "Proved for LCB, EI, PI, constrained EI, VFLCB, VFEI, and for AugmentedEI and ExtendedPI at the high fidelity, and at the low fidelity where nothing is divided by zero. False for those two at the low fidelity: where both fidelities agree without uncertainty they compute 0/0."
  },
  {
   "property": "C119",
   "status": "partial",
   "theorems": [
    "Mfpml.Props.C119_gp_known_optimum",
    "Mfpml.Props.C119_gp_free_optimum",
    "Mfpml.Props.C119_gp_noise_free",
    "Mfpml.Props.C119_gp_known_noise",
    "Mfpml.Props.C119_gp_unknown_noise",
    "Mfpml.Props.C119_hk_noise_free",
    "Mfpml.Props.C119_hk_known_noise",
    "Mfpml.Props.C119_hk_unknown_noise",
    "Mfpml.Props.C119_ck_unknown_noise",
    "Mfpml.Props.C119_ck_noise_free_partial",
    "Mfpml.Props.C119_ck_known_noise_partial",
    "Mfpml.Props.C119_ck_counterexample"
   ],
   "note": "Proved for Kriging and hierarchical Kriging (noise-free data must not be fitted exactly by the trend), and for co-Kriging with unknown noise. With noise the maximised likelihood is that of process variance 1, whereas predictions use the fitted variance. Noise-free co-Kriging needs that no rho within its bounds makes the difference constant; otherwise the searched value is log 0 there (counterexample). With a known positive noise co-Kriging maximises the likelihood of another noise than the one the model then uses, because the code rescales it twice."
  },
  {
   "property": "C120",
   "status": "proved",
   "theorems": [
    "Mfpml.Props.C120_pso_prefix",
    "Mfpml.Props.C120_pso_longer",
    "Mfpml.Props.C120_de_prefix",
    "Mfpml.Props.C120_de_longer"
   ],
   "note": "Over any arithmetic, including floats."
  },
  {
   "property": "C121",
   "status": "proved",
   "theorems": [
    "Mfpml.Props.C121_pso",
    "Mfpml.Props.C121_de"
   ],
   "note": "Over any arithmetic, including floats."
  },
  {
   "property": "C122",
   "status": "proved",
   "theorems": [
    "Mfpml.Props.C122_pso",
    "Mfpml.Props.C122_de"
   ],
   "note": "Over a linear ordered field: exact arithmetic, because rounding depends on the units. best_x of a run stopped early is a row of zeros (C04) and is not converted; the statement is about the rows that were written."
  },
  {
   "property": "C123",
   "status": "partial",
   "theorems": [
    "Mfpml.Props.C123_gp",
    "Mfpml.Props.C123_gp_reference",
    "Mfpml.Props.C123_sk",
    "Mfpml.Props.C123_sk_reference",
    "Mfpml.Props.C123_sk_search",
    "Mfpml.Props.C123_sk_search_reference",
    "Mfpml.Props.C123_hk",
    "Mfpml.Props.C123_hk_reference",
    "Mfpml.Props.C123_ck_partial",
    "Mfpml.Props.C123_ck_counterexample"
   ],
   "note": "Proved for Kriging, scaled Kriging (fixed scale factor or any search for it) and hierarchical Kriging, also that these are the models of the other properties. False for co-Kriging: a flat response array of either fidelity raises an exception for all data and optimisers, because the difference of a flat array and a column is a square matrix (co_kriging.py:579-589), while the same call with columns works."
  },
  {
   "property": "C124",
   "status": "partial",
   "theorems": [
    "Mfpml.Props.C124_gp",
    "Mfpml.Props.C124_hk",
    "Mfpml.Props.C124_ck",
    "Mfpml.Props.C124_sk_partial",
    "Mfpml.Props.C124_sk_one_response",
    "Mfpml.Props.C124_sk_counterexample",
    "Mfpml.Props.C124_sk_search_partial",
    "Mfpml.Props.C124_sk_search_one_response"
   ],
   "note": "Proved for Kriging, hierarchical Kriging and co-Kriging (which accepts columns of the right lengths only), and for the low-fidelity responses of scaled Kriging. False for scaled Kriging (with a fixed scale factor and with a search for it) with exactly one high-fidelity response: it is silently used for every sample."
  },
  {
   "property": "C125",
   "status": "partial",
   "theorems": [
    "Mfpml.Props.C125_point_gp",
    "Mfpml.Props.C125_point_hk",
    "Mfpml.Props.C125_point_sk",
    "Mfpml.Props.C125_point_ck",
    "Mfpml.Props.C125_columns_gp_partial",
    "Mfpml.Props.C125_columns_mf_partial",
    "Mfpml.Props.C125_one_column",
    "Mfpml.Props.C125_one_column_mf",
    "Mfpml.Props.C125_one_column_counterexample",
    "Mfpml.Props.C125_extra_columns_counterexample",
    "Mfpml.Props.C125_flat_samples_unusable",
    "Mfpml.Props.C125_flat_samples_counterexample"
   ],
   "note": "Proved: (d,) equals (1, d) for points; k columns with k, d, 1 all different raise. False: one column is silently repeated d times, in training and prediction; a one-dimensional model trains on any number of columns; a one-dimensional Kriging model with estimated noise trains on a flat array of samples (ignoring them) and then raises in every prediction."
  },
  {
   "property": "C126",
   "status": "partial",
   "theorems": [
    "Mfpml.Props.C126_gp_meaning",
    "Mfpml.Props.C126_gp_known_noise_partial",
    "Mfpml.Props.C126_gp_unknown_noise_partial",
    "Mfpml.Props.C126_gp_counterexample",
    "Mfpml.Props.C126_hk_meaning",
    "Mfpml.Props.C126_hk_known_noise_partial",
    "Mfpml.Props.C126_hk_unknown_noise_partial",
    "Mfpml.Props.C126_hk_counterexample",
    "Mfpml.Props.C126_ck_meaning",
    "Mfpml.Props.C126_ck_noise_free_partial",
    "Mfpml.Props.C126_ck_counterexample"
   ],
   "note": "Proved for Kriging and hierarchical Kriging with a known non-zero or an estimated noise, and for noise-free co-Kriging. False for noise-free Kriging and hierarchical Kriging: -n/2 v is stored instead of -n/2 log v (v the process variance), too small by n/2 (v - log v) >= n/2; and for co-Kriging with estimated noise, where it is too large by the same amount."
  },
  {
   "property": "C127",
   "status": "partial",
   "theorems": [
    "Mfpml.Props.C127_gp_partial",
    "Mfpml.Props.C127_gp_trend_partial",
    "Mfpml.Props.C127_gp_first_rows",
    "Mfpml.Props.C127_gp_counterexample",
    "Mfpml.Props.C127_gp_single_point_counterexample",
    "Mfpml.Props.C127_hk_partial",
    "Mfpml.Props.C127_sk_partial",
    "Mfpml.Props.C127_ck_partial"
   ],
   "note": "Proved for the rows of a batch beyond the number of samples. False in earlier rows, so also for points predicted alone: the kernel adds its nugget by row number, and the limit contains 1e-10 times the weight of the sample with the same number (exact limits proved for Kriging). Hierarchical Kriging tends to its trend at the limit of the low-fidelity predictions; co-Kriging to a weighted mean of the responses of both fidelities, without the variance of that mean."
  },
  {
   "property": "C128",
   "status": "partial",
   "theorems": [
    "Mfpml.Props.C128_hk_partial",
    "Mfpml.Props.C128_hk_counterexample"
   ],
   "note": "False in general: the low-fidelity predictions are centred with the mean of the high-fidelity responses before the scale is estimated, so doubling low-fidelity responses changes the predictions (witness with two samples). Proved for changes of scale about that mean, c + a (yl - c), for every a other than 0, with equal errors."
  },
  {
   "property": "C129",
   "status": "proved",
   "theorems": [
    "Mfpml.Props.C129_random",
    "Mfpml.Props.C129_lhs",
    "Mfpml.Props.C129_sobol",
    "Mfpml.Props.C129_pso",
    "Mfpml.Props.C129_de"
   ],
   "note": "Assumes draws that are exactly uniform on the unit cube (an ideal generator) and proves that scaling and recording keep the distribution, including independence between rows."
  },
  {
   "property": "C130",
   "status": "proved",
   "theorems": [
    "Mfpml.Props.C130_pso",
    "Mfpml.Props.C130_de",
    "Mfpml.Props.C130_pso_large",
    "Mfpml.Props.C130_de_large"
   ],
   "note": "Only the initial draws need to be independent and uniform; the bound uses that the returned value is never above the best initial value."
  },
  {
   "property": "C131",
   "status": "proved",
   "theorems": [
    "Mfpml.Props.C131_lcb",
    "Mfpml.Props.C131_ei",
    "Mfpml.Props.C131_pi",
    "Mfpml.Props.C131_stopping_counterexample"
   ],
   "note": "Exact arithmetic; the inner search (scipy's differential evolution) is assumed to return the same point for a search function in other units. The counterexample proves the last sentence of the property."
  },
  {
   "property": "C132",
   "status": "proved",
   "theorems": [
    "Mfpml.Props.C132_vflcb",
    "Mfpml.Props.C132_vfei",
    "Mfpml.Props.C132_aei",
    "Mfpml.Props.C132_epi"
   ],
   "note": "Exact arithmetic; the same assumption on the inner search as C131, here on its returned value too."
  },
  {
   "property": "C133",
   "status": "proved",
   "theorems": [
    "Mfpml.Props.C133_linear",
    "Mfpml.Props.C133_quadratic",
    "Mfpml.Props.C133_hk",
    "Mfpml.Props.C133_hk_equal_fidelities"
   ],
   "note": "Exact arithmetic. Training has to succeed: with noise given as 0 the likelihood of such data is infinite in exact arithmetic (log 0), so the theorems apply to estimated or non-zero noise."
  },
  {
   "property": "C134",
   "status": "proved",
   "theorems": [
    "Mfpml.Props.C134_sf_save",
    "Mfpml.Props.C134_mf_save",
    "Mfpml.Props.C134_returned",
    "Mfpml.Props.C134_rows",
    "Mfpml.Props.C134_sf_round_trip",
    "Mfpml.Props.C134_mf_round_trip"
   ],
   "note": "All programs over any number of sampler objects, arrays and files; pickle.dump of arrays is assumed to succeed and RandomSampler with seed None is not modelled."
  },
  {
   "property": "C135",
   "status": "partial",
   "theorems": [
    "Mfpml.Props.C135_files_partial",
    "Mfpml.Props.C135_counterexample"
   ],
   "note": "False: save_data of a multi-fidelity sampler without samples opens the file, which empties it, before it raises AttributeError. Proved: this is the only save_data call that raises, and files are changed by save_data calls with their name only."
  },
  {
   "property": "C136",
   "status": "partial",
   "theorems": [
    "Mfpml.Props.C136_calls_partial",
    "Mfpml.Props.C136_fidelities_partial",
    "Mfpml.Props.C136_nested_sobol_shared",
    "Mfpml.Props.C136_counterexample"
   ],
   "note": "False for nested Sobol designs: the samples of a higher fidelity are a view of those of the lower one (exact sharing proved). Proved for arrays of different calls and for all other designs."
  },
  {
   "property": "C137",
   "status": "partial",
   "theorems": [
    "Mfpml.Props.C137_sf_partial",
    "Mfpml.Props.C137_mf_partial",
    "Mfpml.Props.C137_counterexample"
   ],
   "note": "False for samplers constructed from an array: they keep a reference and use the bounds the array has when samples are drawn. Proved for lists, and for arrays that are not written to."
  },
  {
   "property": "C138",
   "status": "partial",
   "theorems": [
    "Mfpml.Props.C138_cons",
    "Mfpml.Props.C138_sf_partial",
    "Mfpml.Props.C138_mf_partial",
    "Mfpml.Props.C138_sf_write",
    "Mfpml.Props.C138_mf_write",
    "Mfpml.Props.C138_counterexample",
    "Mfpml.Props.C138_sf_values",
    "Mfpml.Props.C138_mf_values",
    "Mfpml.Props.C138_cons_values"
   ],
   "note": "False for the unconstrained optimisers: best_x is a view of a row of the samples (single fidelity: once an iteration has been made; multi-fidelity: until the first high-fidelity evaluation), so writing into it replaces the recorded sample and the optimiser then reports the best value at a point where it was not observed. Proved in full for the constrained optimiser; for the others exactly which writes are harmless and what the others do."
  },
  {
   "property": "C139",
   "status": "partial",
   "theorems": [
    "Mfpml.Props.C139_spec",
    "Mfpml.Props.C139_lcb",
    "Mfpml.Props.C139_aei",
    "Mfpml.Props.C139_ei_partial",
    "Mfpml.Props.C139_vfei_partial",
    "Mfpml.Props.C139_cei_partial",
    "Mfpml.Props.C139_pi",
    "Mfpml.Props.C139_counterexample"
   ],
   "note": "Exact for the lower confidence bound and augmented EI, and for the expected improvement as an integral. False for EI, CEI and VFEI as coded: the constant added to the standard deviation only inside cdf and pdf makes the value negative and increasing again far above the incumbent; proved up to 5e-10 (VFEI 5e-9) everywhere and exactly in the region (fmin - mean)^2 * 1e-9 <= std * (std + 1e-9)^2. PI: exact above the incumbent, and opposite in the standard deviation below it."
  },
  {
   "property": "C140",
   "status": "partial",
   "theorems": [
    "Mfpml.Props.C140_pso_partial",
    "Mfpml.Props.C140_pso_end",
    "Mfpml.Props.C140_pso_result",
    "Mfpml.Props.C140_pso_nosave",
    "Mfpml.Props.C140_pso_print",
    "Mfpml.Props.C140_de_partial",
    "Mfpml.Props.C140_de_end",
    "Mfpml.Props.C140_de_result",
    "Mfpml.Props.C140_de_nosave",
    "Mfpml.Props.C140_de_print",
    "Mfpml.Props.C140_counterexample",
    "Mfpml.Props.C140_best_counterexample"
   ],
   "note": "False while the file is being rewritten: it is opened with 'wb', which empties it, before the new record is dumped, so a process killed in between leaves no readable results at all. Proved: what the file holds at every crash point, and the complete claim outside that window. Also the entry best_y (best_x) of the record is the whole history with zero rows to come, not the best value; the record does not tell how many iterations were made."
  },
  {
   "property": "C141",
   "status": "proved",
   "theorems": [
    "Mfpml.Props.C141_pso",
    "Mfpml.Props.C141_de",
    "Mfpml.Props.C141_pso_raising",
    "Mfpml.Props.C141_de_raising",
    "Mfpml.Props.C141_trends",
    "Mfpml.Props.C141_restarts",
    "Mfpml.Props.C141_population_search",
    "Mfpml.Props.C141_gp",
    "Mfpml.Props.C141_hk",
    "Mfpml.Props.C141_sk",
    "Mfpml.Props.C141_ck"
   ],
   "note": "The local optimiser (scipy) enters as a solver that treats all variables alike; the library's own PSO and DE as solvers are proved to."
  },
  {
   "property": "C142",
   "status": "partial",
   "theorems": [
    "Mfpml.Props.C142_shared",
    "Mfpml.Props.C142_list_partial",
    "Mfpml.Props.C142_list_counterexample"
   ],
   "note": "False without num_skip when the design spaces are given as a list: the number of skipped points is then the number of fidelities (the length of the list), not the number of variables, so the same problem written with one design space and with a list gives different samples."
  },
  {
   "property": "C143",
   "status": "partial",
   "theorems": [
    "Mfpml.Props.C143_too_few_partial",
    "Mfpml.Props.C143_too_many_partial",
    "Mfpml.Props.C143_extra_columns_counterexample",
    "Mfpml.Props.C143_one_column_counterexample",
    "Mfpml.Props.C143_flattened_counterexample"
   ],
   "note": "False: most problems silently ignore additional columns, the Hartman functions given a single column use it for all variables, and two one-dimensional problems return one response per entry instead of per sample. Proved: which wrong shapes do raise."
  },
  {
   "property": "C144",
   "status": "partial",
   "theorems": [
    "Mfpml.Props.C144_value",
    "Mfpml.Props.C144_perfect_counterexample",
    "Mfpml.Props.C144_history_partial",
    "Mfpml.Props.C144_history_counterexample"
   ],
   "note": "False in two ways. A scale factor that reproduces the responses (up to a constant) makes the discrepancies constant and the evaluation raises. With estimated noise the first candidate fixes the noise for all later ones, so the objective depends on the history; with given noise it is proved not to."
  },
  {
   "property": "C145",
   "status": "partial",
   "theorems": [
    "Mfpml.Props.C145_sf",
    "Mfpml.Props.C145_mf_constructor",
    "Mfpml.Props.C145_mf_partial",
    "Mfpml.Props.C145_six_fidelities_counterexample"
   ],
   "note": "False for six or more fidelities: there are six markers but only five colours and plotting raises IndexError. Proved for everything else."
  },
  {
   "property": "C146",
   "status": "partial",
   "theorems": [
    "Mfpml.Props.C146_pso_partial",
    "Mfpml.Props.C146_de_partial",
    "Mfpml.Props.C146_counterexample"
   ],
   "note": "False after an early stop: the history array was allocated with zeros for all generations, and the curve drops (or rises) to height 0 for the generations that did not run."
  },
  {
   "property": "C147",
   "status": "partial",
   "theorems": [
    "Mfpml.Props.C147_update_partial",
    "Mfpml.Props.C147_untrained",
    "Mfpml.Props.C147_noise_counterexample",
    "Mfpml.Props.C147_failed_update_counterexample"
   ],
   "note": "False in two ways. The noise is estimated in the first training only; an update keeps it, where a fresh model would estimate it from all samples. A call that raises leaves its samples in the model: after one call with mismatched numbers every later call raises ValueError. Proved: a returning update equals training a fresh model with the noise of the first training on all samples, those of failed calls included."
  },
  {
   "property": "C148",
   "status": "partial",
   "theorems": [
    "Mfpml.Props.C148_pso_partial",
    "Mfpml.Props.C148_de_partial",
    "Mfpml.Props.C148_pso_initial_nan_counterexample",
    "Mfpml.Props.C148_de_initial_nan_counterexample",
    "Mfpml.Props.C148_skipped_generation_counterexample",
    "Mfpml.Props.C148_agrees_pso",
    "Mfpml.Props.C148_agrees_de"
   ],
   "note": "False: one nan in the initial population makes both optimisers return nan whatever is found later (min is nan, and no comparison with nan succeeds), and PSO ignores every later generation that contains a nan, together with the numbers in it. Proved: PSO returns the best number of the generations without nan, DE the best number of all evaluations, if no initial value is nan. Without nan the model is that of the other properties."
  },
  {
   "property": "C149",
   "status": "partial",
   "theorems": [
    "Mfpml.Props.C149_partial",
    "Mfpml.Props.C149_sobol_flat",
    "Mfpml.Props.C149_counterexample"
   ],
   "note": "False for SobolSequence with a flat [lower, upper] and without num_skip: the default is the length of the argument as written, 2, whereas [[lower, upper]] skips 1 point. Proved for all other forms and samplers, and that these are the samples of the other properties."
  },
  {
   "property": "C150",
   "status": "partial",
   "theorems": [
    "Mfpml.Props.C150_partial",
    "Mfpml.Props.C150_counterexample"
   ],
   "note": "Rows of different lengths raise in the constructor, rows with fewer than two numbers when samples are drawn. False for rows with more than two numbers (the rest is ignored) and for the bounds of several variables in one flat list (taken as one variable)."
  },
  {
   "property": "C151",
   "status": "partial",
   "theorems": [
    "Mfpml.Props.C151_partial",
    "Mfpml.Props.C151_python_lists",
    "Mfpml.Props.C151_counterexample"
   ],
   "note": "Proved for arrays and lists of arrays. False for nested Python lists, which raise TypeError for all arguments although the single-fidelity samplers accept them; an array without num_fidelity raises TypeError in the constructor."
  },
  {
   "property": "C152",
   "status": "partial",
   "theorems": [
    "Mfpml.Props.C152_partial",
    "Mfpml.Props.C152_counterexample"
   ],
   "note": "Proved unless one of the numbers of variables is 1. With one variable at the first fidelity and several at another, the samples of the latter all lie on the diagonal of their design space; the other way round all columns get the same bounds."
  },
  {
   "property": "C153",
   "status": "proved",
   "theorems": [
    "Mfpml.Props.C153_sf",
    "Mfpml.Props.C153_mf"
   ],
   "note": "Exact arithmetic."
  },
  {
   "property": "C154",
   "status": "proved",
   "theorems": [
    "Mfpml.Props.C154_sf",
    "Mfpml.Props.C154_constrained",
    "Mfpml.Props.C154_mf"
   ],
   "note": "Exact arithmetic; default search of the acquisitions (no optimiser object). That differential evolution, which is not modelled, does not depend on the units of its variables is a hypothesis (met by the search of the examples)."
  },
  {
   "property": "C155",
   "status": "partial",
   "theorems": [
    "Mfpml.Props.C155_kriging",
    "Mfpml.Props.C155_hk",
    "Mfpml.Props.C155_sk",
    "Mfpml.Props.C155_ck_partial",
    "Mfpml.Props.C155_columns",
    "Mfpml.Props.C155_sf_partial",
    "Mfpml.Props.C155_mf_partial",
    "Mfpml.Props.C155_cons_partial",
    "Mfpml.Props.C155_counterexample"
   ],
   "note": "Proved: best, best_x and the history are never nan and remain those of proper evaluations. False: the optimisation cannot be continued. On responses that contain nan or an infinity every likelihood is nan, no restart is accepted, and train raises UnboundLocalError; the improper response stays among the data, so every later iteration raises too, and a constructor with an improper initial response raises. For co-Kriging an infinite low-fidelity response is left out; models with an optimiser object of the repository instead of L-BFGS-B are not covered."
  },
  {
   "property": "C156",
   "status": "proved",
   "theorems": [
    "Mfpml.Props.C156_sf",
    "Mfpml.Props.C156_mf",
    "Mfpml.Props.C156_cons",
    "Mfpml.Props.C156_shown",
    "Mfpml.Props.C156_shown_inf"
   ],
   "note": "The fixed texts of the lines are left out of the model; the error of a number printed with decimals is that of exact half-even rounding."
  },
  {
   "property": "C157",
   "status": "partial",
   "theorems": [
    "Mfpml.Props.C157_value_partial",
    "Mfpml.Props.C157_proposal_partial",
    "Mfpml.Props.C157_blind_counterexample",
    "Mfpml.Props.C157_counterexample"
   ],
   "note": "False: CEI.ei compares with the smallest of all observed objective values, infeasible designs included, so a certain improvement of the best feasible value counts as no improvement if an infeasible design is better still. Proved: the searched function is exact for that incumbent (up to 2e-9), it never exceeds the weighted improvement over best, and the proposal is optimal up to the difference of both incumbents, which is 0 if the smallest value was observed at a feasible design."
  },
  {
   "property": "C158",
   "status": "proved",
   "theorems": [
    "Mfpml.Props.C158_units",
    "Mfpml.Props.C158_library"
   ],
   "note": "Exact arithmetic; the same assumption on the inner search as C131. A known optimum needs an objective without offset and must not be 0 (the stopping rule is a relative error, see C131). C158_library: with the constants 1e-9 the optimiser with adjustable constants is the library's."
  },
  {
   "property": "C159",
   "status": "partial",
   "theorems": [
    "Mfpml.Props.C159_gp",
    "Mfpml.Props.C159_hk_partial",
    "Mfpml.Props.C159_ck_partial",
    "Mfpml.Props.C159_sk_partial",
    "Mfpml.Props.C159_sk_ignored",
    "Mfpml.Props.C159_sk_correlation_partial",
    "Mfpml.Props.C159_counterexample",
    "Mfpml.Props.pso_staysInside",
    "Mfpml.Props.de_staysInside"
   ],
   "note": "Holds for GaussianProcessRegression. False for the multi-fidelity models: HierarchicalKriging and CoKriging do not pass kernel_bound on to their low-fidelity model, which always uses [-2, 3]; ScaledKriging ignores it altogether: the kernel made from it is never trained, and _eval_corr(fidelity=0), the high-fidelity correlation, stays that of an untrained kernel with parameters 1 whatever the data. Proved: the kernels of HK and CK themselves are within kernel_bound, all other ones within [-2, 3] or the bounds of the given models; changing kernel_bound changes nothing in ScaledKriging."
  },
  {
   "property": "C160",
   "status": "partial",
   "theorems": [
    "Mfpml.Props.C160_aei",
    "Mfpml.Props.C160_vflcb",
    "Mfpml.Props.C160_epi",
    "Mfpml.Props.C160_near",
    "Mfpml.Props.C160_vfei_partial",
    "Mfpml.Props.C160_counterexample"
   ],
   "note": "Proved for AugmentedEI, VFLCB and ExtendedPI (with searches exact up to epsilon: up to ties within epsilon). False for VFEI, which ignores cost_ratio; moreover, with an exact search it proposes the low fidelity only where the high-fidelity standard deviation is below machine epsilon, or when no point promises an improvement: elsewhere the two acquisition values are equal and ties go to the high fidelity."
  },
  {
   "property": "C161",
   "status": "partial",
   "theorems": [
    "Mfpml.Props.C161_non_nested_partial",
    "Mfpml.Props.C161_nested_partial",
    "Mfpml.Props.C161_counterexample"
   ],
   "note": "Proved for every fidelity of non-nested designs and for the lowest fidelity of nested ones; a higher fidelity of a nested design has at most one sample in each slice of the lowest fidelity. False for the higher fidelities of nested designs, which are random subsets: both of 2 samples chosen from 4 may lie in the lower half of the interval."
  },
  {
   "property": "C162",
   "status": "partial",
   "theorems": [
    "Mfpml.Props.C162_hk",
    "Mfpml.Props.C162_sk",
    "Mfpml.Props.C162_ck_partial",
    "Mfpml.Props.C162_counterexample"
   ],
   "note": "Proved for HierarchicalKriging and ScaledKriging, and for CoKriging with noise 0 when both trainings find the same low-fidelity length scales. False for CoKriging with noise: its low-fidelity model is trained on data scaled with the mean and standard deviation of the high-fidelity responses, and doubling these responses changes the low-fidelity prediction at a low-fidelity sample."
  },
  {
   "property": "C163",
   "status": "partial",
   "theorems": [
    "Mfpml.Props.C163_pso_partial",
    "Mfpml.Props.C163_de_partial",
    "Mfpml.Props.C163_pso_confined",
    "Mfpml.Props.C163_de_confined",
    "Mfpml.Props.C163_pso_counterexample",
    "Mfpml.Props.C163_de_counterexample"
   ],
   "note": "Proved: the probability does not decrease with num_gen. False: it does not tend to one. Whoever starts in the basin of a local minimum stays there for ever, for all later draws: the DE donors are differences of members and the PSO velocities contain no random numbers. There is a continuous objective on an interval for which, with the default settings and any population size, the probability stays below a bound less than one for all num_gen. (C130: it tends to one when the population grows.)"
  },
  {
   "property": "C164",
   "status": "proved",
   "theorems": [
    "Mfpml.Props.C164_kriging",
    "Mfpml.Props.C164_hk",
    "Mfpml.Props.C164_sk",
    "Mfpml.Props.C164_ck",
    "Mfpml.Props.C164_finite_kriging",
    "Mfpml.Props.C164_finite_hk",
    "Mfpml.Props.C164_finite_sk",
    "Mfpml.Props.C164_finite_ck"
   ],
   "note": "The C164_finite theorems say that on finite responses, in exact arithmetic, this model with nan and infinities is the model of the other Kriging properties: same likelihood, same training, same predictions. The optimiser is an arbitrary function of the likelihood, cholesky and solve are arbitrary, so that the claim does not depend on them refusing nan. Complements C155 (scipy: training raises)."
  },
  {
   "property": "C165",
   "status": "proved",
   "theorems": [
    "Mfpml.Props.C165_error_bound",
    "Mfpml.Props.C165_dense",
    "Mfpml.Props.C165_hk_error_bound"
   ],
   "note": "The 2e-5 is the effect of the nugget that the kernel adds when the row of a point has the number of a sample; beyond the training size it is absent. The widths are those found by training."
  },
  {
   "property": "C166",
   "status": "partial",
   "theorems": [
    "Mfpml.Props.C166_kriging",
    "Mfpml.Props.C166_hk",
    "Mfpml.Props.C166_sk_partial",
    "Mfpml.Props.C166_sk_counterexample",
    "Mfpml.Props.C166_ck"
   ],
   "note": "Proved for Kriging, hierarchical Kriging (after trainings that raised the exception may be another than AttributeError) and co-Kriging, and for scaled Kriging with a fixed scale factor or the error criterion. False for scaled Kriging with the bumpiness criterion: the search for the scale factor trains the discrepancy model, so if the last training raises (for example because the high-fidelity responses are an exact multiple of the low-fidelity ones and the discrepancy model has an optimiser of the repository, see C155) the object predicts all the same, with wrong values."
  },
  {
   "property": "C167",
   "status": "proved",
   "theorems": [
    "Mfpml.Props.C167_scale_factor"
   ],
   "note": "The solver is trusted to return a local minimum within the bounds of a continuous convex objective; such a solver exists (findsLocalMinima_exists)."
  },
  {
   "property": "C168",
   "status": "partial",
   "theorems": [
    "Mfpml.Props.C168_kron_partial",
    "Mfpml.Props.C168_counterexample"
   ],
   "note": "False: rows closer than 2^-23 (absolute, whatever the scale of the data) are reported as equal, and the relation is not transitive. Proved: true for equal rows, false for rows with an entry that differs by at least 2^-23, symmetric, invariant under shifts, row by row."
  },
  {
   "property": "C169",
   "status": "proved",
   "theorems": [
    "Mfpml.Props.C169_reports"
   ],
   "note": "best_x lists every design whose objective equals best, feasible or not, as the code does. Objective and constraints are assumed to return one row per design and num_cons to be the number of constraint columns."
  },
  {
   "property": "C170",
   "status": "partial",
   "theorems": [
    "Mfpml.Props.C170_single_fidelity",
    "Mfpml.Props.C170_constrained",
    "Mfpml.Props.C170_any_dimension",
    "Mfpml.Props.C170_multi_fidelity_partial",
    "Mfpml.Props.C170_counterexample"
   ],
   "note": "False for mf_Park91A: neither fidelity has a minimum on the input domain, since the values decrease towards the face x1 = 0, on which the function is nan. Proved for all other problems (Thevenot with beta different from 0; low fidelity of mf_CurrinExp for arrays of floats)."
  },
  {
   "property": "C171",
   "status": "proved",
   "theorems": [
    "Mfpml.Props.C171_order_free",
    "Mfpml.Props.C171_report"
   ],
   "note": "The proviso on training is needed: the surrogates are trained one after the other from one random generator, so that another order gives every one of them other start points."
  },
  {
   "property": "C172",
   "status": "proved",
   "theorems": [
    "Mfpml.Props.C172_shows",
    "Mfpml.Props.C172_none",
    "Mfpml.Props.C172_lists"
   ],
   "note": ""
  },
  {
   "property": "C173",
   "status": "proved",
   "theorems": [
    "Mfpml.Props.C173_error_in_floats",
    "Mfpml.Props.C173_errors_decrease"
   ],
   "note": "Numbers too large to represent (overflow to inf) are not modelled here."
  },
  {
   "property": "C174",
   "status": "partial",
   "theorems": [
    "Mfpml.Props.C174_sf",
    "Mfpml.Props.C174_mf_partial",
    "Mfpml.Props.C174_counterexample"
   ],
   "note": "False for nested MFLatinHyperCube: the rows of the higher fidelities are drawn from numpy's global generator, so that the same sampler, sizes and seed give other samples after another sampler has been used. Proved for all single-fidelity samplers and for all other multi-fidelity samplers."
  },
  {
   "property": "C175",
   "status": "partial",
   "theorems": [
    "Mfpml.Props.C175_sf_partial",
    "Mfpml.Props.C175_mf_partial",
    "Mfpml.Props.C175_random_counterexample",
    "Mfpml.Props.C175_nested_counterexample"
   ],
   "note": "False for RandomSampler, which seeds numpy's global generator, and for nested MFLatinHyperCube, which draws from it although a seed is given. Proved for all other samplers."
  },
  {
   "property": "C176",
   "status": "partial",
   "theorems": [
    "Mfpml.Props.C176_accuracy_partial",
    "Mfpml.Props.C176_counterexample"
   ],
   "note": "The accuracy is proved: 6 (d + 6) (1 + sum of the parameters) 2^-53 plus twice the error of exp. False that values do not exceed 1: the squared distance is computed as a difference of large numbers and may become negative; with theta = 1 the correlation of the point 1.0 with itself exceeds one in double precision."
  },
  {
   "property": "C177",
   "status": "proved",
   "theorems": [
    "Mfpml.Props.C177_positive_definite"
   ],
   "note": "Also a lower bound for the smallest eigenvalue. About the computed matrix; its factorisation is C179."
  },
  {
   "property": "C178",
   "status": "proved",
   "theorems": [
    "Mfpml.Props.C178_trends",
    "Mfpml.Props.C178_gp",
    "Mfpml.Props.C178_hk",
    "Mfpml.Props.C178_sk",
    "Mfpml.Props.C178_ck"
   ],
   "note": "Exact arithmetic. The solver is the same in both trainings: the likelihood is shown to be the same function of the hyper-parameters."
  },
  {
   "property": "C179",
   "status": "proved",
   "theorems": [
    "Mfpml.Props.C179_cholesky",
    "Mfpml.Props.C179_covariance"
   ],
   "note": "The factorisation of the covariance matrices; the solves that follow it are not modelled in floating point."
  },
  {
   "property": "C180",
   "status": "partial",
   "theorems": [
    "Mfpml.Props.C180_pso_partial",
    "Mfpml.Props.C180_de_partial",
    "Mfpml.Props.C180_samplers_partial",
    "Mfpml.Props.C180_pso_counterexample",
    "Mfpml.Props.C180_wide_counterexample"
   ],
   "note": "False. PSO with its default settings in [-2^513, 2^513] (about 2.7e154) calls every objective with nan for suitable draws: the clipping of velocities multiplies two large numbers, an infinite velocity stays with the individual when its position is replaced, and inf/inf is nan, which no bound check replaces. If a width overflows, no sample and no initial point is finite. Proved for bounds up to 2^508 (PSO with the default settings; in general 2 k + 3 c + 4 < emax), k + c + 2 < emax (DE) and k + 1 < emax (samplers): such runs are exactly the runs without overflow."
  },
  {
   "property": "C181",
   "status": "partial",
   "theorems": [
    "Mfpml.Props.C181_constant_partial",
    "Mfpml.Props.C181_varied_partial",
    "Mfpml.Props.C181_mean",
    "Mfpml.Props.C181_std",
    "Mfpml.Props.C181_round_trip",
    "Mfpml.Props.C181_constant_counterexample",
    "Mfpml.Props.C181_varied_counterexample"
   ],
   "note": "False: three responses equal to the double nearest to 0.1 have a computed mean that differs from them in the last bit, and all normalised responses are -1 (or 1), so that the model is trained on numbers without information instead of nan (the properties on equal responses, e.g. C86, are about exact arithmetic); the different responses 0 and 2^-600 give nan, because squares underflow. Proved: equal responses with exact multiples (e.g. integers) give nan; responses that differ by 2^-500 (for up to 2^72 samples) give numbers; accuracy of the mean, of the standard deviation and of the round trip."
  },
  {
   "property": "C182",
   "status": "partial",
   "theorems": [
    "Mfpml.Props.C182_accuracy",
    "Mfpml.Props.C182_factorised_partial",
    "Mfpml.Props.C182_counterexample"
   ],
   "note": "False: the jitter 1e-10 is absolute, while the entries grow with the process variance of the low-fidelity model (whose responses are divided by the standard deviation of the high-fidelity responses, so that it has no bound). In double precision, with one low- and one high-fidelity sample at the same point, scale factor 1, low-fidelity process variance near 2^30 and process variance of the difference 0, the factorisation fails in every order of the operations although the exact matrix is positive definite. The witness takes these variances as given; it is not a whole run of train. Proved: every entry is accurate relative to the size of the entries, and the factorisation succeeds if number of samples times size of the entries times accuracy of the correlations is below 1e-10 (e.g. 20 + 5 samples of two variables, kernel parameters 10, scale factor and variances 1, in double precision, wherever the samples lie). Overflow is left out."
  },
  {
   "property": "C183",
   "status": "proved",
   "theorems": [
    "Mfpml.Props.C183_expected_improvement",
    "Mfpml.Props.C183_probability_of_improvement",
    "Mfpml.Props.C183_lower_confidence_bound",
    "Mfpml.Props.C183_choice",
    "Mfpml.Props.C183_probability_of_feasibility",
    "Mfpml.Props.C183_constrained_expected_improvement"
   ],
   "note": "norm.cdf and norm.pdf are any functions on floats with absolute error at most delta. The probabilities are those for the standard deviation plus 1e-9, as in the exact theorems. Precision at least 10 bits, smallest normal number at most 2^-30; overflow is left out. Examples in double precision."
  },
  {
   "property": "C184",
   "status": "proved",
   "theorems": [
    "Mfpml.Props.C184_mean",
    "Mfpml.Props.C184_batch",
    "Mfpml.Props.C184_samples"
   ],
   "note": "Scaled points are those computed by normalize_input. The trained coefficients are arbitrary floats; for the samples theorem the solver's residual is a parameter. The accuracy contains the nugget 1e-10 of the kernel, which is added to the correlation of the j-th sample with the j-th point of a batch (C36). np.exp is any function with error at most delta; overflow is left out. Examples in double precision."
  },
  {
   "property": "C185",
   "status": "partial",
   "theorems": [
    "Mfpml.Props.C185_latin_partial",
    "Mfpml.Props.C185_counterexample"
   ],
   "note": "False as stated: in double precision, on [2^53, 2^53+4] the second and third of four samples are the same number. Proved: along every axis the k-th smallest sample lies in the k-th cell or at most 4 roundings of |lb| + (ub - lb) outside (below 2e-12 for bounds between -1000 and 1000); in particular the order of the unit samples is kept."
  },
  {
   "property": "C186",
   "status": "proved",
   "theorems": [
    "Mfpml.Props.C186_augmented_hf",
    "Mfpml.Props.C186_augmented_lf",
    "Mfpml.Props.C186_variable_fidelity_ei",
    "Mfpml.Props.C186_compared",
    "Mfpml.Props.C186_variable_fidelity_bound",
    "Mfpml.Props.C186_extended_hf",
    "Mfpml.Props.C186_extended_lf",
    "Mfpml.Props.C186_choice"
   ],
   "note": "One point at a time, for given predictions; the product of correlations eta in ExtendedPI is a given float. norm.cdf and norm.pdf are any functions with error at most delta. That VFEI uses the high-fidelity standard deviation for the low fidelity too is C67. Overflow is left out. Example in double precision."
  },
  {
   "property": "C187",
   "status": "proved",
   "theorems": [
    "Mfpml.Props.C187_hierarchical",
    "Mfpml.Props.C187_both_levels",
    "Mfpml.Props.C187_scaled",
    "Mfpml.Props.C187_scaled_plain"
   ],
   "note": "The trained coefficients are arbitrary floats. C187_both_levels uses the error of C184 for the low-fidelity model. The standard deviation of the responses must not be zero. np.exp is any function with error at most delta; overflow is left out. Example in double precision."
  },
  {
   "property": "C188",
   "status": "proved",
   "theorems": [
    "Mfpml.Props.C188_hk_mean",
    "Mfpml.Props.C188_hk_std",
    "Mfpml.Props.C188_hk_reference",
    "Mfpml.Props.C188_sk",
    "Mfpml.Props.C188_ck_mean",
    "Mfpml.Props.C188_ck_std"
   ],
   "note": "The bound of the standard deviation of hierarchical Kriging uses a high-fidelity sample whose low-fidelity prediction is not the average of the responses (one exists after every training); the bound of the co-Kriging mean uses the length of the scaled responses in the joint covariance."
  },
  {
   "property": "C189",
   "status": "proved",
   "theorems": [
    "Mfpml.Props.C189_hk",
    "Mfpml.Props.C189_sk"
   ],
   "note": "Constant bases, as in the statement. Scaled Kriging with and without return_std."
  },
  {
   "property": "C190",
   "status": "proved",
   "theorems": [
    "Mfpml.Props.C190_mean",
    "Mfpml.Props.C190_batch",
    "Mfpml.Props.C190_samples"
   ],
   "note": "The weights solve(LC.T, solve(LC, y - mu)) are arbitrary floats; C190_samples is stated with their residual against the computed joint covariance matrix of C182, which exists for any weights. np.exp is any function with error at most delta; overflow is left out. Examples in double precision for the accuracy and for the samples."
  },
  {
   "property": "C191",
   "status": "partial",
   "theorems": [
    "Mfpml.Props.C191_floor_partial",
    "Mfpml.Props.C191_own_row",
    "Mfpml.Props.C191_counterexample",
    "Mfpml.Props.C191_sk_floor_partial",
    "Mfpml.Props.C191_ck_floor"
   ],
   "note": "False of the code for small noise: the kernel adds 1e-10 to the correlation of row i of a batch with sample i, so that the process variance is negative (about -1e-10 variances) at a sample in its own row, and predict clamps only after adding the noise. If the noise is below 1e-5 standard deviations of the responses, the standard deviation at every training sample in its own row is below the noise level (C191_own_row, for every trained model with positive process variance; C191_counterexample with noise 1e-6). Proved for all rows: the squared standard deviation is at least the squared noise minus 1e-10 process variances; from row n on (n samples) the property holds. C191_sk_floor_partial: the same for scaled Kriging, with rho^2 times the low-fidelity bound plus the bound of the discrepancy model. C191_ck_floor: co-Kriging clamps before it adds the noise, so the property holds of its first standard deviation after training (later ones use a rescaled noise level, as predict multiplies it by the spread on each call). For hierarchical Kriging, which clamps before it adds the noise, see C42."
  },
  {
   "property": "C192",
   "status": "proved",
   "theorems": [
    "Mfpml.Props.C192_nonneg",
    "Mfpml.Props.C192_total",
    "Mfpml.Props.C192_noise",
    "Mfpml.Props.C192_total_accurate",
    "Mfpml.Props.C192_lf_accurate",
    "Mfpml.Props.C192_scaled_accurate",
    "Mfpml.Props.C192_gp_accurate",
    "Mfpml.Props.C192_epistemic_accurate"
   ],
   "note": "Given mean squared errors (arbitrary floats; the solves are not modelled in floating-point arithmetic). The square root of a rounded square is proved to be the number itself (fl_sqrt_sq) unless the square is below 2 ** (emin + 2 p + 1), 2 ** -967 in double precision. x**2 is the rounded product x * x, as numpy computes it for arrays. Overflow is left out. Examples in double precision."
  },
  {
   "property": "C193",
   "status": "proved",
   "theorems": [
    "Mfpml.Props.C193_ck",
    "Mfpml.Props.C193_ck_std"
   ],
   "note": "Q is stated with the solution of the linear system that predict solves (joint covariance plus jitter 1e-10)."
  }
 ]
}