"""Writes ../MANIFEST.json. One m(...) call per property."""
import json, os
claims = []
P = "Mfpml.Props."
def m(prop, status, names, note):
    claims.append({"property": prop, "status": status, "theorems": [P + n for n in names.split()], "note": note})

m("C01", "proved", "C01_pso_in_design_space C01_pso_in_design_space_any_arithmetic", "PSO positions, best points and every evaluated population.")
m("C02", "proved", "C02_pso_running_minimum", "")
m("C03", "proved", "C03_pso_best_attained", "")
m("C04", "partial", "C04_pso_dictionary_partial C04_pso_dictionary_early_stop_zero C04_pso_dictionary_counterexample",
  "Holds for runs that use all generations; false after an early stop (zero rows are reported), counterexample proved.")
m("C05", "proved", "C05_pso_stopping_rule", "")
m("C06", "proved", "C06_pso_step", "")
m("C07", "proved", "C07_pso_personal_best C06_pso_step", "At the end of the run: C07_pso_personal_best. In every generation: the personal bests that enter the velocities, `own` in C06_pso_step.")
m("C08", "proved", "C08_de_in_design_space C08_de_in_design_space_any_arithmetic de_call_log", "")
m("C09", "proved", "C09_de_selection", "")
m("C10", "proved", "C10_de_running_minimum", "")
m("C11", "partial", "C11_de_dictionary_partial C11_de_dictionary_counterexample", "As C04: false after an early stop.")
m("C12", "partial", "C12_de_run_partial C12_de_three_members C12_de_partners_partial C12_de_partners_counterexample C12_de_best_two_members_degenerate",
  "The collision fix-up can create a new collision; counterexample proved, partial theorem says what holds.")
m("C13", "proved", "C13_de_trial", "")
m("C14", "proved", "C14_pso_returns_iff C14_de_returns_iff", "")
m("C15", "proved", "C15_samples_in_bounds C15_samples_in_bounds_any_arithmetic C15_normalisation_inverts_scaling", "")
m("C16", "proved", "C16_lhs_stratified", "scipy's Latin hypercube contract is the hypothesis.")
m("C17", "proved", "C17_random_reproducible C17_random_clobbers_global_state", "")
m("C18", "partial", "C18_sobol_block_partial C18_sobol_fails_beyond_30", "Proved for n <= 30; every n > 30 raises ValueError (proved).")
m("C19", "proved", "C19_fix_number", "")
m("C20", "proved", "C20_mf_sizes C20_mf_assertion_iff C20_mf_returns_iff", "")
m("C21", "proved", "C21_mf_nested", "")
m("C22", "partial", "C22_mf_bounds_non_nested_partial C22_mf_bounds_nested_partial C22_mf_bounds_shared_partial C22_mf_bounds_non_nested_any_arithmetic_partial C22_mf_bounds_nested_any_arithmetic_partial C22_mf_bounds_shared_any_arithmetic_partial C22_mf_bounds_nested_counterexample",
  "False for nested designs with different design spaces (counterexample); proved otherwise.")
m("C23", "partial", "C23_mf_sobol_always_nested", "The property is false: with an integer seed and a shared space the designs are always nested (proved for every execution).")
m("C24", "partial", "C24_mf_reproducible_partial C24_mf_nested_lhs_counterexample", "False for nested LHS, proved otherwise.")
m("C25", "partial", "C25_mf_list_emptied C25_mf_second_call_fails", "The property is false for every successful call; its negation is proved.")
m("C26", "proved", "C26_rbf_values C26_rbf_parameters C26_rbf_consequences", "")
m("C27", "proved", "C27_rbf_posDef", "")
m("C28", "proved", "C28_quadratic C28_quadratic_basis C28_ordinary_linear", "")
m("C29", "proved", "C29_normalize_input C29_normalize_input_degenerate", "")
m("C30", "proved", "C30_normalize_output C30_normalize_output_constant", "")
m("C31", "proved", "C31_train_succeeds C31_train_succeeds_default C31_dependent_basis_fails C31_constant_fails", "Optimisers enter through the contracts GoodMinimizer / GoodPopOptimizer.")
m("C32", "proved", "C32_restarts_known_noise C32_restarts_free_noise", "")
m("C33", "proved", "C33_gls", "")
m("C34", "proved", "C34_interpolation C34_residual", "")
m("C35", "proved", "C35_std", "")
m("C36", "partial", "C36_batch_partial C36_batch_independence_false", "The property is false: the kernel adds its nugget wherever the positions in the two sample arrays agree. The exact dependence is proved.")
m("C37", "partial", "C37_gp C37_hk C37_ck C37_sk_partial C37_sk_counterexample", "Holds for the GP, hierarchical Kriging and co-Kriging; false for scaled Kriging with rho other than 1 (exact difference proved, counterexample given).")
m("C38", "partial", "C38_noise_sticky C38_retraining_false C38_hk_noise_sticky C38_ck_noise_sticky", "The property is false; every later training keeps the first noise (proved), counterexample given.")
m("C39", "proved", "C39_affine_equivariance", "")
m("C40", "proved", "C40_likelihood_order C40_training_order", "")
m("C41", "proved", "C41_hk_interpolates C41_hk_train_succeeds", "")
m("C42", "proved", "C42_hk_uncertainty", "")
m("C43", "partial", "C43_sk_reproduces_partial C43_sk_failure_iff C43_sk_counterexample", "False for predict(X): it multiplies the discrepancy instead of the low-fidelity prediction by rho. Holds for return_std=True and for rho = 1; exact failure condition proved.")
m("C44", "proved", "C44_sk_rho C44_sk_rho_off", "For the bumpiness objective the optimiser is only assumed to report a point inside its bounds.")
m("C45", "proved", "C45_sk_error C45_sk_error_shapes", "")
m("C46", "partial", "C46_ck_repeated_predict_partial C46_ck_counterexample", "The property is false: every call multiplies the noise by std(yh). The mean is stable; the exact standard deviations of all calls are proved.")
m("C47", "partial", "C47_ck_retraining_partial C47_ck_counterexample", "The property is false: every training divides the noise by std(yh). The exact noise after k trainings is proved.")
m("C48", "proved", "C48_joint_covariance C48_trained C48_train_succeeds", "")
m("C49", "proved", "C49_ck_jitter", "")
m("C50", "proved", "C50_ck_predict_lf", "")
m("C51", "proved", "C51_sf_best", "For objectives that return one response per sample. Holds for any arithmetic, floating-point numbers included.")
m("C52", "proved", "C52_sf_budget C52_sf_aligned", "Holds for any arithmetic, floating-point numbers included.")
m("C53", "proved", "C53_sf_resume", "Holds for any arithmetic, floating-point numbers included.")
m("C54", "proved", "C54_mf_best", "Holds for any arithmetic, floating-point numbers included.")
m("C55", "proved", "C55_mf_bookkeeping C55_mf_counts", "Holds for any arithmetic, floating-point numbers included.")
m("C56", "partial", "C56_whole_budget_partial C56_mf_counterexample", "Holds for the single-fidelity and constrained optimisers; false for the multi-fidelity one, which compares the error strictly and makes no iteration at all (proved).")
m("C57", "proved", "C57_error_measure", "")
m("C58", "proved", "C58_cons_best", "Holds for any arithmetic, floating-point numbers included.")
m("C59", "partial", "C59_cons_bestX_partial C59_counterexample", "False: infeasible designs with the same objective value are reported too. Exact content of best_x proved.")
m("C60", "proved", "C60_query_best", "scipy's search is an argument; its accuracy enters the statement.")
m("C61", "partial", "C61_default_partial C61_counterexample C61_library_optimizers", "The property is false: with an optimiser object every query raises. Without one, the query returns the search result.")
m("C62", "partial", "C62_ei_partial C62_counterexample", "False by less than 1e-9: 1e-9 is added to the standard deviation in one place only. The distance to the exact expected improvement is bounded.")
m("C63", "proved", "C63_pi C63_pi_mono", "")
m("C64", "proved", "C64_lcb C64_vflcb", "")
m("C65", "partial", "C65_cei_partial C65_pof_mono C65_counterexample", "Proved at single points, the way query evaluates it; batches of any other size raise ValueError.")
m("C66", "partial", "C66_aei_hf C66_aei_lf_partial C66_counterexample", "High fidelity in full. At low fidelity the value is nan where the model is certain and both fidelities agree.")
m("C67", "partial", "C67_vfei_partial C67_vfei_rejects C67_vfei_rejects_models C67_counterexample", "At low fidelity the code uses the high-fidelity standard deviation.")
m("C76", "proved", "C76_gp_known C76_gp_free C76_hk C76_hk_free C76_ck", "")
m("C77", "proved", "C77_resume C77_cons_budget C55_mf_bookkeeping", "Holds for any arithmetic, floating-point numbers included.")
m("C78", "partial", "C78_sf_crash_partial C78_cons_crash_partial C78_mf_crash_partial C78_mf_counterexample", "Holds for the single-fidelity and the constrained optimiser; false for the multi-fidelity one, which only compares new responses with best (there, best stays a response observed at best_x).")
m("C79", "proved", "C79_hk_free C79_hk_known C79_ck_free C79_ck_known", "Optimiser under the contract GoodMinimizer.")
m("C80", "partial", "C80_hk_query_partial C80_sk_query_partial C80_counterexample", "Proved for hierarchical and scaled Kriging: every query returns a point of the design space and a fidelity (AEI and EPI unless the fidelities agree somewhere with no uncertainty; VFEI refuses scaled Kriging). False for co-Kriging: the model has no attribute 'bound', so the first query raises AttributeError.")
m("C81", "proved", "C81_unknown_fidelity", "The exception is not the ValueError the code builds.")
m("C82", "partial", "C82_epi C82_epi_hk_partial C82_counterexample", "The factor never vanishes: the code multiplies correlations where the reference multiplies 1 - correlation.")
m("C83", "proved", "C83_pso_raise C83_de_raise C83_total C83_raise_reaches_caller", "")
m("C68", "proved", "C68_single_fidelity C68_constraints C68_any_dimension C68_multi_fidelity", "")
m("C71", "partial", "C71_same_point C71_other_point C71_currin_partial C71_counterexample", "All transforms hold; mf_CurrinExp only for arrays of floats (with an integer array the column assignments truncate, proved).")
m("C72", "partial", "C72_single_fidelity C72_any_dimension C72_multi_fidelity_partial C72_counterexample", "False for mf_Park91A, which divides by x1 ** 2 and has x1 = 0 in its domain; proved for all others and for mf_Park91A off x1 = 0.")
m("C73", "partial", "C73_partial C73_same_dimension C73_counterexample", "False: Ackley and Thevenot write class attributes. Proved: what is kept, and that instances of the same dimension do not interfere.")
m("C74", "partial", "C74_partial C74_rejects C74_counterexample", "False: AckleyN2(3) and Ackley(0) are accepted.")
m("C75", "partial", "C75_call_partial C75_rest_ignored C75_counterexample", "False for lists of three or more arrays: from the third on they are ignored.")
m("C69", "partial", "C69_exact C69_ackley C69_thevenot_line C69_thevenot_partial C69_thevenot_counterexample C69_printed_precision_partial C69_hartman_partial C69_counterexample C69_C70_ackleyN2_counterexample",
  "Exact for Branin, GoldPrice, Ackley (every dimension), Thevenot in one dimension, mf_Bohachevsky, mf_Booth and Branin_2 (on feasible points). False exactly, but true to one unit of the last printed digit, for Forrester and its three variants, Sixhump (both), Sasena and Branin_1. Hartman3 and Hartman6 (both fidelities): proved up to 1e-5 and 1e-3. False for AckleyN2 (optimum and optimum_scheme are exchanged) and for Thevenot in two or more dimensions.")
m("C70", "partial", "C70_exact C70_any_dimension C70_printed_precision C70_counterexample C69_C70_ackleyN2_counterexample",
  "Proved for Branin, Forrester and variants, Sixhump (both), Sasena, Hartman6 (both), Branin_1, Ackley, Thevenot, mf_Bohachevsky, mf_Booth. False for GoldPrice (value 28611 at the listed point), Hartman3 (both), Branin_2 (infeasible, wrong by more than 0.04) and AckleyN2.")
m("C84", "proved", "C84_gp_training C84_pso_search C84_de_search C84_good", "C84_good discharges, for the library's own optimisers, the assumption about population optimisers in C31, C41, C44 and C48.")
m("C85", "proved", "C85_sf_confined", "scipy's searches and samplers enter as arguments with the contract Lawful; exceptions and arbitrary return values of the problem are included.")
m("C86", "proved", "C86_sf_succeeds C86_sf_too_few", "Constant responses give nan in the code, reported as an error by the model.")
m("C87", "proved", "C87_reproducible", "")
m("C88", "proved", "C88_sf_surrogate_current C88_sf_responses C88_cons_surrogates_current C88_ei_proposal", "")
m("C89", "proved", "C89_cons_confined C89_cons_responses C89_cons_succeeds", "")
m("C90", "proved", "C90_mf_confined C90_mf_responses C90_mf_surrogate C90_mf_cokriging_fails", "")
m("C91", "partial", "C91_mf_sizes_partial C91_mf_list_emptied_counterexample", "Sizes hold. The list is emptied by every successful construction, so it cannot be used again.")
m("C92", "partial", "C92_failed_training_partial C92_failed_training_counterexample C92_failed_training_blocks_counterexample", "False: train replaces the samples and responses before it can fail, so predict then mixes the old weights with the new data, or raises ValueError. The exact effect is proved; models with other kernel objects are unaffected.")
m("C93", "partial", "C93_response_array_partial C93_bounds_array_partial C93_predictions_frozen_counterexample", "False: the model keeps views of both arrays and recomputes mean and standard deviation of the responses in every predict call. The exact effect of both kinds of writes is proved.")
m("C94", "partial", "C94_models_independent_partial C94_shared_kernel_counterexample", "False for models given the same kernel object; proved for every program in which nobody trains with or writes to the objects the model holds.")
m("C95", "proved", "C95_retraining_forgets C95_two_histories", "")
m("C96", "proved", "C96_pso_confined C96_de_confined C96_sf_samplers_confined C96_mf_samplers_confined C96_closed_draws_counterexample", "Gradual underflow is modelled, overflow is treated in C180. With draws from the closed interval [0, 1] the claim would be false at every precision (proved).")
m("C97", "proved", "C97_results_stay C97_runs_are_independent C97_value_model", "Objects with the same num_pop and num_dim; the number of arguments of the objective is fixed. For every pattern of array sharing between objective and optimiser.")
m("C98", "partial", "C98_pso_reports_partial C98_no_reuse_no_effect_partial C98_pso_same_array_forgets_personal_bests C98_de_same_array_never_moves C98_de_same_array_counterexample C98_pso_same_array_counterexample", "False in general. Proved: the optimum PSO reports is right for every pattern of reuse, and both optimisers are right if the first returned array is not returned again. With one array for all calls PSO forgets personal bests, and DE accepts nothing and reports a best_y that is not the objective at best_x.")
m("C99", "partial", "C99_pso_arrays_partial C99_de_arrays_partial C99_pso_counterexample C99_de_counterexample", "False. Proved exactly which arrays are overwritten and with what: PSO overwrites the first argument and the first returned array with the personal bests; DE overwrites them with the final population and its responses, and uses one array for all later calls.")
m("C100", "proved", "C100_best_linear_unbiased C100_weighted_sum C100_hk_best_linear_unbiased", "The cross-correlation used by predict carries an extra 1e-10 when the row number of the point is that of a sample (C36); it is part of the statement. Spec.predErr_meaning derives the mean squared error used in the statement from the definition in any inner-product space of random variables.")
m("C101", "proved", "C101_more_samples", "Rows beyond the training sizes (no row-number effect, see C36).")
m("C102", "partial", "C102_ck_covariance C102_ck_prediction_partial C102_ck_std_too_small C102_counterexample", "The mean is the best linear unbiased prediction. The reported variance leaves out the contribution of the estimated mean, (1 - 1'A^-1 c)^2 / (1'A^-1 1), so for every trained model with non-zero process variance it is too small at some point.")
m("C103", "partial", "C103_gp_units C103_hk_units C103_sk_units C103_ck_units_partial C103_ck_counterexample", "Proved for Kriging, hierarchical Kriging, scaled Kriging and for co-Kriging with noise estimated or zero. False for co-Kriging with a known non-zero noise: the noise is divided by the spread of the responses twice in the likelihood (co_kriging.py:382 and 571-573), so the same data in other units give another rho and length scale.")
m("C104", "proved", "C104_gp_inputs C104_hk_inputs C104_sk_inputs C104_ck_inputs", "Outcome of training (result or exception) and all predictions, in exact arithmetic.")
m("C105", "partial", "C105_gp_rows_partial C105_hk_rows_partial C105_sk_rows_partial C105_ck_rows_partial C105_hk_counterexample C105_sk_counterexample C105_ck_counterexample", "False: the kernel adds its nugget wherever row numbers agree. Proved: a prediction depends on the point and its row number only, and not on the latter beyond the sizes of the training sets; the exact dependence of the means.")
m("C106", "partial", "C106_gp_order_partial C106_gp_counterexample", "False, for the same reason as C36. Proved: equal hyper-parameters, equal predictions in rows beyond the number of samples, the exact difference of the means in earlier rows.")
m("C107", "partial", "C107_sk_trains_iff C107_sk_trains_partial C107_hk_trains_iff C107_ck_trains_iff C107_sk_offset_fails C107_sk_counterexample C107_hk_counterexample", "Exact conditions proved. False for scaled Kriging when the fidelities differ by a constant (the discrepancy is normalised by its zero spread), and for hierarchical Kriging when the low-fidelity predictions all equal the mean of the high-fidelity responses. Holds for co-Kriging.")
m("C108", "partial", "C108_sk_objects_partial C108_sk_same_model C108_sk_same_model_counterexample", "Proved for two different model objects with different kernel objects, whatever their state. False when one object is passed for both: it is retrained on the differences, and predict returns rho + 1 times them.")
m("C109", "partial", "C109_failed_training_partial C109_failed_training_counterexample C109_hk_failed_training_partial C109_hk_failed_training_counterexample C109_ck_failed_training_partial C109_ck_failed_training_counterexample", "False: the low-fidelity model is already replaced when the high-fidelity part raises. Proved: which part is old and which is new in each case; other models keep their predictions. Hierarchical Kriging: samples, mean and spread are new and the weights old, so predictions change silently, raise, or are nan. Co-Kriging: a call with a wrong number of low-fidelity responses or with equal high-fidelity responses raises and moves all predictions to the new mean and spread.")
m("C110", "partial", "C110_response_arrays_partial C110_response_arrays_counterexample C110_hk_response_arrays_partial C110_hk_response_arrays_counterexample", "Proved for the high-fidelity array. False for the low-fidelity array, which the low-fidelity model keeps a view of; the exact change is proved.")
m("C111", "proved", "C111_mf_raises_in_training C111_hk_succeeds C111_sk_succeeds C111_hk_new_succeeds C111_sk_new_succeeds C111_sk_vfei_fails", "")
m("C112", "proved", "C112_hk_retraining", "Induction over the history; the noise must be known, because an estimated noise level is stored and used as known by later trainings.")
m("C113", "partial", "C113_ck_retraining_partial C113_ck_trained_object C113_ck_noise_free C113_ck_flat_responses C113_ck_retraining_counterexample", "False: one training on equal high-fidelity responses makes the noise nan or infinite, and no later training of that object returns with finite values (proved for all histories); every training divides the noise and every standard deviation multiplies it. Proved: without such trainings the object is trained like a new one whose noise is the outcome of that account; for noise 0 like the object as created.")
m("C114", "proved", "C114_gp_evaluated C114_gp_noise_free", "In every batch and row, although the nugget is added by row number.")
m("C115", "proved", "C115_gp_mean C115_gp_std", "Constant basis, as in the statement; for other bases the trend adds its own variation.")
m("C116", "partial", "C116_ei_evaluated_partial C116_ei_new_point_partial C116_pi_first C116_pi_counterexample", "Proved for EI with a search that is within epsilon of the minimum. False for PI: predicted alone, the first sample has standard deviation 0, and if it is the best one PI rates it 1/2 and, with an exact search, proposes it again.")
m("C117", "proved", "C117_bases C117_gp_continuous C117_hk_continuous C117_sk_continuous C117_ck_continuous", "Per row number: the nugget makes different rows different functions (C105).")
m("C118", "partial", "C118_sf C118_cons C118_mf C118_sf_reachable C118_cons_reachable C118_hk_trained C118_sk_trained C118_aei_partial C118_epi_partial C118_hk_aei_epi_partial C118_sk_aei_epi_partial C118_hk_first_sample C118_aei_epi_counterexample", "Proved for LCB, EI, PI, constrained EI, VFLCB, VFEI, and for AugmentedEI and ExtendedPI at the high fidelity, and at the low fidelity where nothing is divided by zero. False for those two at the low fidelity: where both fidelities agree without uncertainty they compute 0/0.")
m("C119", "partial", "C119_gp_known_optimum C119_gp_free_optimum C119_gp_noise_free C119_gp_known_noise C119_gp_unknown_noise C119_hk_noise_free C119_hk_known_noise C119_hk_unknown_noise C119_ck_unknown_noise C119_ck_noise_free_partial C119_ck_known_noise_partial C119_ck_counterexample", "Proved for Kriging and hierarchical Kriging (noise-free data must not be fitted exactly by the trend), and for co-Kriging with unknown noise. With noise the maximised likelihood is that of process variance 1, whereas predictions use the fitted variance. Noise-free co-Kriging needs that no rho within its bounds makes the difference constant; otherwise the searched value is log 0 there (counterexample). With a known positive noise co-Kriging maximises the likelihood of another noise than the one the model then uses, because the code rescales it twice.")
m("C120", "proved", "C120_pso_prefix C120_pso_longer C120_de_prefix C120_de_longer", "Over any arithmetic, including floats.")
m("C121", "proved", "C121_pso C121_de", "Over any arithmetic, including floats.")
m("C122", "proved", "C122_pso C122_de", "Over a linear ordered field: exact arithmetic, because rounding depends on the units. best_x of a run stopped early is a row of zeros (C04) and is not converted; the statement is about the rows that were written.")
m("C123", "partial", "C123_gp C123_gp_reference C123_sk C123_sk_reference C123_sk_search C123_sk_search_reference C123_hk C123_hk_reference C123_ck_partial C123_ck_counterexample", "Proved for Kriging, scaled Kriging (fixed scale factor or any search for it) and hierarchical Kriging, also that these are the models of the other properties. False for co-Kriging: a flat response array of either fidelity raises an exception for all data and optimisers, because the difference of a flat array and a column is a square matrix (co_kriging.py:579-589), while the same call with columns works.")
m("C124", "partial", "C124_gp C124_hk C124_ck C124_sk_partial C124_sk_one_response C124_sk_counterexample C124_sk_search_partial C124_sk_search_one_response", "Proved for Kriging, hierarchical Kriging and co-Kriging (which accepts columns of the right lengths only), and for the low-fidelity responses of scaled Kriging. False for scaled Kriging (with a fixed scale factor and with a search for it) with exactly one high-fidelity response: it is silently used for every sample.")
m("C125", "partial", "C125_point_gp C125_point_hk C125_point_sk C125_point_ck C125_columns_gp_partial C125_columns_mf_partial C125_one_column C125_one_column_mf C125_one_column_counterexample C125_extra_columns_counterexample C125_flat_samples_unusable C125_flat_samples_counterexample", "Proved: (d,) equals (1, d) for points; k columns with k, d, 1 all different raise. False: one column is silently repeated d times, in training and prediction; a one-dimensional model trains on any number of columns; a one-dimensional Kriging model with estimated noise trains on a flat array of samples (ignoring them) and then raises in every prediction.")
m("C126", "partial", "C126_gp_meaning C126_gp_known_noise_partial C126_gp_unknown_noise_partial C126_gp_counterexample C126_hk_meaning C126_hk_known_noise_partial C126_hk_unknown_noise_partial C126_hk_counterexample C126_ck_meaning C126_ck_noise_free_partial C126_ck_counterexample", "Proved for Kriging and hierarchical Kriging with a known non-zero or an estimated noise, and for noise-free co-Kriging. False for noise-free Kriging and hierarchical Kriging: -n/2 v is stored instead of -n/2 log v (v the process variance), too small by n/2 (v - log v) >= n/2; and for co-Kriging with estimated noise, where it is too large by the same amount.")
m("C127", "partial", "C127_gp_partial C127_gp_trend_partial C127_gp_first_rows C127_gp_counterexample C127_gp_single_point_counterexample C127_hk_partial C127_sk_partial C127_ck_partial", "Proved for the rows of a batch beyond the number of samples. False in earlier rows, so also for points predicted alone: the kernel adds its nugget by row number, and the limit contains 1e-10 times the weight of the sample with the same number (exact limits proved for Kriging). Hierarchical Kriging tends to its trend at the limit of the low-fidelity predictions; co-Kriging to a weighted mean of the responses of both fidelities, without the variance of that mean.")
m("C128", "partial", "C128_hk_partial C128_hk_counterexample", "False in general: the low-fidelity predictions are centred with the mean of the high-fidelity responses before the scale is estimated, so doubling low-fidelity responses changes the predictions (witness with two samples). Proved for changes of scale about that mean, c + a (yl - c), for every a other than 0, with equal errors.")
m("C129", "proved", "C129_random C129_lhs C129_sobol C129_pso C129_de", "Assumes draws that are exactly uniform on the unit cube (an ideal generator) and proves that scaling and recording keep the distribution, including independence between rows.")
m("C130", "proved", "C130_pso C130_de C130_pso_large C130_de_large", "Only the initial draws need to be independent and uniform; the bound uses that the returned value is never above the best initial value.")
m("C131", "proved", "C131_lcb C131_ei C131_pi C131_stopping_counterexample", "Exact arithmetic; the inner search (scipy's differential evolution) is assumed to return the same point for a search function in other units. The counterexample proves the last sentence of the property.")
m("C132", "proved", "C132_vflcb C132_vfei C132_aei C132_epi", "Exact arithmetic; the same assumption on the inner search as C131, here on its returned value too.")
m("C133", "proved", "C133_linear C133_quadratic C133_hk C133_hk_equal_fidelities", "Exact arithmetic. Training has to succeed: with noise given as 0 the likelihood of such data is infinite in exact arithmetic (log 0), so the theorems apply to estimated or non-zero noise.")
m("C134", "proved", "C134_sf_save C134_mf_save C134_returned C134_rows C134_sf_round_trip C134_mf_round_trip", "All programs over any number of sampler objects, arrays and files; pickle.dump of arrays is assumed to succeed and RandomSampler with seed None is not modelled.")
m("C135", "partial", "C135_files_partial C135_counterexample", "False: save_data of a multi-fidelity sampler without samples opens the file, which empties it, before it raises AttributeError. Proved: this is the only save_data call that raises, and files are changed by save_data calls with their name only.")
m("C136", "partial", "C136_calls_partial C136_fidelities_partial C136_nested_sobol_shared C136_counterexample", "False for nested Sobol designs: the samples of a higher fidelity are a view of those of the lower one (exact sharing proved). Proved for arrays of different calls and for all other designs.")
m("C137", "partial", "C137_sf_partial C137_mf_partial C137_counterexample", "False for samplers constructed from an array: they keep a reference and use the bounds the array has when samples are drawn. Proved for lists, and for arrays that are not written to.")
m("C138", "partial", "C138_cons C138_sf_partial C138_mf_partial C138_sf_write C138_mf_write C138_counterexample C138_sf_values C138_mf_values C138_cons_values", "False for the unconstrained optimisers: best_x is a view of a row of the samples (single fidelity: once an iteration has been made; multi-fidelity: until the first high-fidelity evaluation), so writing into it replaces the recorded sample and the optimiser then reports the best value at a point where it was not observed. Proved in full for the constrained optimiser; for the others exactly which writes are harmless and what the others do.")
m("C139", "partial", "C139_spec C139_lcb C139_aei C139_ei_partial C139_vfei_partial C139_cei_partial C139_pi C139_counterexample", "Exact for the lower confidence bound and augmented EI, and for the expected improvement as an integral. False for EI, CEI and VFEI as coded: the constant added to the standard deviation only inside cdf and pdf makes the value negative and increasing again far above the incumbent; proved up to 5e-10 (VFEI 5e-9) everywhere and exactly in the region (fmin - mean)^2 * 1e-9 <= std * (std + 1e-9)^2. PI: exact above the incumbent, and opposite in the standard deviation below it.")
m("C140", "partial", "C140_pso_partial C140_pso_end C140_pso_result C140_pso_nosave C140_pso_print C140_de_partial C140_de_end C140_de_result C140_de_nosave C140_de_print C140_counterexample C140_best_counterexample", "False while the file is being rewritten: it is opened with 'wb', which empties it, before the new record is dumped, so a process killed in between leaves no readable results at all. Proved: what the file holds at every crash point, and the complete claim outside that window. Also the entry best_y (best_x) of the record is the whole history with zero rows to come, not the best value; the record does not tell how many iterations were made.")
m("C141", "proved", "C141_pso C141_de C141_pso_raising C141_de_raising C141_trends C141_restarts C141_population_search C141_gp C141_hk C141_sk C141_ck", "The local optimiser (scipy) enters as a solver that treats all variables alike; the library's own PSO and DE as solvers are proved to.")
m("C142", "partial", "C142_shared C142_list_partial C142_list_counterexample", "False without num_skip when the design spaces are given as a list: the number of skipped points is then the number of fidelities (the length of the list), not the number of variables, so the same problem written with one design space and with a list gives different samples.")
m("C143", "partial", "C143_too_few_partial C143_too_many_partial C143_extra_columns_counterexample C143_one_column_counterexample C143_flattened_counterexample", "False: most problems silently ignore additional columns, the Hartman functions given a single column use it for all variables, and two one-dimensional problems return one response per entry instead of per sample. Proved: which wrong shapes do raise.")
m("C144", "partial", "C144_value C144_perfect_counterexample C144_history_partial C144_history_counterexample", "False in two ways. A scale factor that reproduces the responses (up to a constant) makes the discrepancies constant and the evaluation raises. With estimated noise the first candidate fixes the noise for all later ones, so the objective depends on the history; with given noise it is proved not to.")
m("C145", "partial", "C145_sf C145_mf_constructor C145_mf_partial C145_six_fidelities_counterexample", "False for six or more fidelities: there are six markers but only five colours and plotting raises IndexError. Proved for everything else.")
m("C146", "partial", "C146_pso_partial C146_de_partial C146_counterexample", "False after an early stop: the history array was allocated with zeros for all generations, and the curve drops (or rises) to height 0 for the generations that did not run.")
m("C147", "partial", "C147_update_partial C147_untrained C147_noise_counterexample C147_failed_update_counterexample", "False in two ways. The noise is estimated in the first training only; an update keeps it, where a fresh model would estimate it from all samples. A call that raises leaves its samples in the model: after one call with mismatched numbers every later call raises ValueError. Proved: a returning update equals training a fresh model with the noise of the first training on all samples, those of failed calls included.")
m("C148", "partial", "C148_pso_partial C148_de_partial C148_pso_initial_nan_counterexample C148_de_initial_nan_counterexample C148_skipped_generation_counterexample C148_agrees_pso C148_agrees_de", "False: one nan in the initial population makes both optimisers return nan whatever is found later (min is nan, and no comparison with nan succeeds), and PSO ignores every later generation that contains a nan, together with the numbers in it. Proved: PSO returns the best number of the generations without nan, DE the best number of all evaluations, if no initial value is nan. Without nan the model is that of the other properties.")
m("C149", "partial", "C149_partial C149_sobol_flat C149_counterexample", "False for SobolSequence with a flat [lower, upper] and without num_skip: the default is the length of the argument as written, 2, whereas [[lower, upper]] skips 1 point. Proved for all other forms and samplers, and that these are the samples of the other properties.")
m("C150", "partial", "C150_partial C150_counterexample", "Rows of different lengths raise in the constructor, rows with fewer than two numbers when samples are drawn. False for rows with more than two numbers (the rest is ignored) and for the bounds of several variables in one flat list (taken as one variable).")
m("C151", "partial", "C151_partial C151_python_lists C151_counterexample", "Proved for arrays and lists of arrays. False for nested Python lists, which raise TypeError for all arguments although the single-fidelity samplers accept them; an array without num_fidelity raises TypeError in the constructor.")
m("C152", "partial", "C152_partial C152_counterexample", "Proved unless one of the numbers of variables is 1. With one variable at the first fidelity and several at another, the samples of the latter all lie on the diagonal of their design space; the other way round all columns get the same bounds.")
m("C153", "proved", "C153_sf C153_mf", "Exact arithmetic.")
m("C154", "proved", "C154_sf C154_constrained C154_mf", "Exact arithmetic; default search of the acquisitions (no optimiser object). That differential evolution, which is not modelled, does not depend on the units of its variables is a hypothesis (met by the search of the examples).")
m("C155", "partial", "C155_kriging C155_hk C155_sk C155_ck_partial C155_columns C155_sf_partial C155_mf_partial C155_cons_partial C155_counterexample", "Proved: best, best_x and the history are never nan and remain those of proper evaluations. False: the optimisation cannot be continued. On responses that contain nan or an infinity every likelihood is nan, no restart is accepted, and train raises UnboundLocalError; the improper response stays among the data, so every later iteration raises too, and a constructor with an improper initial response raises. For co-Kriging an infinite low-fidelity response is left out; models with an optimiser object of the repository instead of L-BFGS-B are not covered.")
m("C156", "proved", "C156_sf C156_mf C156_cons C156_shown C156_shown_inf", "The fixed texts of the lines are left out of the model; the error of a number printed with decimals is that of exact half-even rounding.")
m("C157", "partial", "C157_value_partial C157_proposal_partial C157_blind_counterexample C157_counterexample", "False: CEI.ei compares with the smallest of all observed objective values, infeasible designs included, so a certain improvement of the best feasible value counts as no improvement if an infeasible design is better still. Proved: the searched function is exact for that incumbent (up to 2e-9), it never exceeds the weighted improvement over best, and the proposal is optimal up to the difference of both incumbents, which is 0 if the smallest value was observed at a feasible design.")
m("C158", "proved", "C158_units C158_library", "Exact arithmetic; the same assumption on the inner search as C131. A known optimum needs an objective without offset and must not be 0 (the stopping rule is a relative error, see C131). C158_library: with the constants 1e-9 the optimiser with adjustable constants is the library's.")
m("C159", "partial", "C159_gp C159_hk_partial C159_ck_partial C159_sk_partial C159_sk_ignored C159_sk_correlation_partial C159_counterexample pso_staysInside de_staysInside", "Holds for GaussianProcessRegression. False for the multi-fidelity models: HierarchicalKriging and CoKriging do not pass kernel_bound on to their low-fidelity model, which always uses [-2, 3]; ScaledKriging ignores it altogether: the kernel made from it is never trained, and _eval_corr(fidelity=0), the high-fidelity correlation, stays that of an untrained kernel with parameters 1 whatever the data. Proved: the kernels of HK and CK themselves are within kernel_bound, all other ones within [-2, 3] or the bounds of the given models; changing kernel_bound changes nothing in ScaledKriging.")
m("C160", "partial", "C160_aei C160_vflcb C160_epi C160_near C160_vfei_partial C160_counterexample", "Proved for AugmentedEI, VFLCB and ExtendedPI (with searches exact up to epsilon: up to ties within epsilon). False for VFEI, which ignores cost_ratio; moreover, with an exact search it proposes the low fidelity only where the high-fidelity standard deviation is below machine epsilon, or when no point promises an improvement: elsewhere the two acquisition values are equal and ties go to the high fidelity.")
m("C161", "partial", "C161_non_nested_partial C161_nested_partial C161_counterexample", "Proved for every fidelity of non-nested designs and for the lowest fidelity of nested ones; a higher fidelity of a nested design has at most one sample in each slice of the lowest fidelity. False for the higher fidelities of nested designs, which are random subsets: both of 2 samples chosen from 4 may lie in the lower half of the interval.")
m("C162", "partial", "C162_hk C162_sk C162_ck_partial C162_counterexample", "Proved for HierarchicalKriging and ScaledKriging, and for CoKriging with noise 0 when both trainings find the same low-fidelity length scales. False for CoKriging with noise: its low-fidelity model is trained on data scaled with the mean and standard deviation of the high-fidelity responses, and doubling these responses changes the low-fidelity prediction at a low-fidelity sample.")
m("C163", "partial", "C163_pso_partial C163_de_partial C163_pso_confined C163_de_confined C163_pso_counterexample C163_de_counterexample", "Proved: the probability does not decrease with num_gen. False: it does not tend to one. Whoever starts in the basin of a local minimum stays there for ever, for all later draws: the DE donors are differences of members and the PSO velocities contain no random numbers. There is a continuous objective on an interval for which, with the default settings and any population size, the probability stays below a bound less than one for all num_gen. (C130: it tends to one when the population grows.)")
m("C164", "proved", "C164_kriging C164_hk C164_sk C164_ck C164_finite_kriging C164_finite_hk C164_finite_sk C164_finite_ck", "The C164_finite theorems say that on finite responses, in exact arithmetic, this model with nan and infinities is the model of the other Kriging properties: same likelihood, same training, same predictions. The optimiser is an arbitrary function of the likelihood, cholesky and solve are arbitrary, so that the claim does not depend on them refusing nan. Complements C155 (scipy: training raises).")
m("C165", "proved", "C165_error_bound C165_dense C165_hk_error_bound", "The 2e-5 is the effect of the nugget that the kernel adds when the row of a point has the number of a sample; beyond the training size it is absent. The widths are those found by training.")
m("C166", "partial", "C166_kriging C166_hk C166_sk_partial C166_sk_counterexample C166_ck", "Proved for Kriging, hierarchical Kriging (after trainings that raised the exception may be another than AttributeError) and co-Kriging, and for scaled Kriging with a fixed scale factor or the error criterion. False for scaled Kriging with the bumpiness criterion: the search for the scale factor trains the discrepancy model, so if the last training raises (for example because the high-fidelity responses are an exact multiple of the low-fidelity ones and the discrepancy model has an optimiser of the repository, see C155) the object predicts all the same, with wrong values.")
m("C167", "proved", "C167_scale_factor", "The solver is trusted to return a local minimum within the bounds of a continuous convex objective; such a solver exists (findsLocalMinima_exists).")
m("C168", "partial", "C168_kron_partial C168_counterexample", "False: rows closer than 2^-23 (absolute, whatever the scale of the data) are reported as equal, and the relation is not transitive. Proved: true for equal rows, false for rows with an entry that differs by at least 2^-23, symmetric, invariant under shifts, row by row.")
m("C169", "proved", "C169_reports", "best_x lists every design whose objective equals best, feasible or not, as the code does. Objective and constraints are assumed to return one row per design and num_cons to be the number of constraint columns.")
m("C170", "partial", "C170_single_fidelity C170_constrained C170_any_dimension C170_multi_fidelity_partial C170_counterexample", "False for mf_Park91A: neither fidelity has a minimum on the input domain, since the values decrease towards the face x1 = 0, on which the function is nan. Proved for all other problems (Thevenot with beta different from 0; low fidelity of mf_CurrinExp for arrays of floats).")
m("C171", "proved", "C171_order_free C171_report", "The proviso on training is needed: the surrogates are trained one after the other from one random generator, so that another order gives every one of them other start points.")
m("C172", "proved", "C172_shows C172_none C172_lists", "")
m("C173", "proved", "C173_error_in_floats C173_errors_decrease", "Numbers too large to represent (overflow to inf) are not modelled here.")
m("C174", "partial", "C174_sf C174_mf_partial C174_counterexample", "False for nested MFLatinHyperCube: the rows of the higher fidelities are drawn from numpy's global generator, so that the same sampler, sizes and seed give other samples after another sampler has been used. Proved for all single-fidelity samplers and for all other multi-fidelity samplers.")
m("C175", "partial", "C175_sf_partial C175_mf_partial C175_random_counterexample C175_nested_counterexample", "False for RandomSampler, which seeds numpy's global generator, and for nested MFLatinHyperCube, which draws from it although a seed is given. Proved for all other samplers.")
m("C176", "partial", "C176_accuracy_partial C176_counterexample", "The accuracy is proved: 6 (d + 6) (1 + sum of the parameters) 2^-53 plus twice the error of exp. False that values do not exceed 1: the squared distance is computed as a difference of large numbers and may become negative; with theta = 1 the correlation of the point 1.0 with itself exceeds one in double precision.")
m("C177", "proved", "C177_positive_definite", "Also a lower bound for the smallest eigenvalue. About the computed matrix; its factorisation is C179.")
m("C178", "proved", "C178_trends C178_gp C178_hk C178_sk C178_ck", "Exact arithmetic. The solver is the same in both trainings: the likelihood is shown to be the same function of the hyper-parameters.")
m("C179", "proved", "C179_cholesky C179_covariance", "The factorisation of the covariance matrices; the solves that follow it are not modelled in floating point.")
m("C180", "partial", "C180_pso_partial C180_de_partial C180_samplers_partial C180_pso_counterexample C180_wide_counterexample", "False. PSO with its default settings in [-2^513, 2^513] (about 2.7e154) calls every objective with nan for suitable draws: the clipping of velocities multiplies two large numbers, an infinite velocity stays with the individual when its position is replaced, and inf/inf is nan, which no bound check replaces. If a width overflows, no sample and no initial point is finite. Proved for bounds up to 2^508 (PSO with the default settings; in general 2 k + 3 c + 4 < emax), k + c + 2 < emax (DE) and k + 1 < emax (samplers): such runs are exactly the runs without overflow.")
m("C181", "partial", "C181_constant_partial C181_varied_partial C181_mean C181_std C181_round_trip C181_constant_counterexample C181_varied_counterexample", "False: three responses equal to the double nearest to 0.1 have a computed mean that differs from them in the last bit, and all normalised responses are -1 (or 1), so that the model is trained on numbers without information instead of nan (the properties on equal responses, e.g. C86, are about exact arithmetic); the different responses 0 and 2^-600 give nan, because squares underflow. Proved: equal responses with exact multiples (e.g. integers) give nan; responses that differ by 2^-500 (for up to 2^72 samples) give numbers; accuracy of the mean, of the standard deviation and of the round trip.")
m("C182", "partial", "C182_accuracy C182_factorised_partial C182_counterexample", "False: the jitter 1e-10 is absolute, while the entries grow with the process variance of the low-fidelity model (whose responses are divided by the standard deviation of the high-fidelity responses, so that it has no bound). In double precision, with one low- and one high-fidelity sample at the same point, scale factor 1, low-fidelity process variance near 2^30 and process variance of the difference 0, the factorisation fails in every order of the operations although the exact matrix is positive definite. The witness takes these variances as given; it is not a whole run of train. Proved: every entry is accurate relative to the size of the entries, and the factorisation succeeds if number of samples times size of the entries times accuracy of the correlations is below 1e-10 (e.g. 20 + 5 samples of two variables, kernel parameters 10, scale factor and variances 1, in double precision, wherever the samples lie). Overflow is left out.")
m("C183", "proved", "C183_expected_improvement C183_probability_of_improvement C183_lower_confidence_bound C183_choice C183_probability_of_feasibility C183_constrained_expected_improvement", "norm.cdf and norm.pdf are any functions on floats with absolute error at most delta. The probabilities are those for the standard deviation plus 1e-9, as in the exact theorems. Precision at least 10 bits, smallest normal number at most 2^-30; overflow is left out. Examples in double precision.")
m("C184", "proved", "C184_mean C184_batch C184_samples", "Scaled points are those computed by normalize_input. The trained coefficients are arbitrary floats; for the samples theorem the solver's residual is a parameter. The accuracy contains the nugget 1e-10 of the kernel, which is added to the correlation of the j-th sample with the j-th point of a batch (C36). np.exp is any function with error at most delta; overflow is left out. Examples in double precision.")
m("C185", "partial", "C185_latin_partial C185_counterexample", "False as stated: in double precision, on [2^53, 2^53+4] the second and third of four samples are the same number. Proved: along every axis the k-th smallest sample lies in the k-th cell or at most 4 roundings of |lb| + (ub - lb) outside (below 2e-12 for bounds between -1000 and 1000); in particular the order of the unit samples is kept.")
m("C186", "proved", "C186_augmented_hf C186_augmented_lf C186_variable_fidelity_ei C186_compared C186_variable_fidelity_bound C186_extended_hf C186_extended_lf C186_choice", "One point at a time, for given predictions; the product of correlations eta in ExtendedPI is a given float. norm.cdf and norm.pdf are any functions with error at most delta. That VFEI uses the high-fidelity standard deviation for the low fidelity too is C67. Overflow is left out. Example in double precision.")
m("C187", "proved", "C187_hierarchical C187_both_levels C187_scaled C187_scaled_plain", "The trained coefficients are arbitrary floats. C187_both_levels uses the error of C184 for the low-fidelity model. The standard deviation of the responses must not be zero. np.exp is any function with error at most delta; overflow is left out. Example in double precision.")
m("C188", "proved", "C188_hk_mean C188_hk_std C188_hk_reference C188_sk C188_ck_mean C188_ck_std", "The bound of the standard deviation of hierarchical Kriging uses a high-fidelity sample whose low-fidelity prediction is not the average of the responses (one exists after every training); the bound of the co-Kriging mean uses the length of the scaled responses in the joint covariance.")
m("C189", "proved", "C189_hk C189_sk", "Constant bases, as in the statement. Scaled Kriging with and without return_std.")
m("C190", "proved", "C190_mean C190_batch C190_samples", "The weights solve(LC.T, solve(LC, y - mu)) are arbitrary floats; C190_samples is stated with their residual against the computed joint covariance matrix of C182, which exists for any weights. np.exp is any function with error at most delta; overflow is left out. Examples in double precision for the accuracy and for the samples.")
m("C191", "partial", "C191_floor_partial C191_own_row C191_counterexample C191_sk_floor_partial C191_ck_floor", "False of the code for small noise: the kernel adds 1e-10 to the correlation of row i of a batch with sample i, so that the process variance is negative (about -1e-10 variances) at a sample in its own row, and predict clamps only after adding the noise. If the noise is below 1e-5 standard deviations of the responses, the standard deviation at every training sample in its own row is below the noise level (C191_own_row, for every trained model with positive process variance; C191_counterexample with noise 1e-6). Proved for all rows: the squared standard deviation is at least the squared noise minus 1e-10 process variances; from row n on (n samples) the property holds. C191_sk_floor_partial: the same for scaled Kriging, with rho^2 times the low-fidelity bound plus the bound of the discrepancy model. C191_ck_floor: co-Kriging clamps before it adds the noise, so the property holds of its first standard deviation after training (later ones use a rescaled noise level, as predict multiplies it by the spread on each call). For hierarchical Kriging, which clamps before it adds the noise, see C42.")
m("C192", "proved", "C192_nonneg C192_total C192_noise C192_total_accurate C192_lf_accurate C192_scaled_accurate C192_gp_accurate C192_epistemic_accurate", "Given mean squared errors (arbitrary floats; the solves are not modelled in floating-point arithmetic). The square root of a rounded square is proved to be the number itself (fl_sqrt_sq) unless the square is below 2 ** (emin + 2 p + 1), 2 ** -967 in double precision. x**2 is the rounded product x * x, as numpy computes it for arrays. Overflow is left out. Examples in double precision.")
m("C193", "proved", "C193_ck C193_ck_std", "Q is stated with the solution of the linear system that predict solves (joint covariance plus jitter 1e-10).")
#--more--
json.dump({"claims": claims}, open(os.path.join(os.path.dirname(__file__), "..", "MANIFEST.json"), "w"), indent=1)
