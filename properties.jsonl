{"id": "C01", "title": "PSO stays in the design space", "statement": "PSO.run_optimizer never evaluates the objective outside the design space: every row of results['all_samples'] up to the last generation run satisfies low <= x <= high in every coordinate, and so does the returned best_x.", "quantifier": "every population size, dimension, generation count, objective function, parameter setting and every sequence of random draws, with low <= high", "why_tests_cant": "The random draws and the objective are unbounded inputs; a test fixes one seed and one objective.", "anchors": ["src/mfpml/optimization/evolutionary_algorithms.py:PSO.run_optimizer", "src/mfpml/optimization/evolutionary_algorithms.py:EABase._loc_cons", "src/mfpml/optimization/evolutionary_algorithms.py:EABase._location_initialzer"]}
{"id": "C02", "title": "PSO best history is the running minimum", "statement": "After PSO.run_optimizer, best_y_historical[g] is exactly the smallest objective value among all responses of generations 0..g, for every generation g that ran; in particular it never increases.", "quantifier": "every population size, dimension, generation count, objective function, parameter setting and every sequence of random draws", "why_tests_cant": "The random draws and the objective are unbounded inputs; a test fixes one seed and one objective.", "anchors": ["src/mfpml/optimization/evolutionary_algorithms.py:PSO.run_optimizer", "src/mfpml/optimization/evolutionary_algorithms.py:PSO.__update_gen_optimum", "src/mfpml/optimization/evolutionary_algorithms.py:PSO._pso_initializer"]}
{"id": "C03", "title": "PSO best point attains the best value", "statement": "For every generation g that ran, best_x_historical[g] is one of the recorded samples of generations 0..g and the response recorded for it equals best_y_historical[g]; recorded responses are the objective applied to the recorded samples, so for a row-wise objective f, f(best_x) = best_y for the returned pair.", "quantifier": "every population size, dimension, generation count, objective function, parameter setting and every sequence of random draws", "why_tests_cant": "The random draws and the objective are unbounded inputs; a test fixes one seed and one objective.", "anchors": ["src/mfpml/optimization/evolutionary_algorithms.py:PSO.run_optimizer", "src/mfpml/optimization/evolutionary_algorithms.py:EABase._gen_best_x"]}
{"id": "C04", "title": "PSO result dictionary agrees with the returned optimum", "statement": "results['best_x'] and results['best_y'] are the optimum found, i.e. the same point and value as the second and third return values.", "quantifier": "every population size, dimension, generation count, objective function, parameter setting and every sequence of random draws, with and without stopping_error", "why_tests_cant": "The random draws and the objective are unbounded inputs; a test fixes one seed and one objective. The repository's tests only use stopping_error=None.", "anchors": ["src/mfpml/optimization/evolutionary_algorithms.py:PSO.run_optimizer"]}
{"id": "C05", "title": "PSO stopping rule", "statement": "PSO.run_optimizer runs generations one by one, stops right after the first generation whose best value is below stopping_error, never runs more than num_gen generations, evaluates the objective exactly once per generation plus once initially, and leaves all rows of later generations zero.", "quantifier": "every population size, dimension, generation count, objective function, parameter setting and every sequence of random draws", "why_tests_cant": "The random draws and the objective are unbounded inputs; a test fixes one seed and one objective.", "anchors": ["src/mfpml/optimization/evolutionary_algorithms.py:PSO.run_optimizer"]}
{"id": "C06", "title": "PSO step is bounded or resampled", "statement": "From one generation to the next each coordinate of each particle either moves by at most max_velocity_rate*(high-low) or is replaced by a fresh uniform draw from the design space; the velocity used follows weight*v + cognition*(own best - x) + social*(swarm best - x) clipped to that bound.", "quantifier": "every population size, dimension, generation count, objective function, parameter setting and every sequence of random draws, max_velocity_rate >= 0", "why_tests_cant": "The random draws and the objective are unbounded inputs; a test fixes one seed and one objective.", "anchors": ["src/mfpml/optimization/evolutionary_algorithms.py:PSO.__update_pop", "src/mfpml/optimization/evolutionary_algorithms.py:PSO.__velocity_cons", "src/mfpml/optimization/evolutionary_algorithms.py:PSO.__velocity_initialzer"]}
{"id": "C07", "title": "PSO personal bests", "statement": "After every generation, each particle's personal best value is the minimum of that particle's own responses so far, and its personal best position is one of that particle's own past positions attaining it.", "quantifier": "every population size, dimension, generation count, objective function, parameter setting and every sequence of random draws", "why_tests_cant": "The random draws and the objective are unbounded inputs; a test fixes one seed and one objective.", "anchors": ["src/mfpml/optimization/evolutionary_algorithms.py:PSO.__update_pop_optimum"]}
{"id": "C08", "title": "DE stays in the design space", "statement": "DE.run_optimizer only evaluates the objective inside the design space: every trial population and every recorded population row, and the returned best_x, satisfy low <= x <= high.", "quantifier": "every population size, dimension, generation count, objective function, parameter setting and every sequence of random draws and both strategies, low <= high", "why_tests_cant": "The random draws and the objective are unbounded inputs; a test fixes one seed and one objective.", "anchors": ["src/mfpml/optimization/evolutionary_algorithms.py:DE.run_optimizer", "src/mfpml/optimization/evolutionary_algorithms.py:DE.__update_pop", "src/mfpml/optimization/evolutionary_algorithms.py:EABase._loc_cons"]}
{"id": "C09", "title": "DE selection is greedy and elitist", "statement": "In DE each population slot's response never increases from one generation to the next; a slot changes only to a trial point with a strictly smaller objective value; recorded responses always belong to the recorded samples.", "quantifier": "every population size, dimension, generation count, objective function, parameter setting and every sequence of random draws and both strategies", "why_tests_cant": "The random draws and the objective are unbounded inputs; a test fixes one seed and one objective.", "anchors": ["src/mfpml/optimization/evolutionary_algorithms.py:DE.__update_obj"]}
{"id": "C10", "title": "DE best history is the running minimum and is attained", "statement": "best_y_historical[g] equals the minimum of all responses of generations 0..g (equivalently of generation g alone), never increases, and best_x_historical[g] is a recorded sample attaining it.", "quantifier": "every population size, dimension, generation count, objective function, parameter setting and every sequence of random draws and both strategies", "why_tests_cant": "The random draws and the objective are unbounded inputs; a test fixes one seed and one objective.", "anchors": ["src/mfpml/optimization/evolutionary_algorithms.py:DE.__update_gen_optimum"]}
{"id": "C11", "title": "DE result dictionary agrees with the returned optimum", "statement": "results['best_x'] and results['best_y'] equal the second and third return values of DE.run_optimizer.", "quantifier": "every population size, dimension, generation count, objective function, parameter setting and every sequence of random draws, with and without stopping_error", "why_tests_cant": "The random draws and the objective are unbounded inputs; a test fixes one seed and one objective.", "anchors": ["src/mfpml/optimization/evolutionary_algorithms.py:DE.run_optimizer"]}
{"id": "C12", "title": "DE mutation partners are distinct", "statement": "When DE builds the donor of individual i, the population members it combines are mutually different and different from i (three for DE/rand/1/bin, two for DE/best/1/bin), as differential evolution requires.", "quantifier": "every population size for which a donor can be drawn, every individual and every draw without replacement", "why_tests_cant": "Needs every draw of np.random.choice; collisions occur with small probability per draw.", "anchors": ["src/mfpml/optimization/evolutionary_algorithms.py:DE.__update_pop"]}
{"id": "C13", "title": "DE binomial crossover", "statement": "Every coordinate of a DE trial point (before out-of-domain coordinates are resampled) comes from the donor or from the parent, at least one coordinate comes from the donor, and the donor is base + step_size*(difference of two members) with base a population member (rand) or the best point so far (best).", "quantifier": "every population size, dimension, generation count, objective function, parameter setting and every sequence of random draws, num_dim >= 1", "why_tests_cant": "The random draws and the objective are unbounded inputs; a test fixes one seed and one objective.", "anchors": ["src/mfpml/optimization/evolutionary_algorithms.py:DE.__update_pop"]}
{"id": "C14", "title": "Evolutionary optimisers: degenerate settings", "statement": "DE/PSO.run_optimizer either returns a result or raises: it raises for an empty population, for num_gen = 0, and (DE) for an unknown strategy or a population too small to draw partners; in all other settings it returns.", "quantifier": "every population size, dimension, generation count, objective function, parameter setting and every sequence of random draws", "why_tests_cant": "The claim is about every setting, including ones no test uses.", "anchors": ["src/mfpml/optimization/evolutionary_algorithms.py:PSO.run_optimizer", "src/mfpml/optimization/evolutionary_algorithms.py:DE.run_optimizer"]}
{"id": "C15", "title": "Single-fidelity samples fill the requested shape inside the bounds", "statement": "LatinHyperCube, RandomSampler and SobolSequence.get_samples(n) return n rows, each inside [lb, ub] in every coordinate, for any unit-cube draws; the affine scaling is inverted exactly by the models' input normalisation.", "quantifier": "every design space with lb <= ub (lb < ub for the inverse), every n, every engine output in [0,1]", "why_tests_cant": "Any unit sample can occur.", "anchors": ["src/mfpml/design_of_experiment/sf_samplers.py:SingleFidelitySampler.scale_samples", "src/mfpml/design_of_experiment/sf_samplers.py:LatinHyperCube.get_samples", "src/mfpml/design_of_experiment/sf_samplers.py:RandomSampler.get_samples", "src/mfpml/models/gaussian_process.py:GaussianProcessRegression.normalize_input"]}
{"id": "C16", "title": "Latin hypercube stratification survives scaling", "statement": "In every dimension, cutting [lb, ub] into n equal cells puts exactly one of the n points returned by LatinHyperCube.get_samples(n) in each cell.", "quantifier": "every n, design space with lb < ub and every Latin hypercube in the unit cube", "why_tests_cant": "All permutations and jitters are possible engine outputs.", "anchors": ["src/mfpml/design_of_experiment/sf_samplers.py:LatinHyperCube.get_samples", "src/mfpml/design_of_experiment/sf_samplers.py:SingleFidelitySampler.scale_samples"]}
{"id": "C17", "title": "RandomSampler is reproducible from its seed", "statement": "RandomSampler.get_samples(n, seed) depends only on n, the seed and the design space, not on earlier use of numpy's global generator; it leaves the global generator in a state that depends only on seed, n and the dimension.", "quantifier": "every prior global generator state and every generator implementation", "why_tests_cant": "Prior histories are unbounded.", "anchors": ["src/mfpml/design_of_experiment/sf_samplers.py:RandomSampler.get_samples"]}
{"id": "C18", "title": "SobolSequence returns the requested block of the sequence", "statement": "SobolSequence.get_samples(n) returns the scaled Sobol points number num_skip .. num_skip+n-1, for every n >= 1 up to the capacity of the generator.", "quantifier": "every n, num_skip and Sobol generator", "why_tests_cant": "Large n cannot be enumerated.", "anchors": ["src/mfpml/design_of_experiment/sf_samplers.py:SobolSequence.get_samples"]}
{"id": "C19", "title": "FixNumberSampler repeats the given point", "statement": "FixNumberSampler.get_samples(n) returns n identical rows, each the flattened design space.", "quantifier": "every n and design space", "why_tests_cant": "All n.", "anchors": ["src/mfpml/design_of_experiment/sf_samplers.py:FixNumberSampler.get_samples"]}
{"id": "C20", "title": "Multi-fidelity sampler returns the requested sizes", "statement": "MFLatinHyperCube/MFSobolSequence.get_samples([n_0,...,n_k]) returns k+1 arrays, the i-th with n_i rows (highest fidelity first); it raises AssertionError exactly when some n_i > n_{i+1}.", "quantifier": "every list of sizes, nested or not, every generator", "why_tests_cant": "Lists are unbounded.", "anchors": ["src/mfpml/design_of_experiment/mf_samplers.py:MultiFidelitySampler.get_samples", "src/mfpml/design_of_experiment/mf_samplers.py:MultiFidelitySampler._mf_samples_rules"]}
{"id": "C21", "title": "Nested multi-fidelity samples are nested", "statement": "With nested=True every sample of a fidelity is also a sample of every lower fidelity, and distinct rows of a lower fidelity are used at most once.", "quantifier": "every list of sizes, design space and generator", "why_tests_cant": "All index draws.", "anchors": ["src/mfpml/design_of_experiment/mf_samplers.py:MFLatinHyperCube._get_nested_samples", "src/mfpml/design_of_experiment/mf_samplers.py:MFSobolSequence._get_nested_samples"]}
{"id": "C22", "title": "Multi-fidelity samples respect each fidelity's bounds", "statement": "Every returned sample of fidelity i lies in the design space of fidelity i.", "quantifier": "every list of per-fidelity design spaces, sizes, nested flag and generator", "why_tests_cant": "All design spaces.", "anchors": ["src/mfpml/design_of_experiment/mf_samplers.py:MultiFidelitySampler.lb", "src/mfpml/design_of_experiment/mf_samplers.py:MultiFidelitySampler.get_samples"]}
{"id": "C23", "title": "Non-nested Sobol samples differ between fidelities", "statement": "With nested=False, MFSobolSequence draws each fidelity's samples independently, so they are not nested in each other.", "quantifier": "every integer seed, sizes and shared design space", "why_tests_cant": "Needs all seeds.", "anchors": ["src/mfpml/design_of_experiment/mf_samplers.py:MFSobolSequence._get_non_nested_samples"]}
{"id": "C24", "title": "Multi-fidelity samplers are reproducible from the seed", "statement": "Two calls of get_samples with the same sizes and the same seed return the same samples, whatever happened to numpy's global generator in between.", "quantifier": "every history of the global generator", "why_tests_cant": "Prior histories are unbounded.", "anchors": ["src/mfpml/design_of_experiment/mf_samplers.py:MFLatinHyperCube._get_nested_samples", "src/mfpml/design_of_experiment/mf_samplers.py:MultiFidelitySampler.get_samples"]}
{"id": "C25", "title": "get_samples does not modify its arguments", "statement": "Calling get_samples leaves the caller's num_samples list unchanged, so the same list can be used for a second call.", "quantifier": "every list of sizes", "why_tests_cant": "All lists.", "anchors": ["src/mfpml/design_of_experiment/mf_samplers.py:MultiFidelitySampler.get_samples", "src/mfpml/optimization/mf_uncons_bo.py:mfUnConsBayesOpt._initialization"]}
{"id": "C26", "title": "RBF kernel values", "statement": "RBF.get_kernel_matrix(X, Y)[i,j] equals exp(-sum_k theta_k (X[i,k]-Y[j,k])^2), plus 1e-10 when i = j; hence it is symmetric for X = Y, lies in (0, 1] off the diagonal, depends only on differences, and equals the value computed by calling the kernel with the log10 parameters.", "quantifier": "every X, Y, positive parameter vector, dimension", "why_tests_cant": "Continuum of inputs.", "anchors": ["src/mfpml/models/kernels.py:RBF.get_kernel_matrix", "src/mfpml/models/kernels.py:RBF.__call__", "src/mfpml/models/kernels.py:RBF.set_params"]}
{"id": "C27", "title": "RBF kernel matrices are positive definite", "statement": "For every sample set (duplicates included) and every parameter vector, RBF.get_kernel_matrix(X, X) plus any noise^2 on the diagonal is symmetric positive definite, so its Cholesky factorisation exists.", "quantifier": "every sample matrix, dimension, parameters, noise", "why_tests_cant": "Needs all matrices of all sizes.", "anchors": ["src/mfpml/models/kernels.py:RBF.get_kernel_matrix", "src/mfpml/models/gaussian_process.py:GaussianProcessRegression._update_kernel_matrix"]}
{"id": "C28", "title": "Basis functions", "statement": "Ordinary, Linear and Quadratic return for each sample 1; (1, x); and (1, x, all products x_k x_l with k <= l) respectively, every column of the Quadratic matrix being written exactly once and its width being (d+1)(d+2)/2.", "quantifier": "every dimension and sample matrix", "why_tests_cant": "All dimensions.", "anchors": ["src/mfpml/models/basis_functions.py:Ordinary", "src/mfpml/models/basis_functions.py:Linear", "src/mfpml/models/basis_functions.py:Quadratic"]}
{"id": "C29", "title": "Input normalisation", "statement": "normalize_input maps the design space onto the unit cube: lower bounds to 0, upper bounds to 1, points inside to [0,1], affinely and injectively, for lb < ub.", "quantifier": "every design space and sample", "why_tests_cant": "Continuum.", "anchors": ["src/mfpml/models/gaussian_process.py:GaussianProcessRegression.normalize_input", "src/mfpml/models/mf_gaussian_process.py:_mfGaussianProcess.normalize_input", "src/mfpml/models/co_kriging.py:CoKriging.normalize_input"]}
{"id": "C30", "title": "Output normalisation", "statement": "For non-constant responses normalize_output produces mean 0 and standard deviation 1, and multiplying by the standard deviation and adding the mean restores the responses exactly; for constant responses it is undefined (division by zero).", "quantifier": "every response vector", "why_tests_cant": "Continuum.", "anchors": ["src/mfpml/models/gaussian_process.py:GaussianProcessRegression.normalize_output", "src/mfpml/models/mf_gaussian_process.py:_mfGaussianProcess.normalize_hf_output"]}
{"id": "C31", "title": "GP training succeeds", "statement": "GaussianProcessRegression.train on any non-constant responses (duplicated samples allowed, any non-negative or learned noise, any hyper-parameter optimiser returning a point in its box) terminates with a fitted model and never raises a linear-algebra error; this holds unconditionally for the default constant trend, and for another trend whenever its basis functions are linearly independent on the samples (and, for noise 0, do not fit the responses exactly).", "quantifier": "every sample set, design space with lb < ub, noise setting and optimiser behaviour", "why_tests_cant": "All data sets and optimiser behaviours.", "anchors": ["src/mfpml/models/gaussian_process.py:GaussianProcessRegression.train", "src/mfpml/models/gaussian_process.py:GaussianProcessRegression._logLikelihood", "src/mfpml/models/gaussian_process.py:GaussianProcessRegression._update_kernel_matrix"]}
{"id": "C32", "title": "GP hyper-parameter restarts keep the best", "statement": "After train with the built-in optimiser, the stored hyper-parameters lie inside the search box and their negative log-likelihood is no larger than that of any restart.", "quantifier": "every number of restarts and every optimiser behaviour", "why_tests_cant": "All optimiser outcomes.", "anchors": ["src/mfpml/models/gaussian_process.py:GaussianProcessRegression._hyper_paras_optimization"]}
{"id": "C33", "title": "GP trend is the generalised least-squares solution", "statement": "The fitted beta makes the residual y - F beta K^-1-orthogonal to the basis functions and minimises the K^-1-weighted squared residual over all beta; sigma2 is that minimum divided by n and is non-negative (positive when no trend fits exactly).", "quantifier": "every data set, basis and kernel parameters", "why_tests_cant": "Continuum.", "anchors": ["src/mfpml/models/gaussian_process.py:GaussianProcessRegression._update_kernel_matrix"]}
{"id": "C34", "title": "Noise-free GP interpolates", "statement": "With noise 0, predict(X_train) returns Y_train exactly (in exact arithmetic).", "quantifier": "every training set with non-constant responses, kernel parameters, basis", "why_tests_cant": "Continuum.", "anchors": ["src/mfpml/models/gaussian_process.py:GaussianProcessRegression.predict"]}
{"id": "C35", "title": "GP predictive standard deviation", "statement": "predict(..., return_std=True) returns a non-negative real standard deviation for every input; with noise 0 it is exactly 0 at the training set.", "quantifier": "every trained model and every prediction set", "why_tests_cant": "Continuum.", "anchors": ["src/mfpml/models/gaussian_process.py:GaussianProcessRegression.predict"]}
{"id": "C36", "title": "GP predictions do not depend on the batch", "statement": "The prediction for a point is the same whether it is predicted alone or together with other points, and in any position of the batch.", "quantifier": "every trained model and prediction batch", "why_tests_cant": "All batches.", "anchors": ["src/mfpml/models/gaussian_process.py:GaussianProcessRegression.predict", "src/mfpml/models/kernels.py:RBF.get_kernel_matrix"]}
{"id": "C37", "title": "Asking for the standard deviation does not change the mean", "statement": "For every surrogate, predict(X) equals the first component of predict(X, return_std=True).", "quantifier": "every trained model and X", "why_tests_cant": "Continuum of models.", "anchors": ["src/mfpml/models/gaussian_process.py:GaussianProcessRegression.predict", "src/mfpml/models/hierarchical_kriging.py:HierarchicalKriging.predict", "src/mfpml/models/scale_kriging.py:ScaledKriging.predict", "src/mfpml/models/co_kriging.py:CoKriging.predict"]}
{"id": "C38", "title": "Retraining re-estimates the noise", "statement": "A model constructed with noise_prior=None estimates the noise on every call of train, so training twice on the same data gives the same search problem as training a fresh model.", "quantifier": "every training history", "why_tests_cant": "All histories.", "anchors": ["src/mfpml/models/gaussian_process.py:GaussianProcessRegression._update_kernel_matrix", "src/mfpml/models/hierarchical_kriging.py:HierarchicalKriging._update_parameters", "src/mfpml/models/co_kriging.py:CoKriging.train"]}
{"id": "C39", "title": "GP predictions are equivariant under affine changes of the response", "statement": "Training on a*Y+b (a != 0) instead of Y, with noise 0 and the same optimiser, gives predictions a*mean+b and standard deviations |a|*std.", "quantifier": "every data set, a != 0, b, and every (deterministic) optimiser", "why_tests_cant": "Continuum.", "anchors": ["src/mfpml/models/gaussian_process.py:GaussianProcessRegression.train", "src/mfpml/models/gaussian_process.py:GaussianProcessRegression.predict"]}
{"id": "C40", "title": "GP likelihood does not depend on sample order", "statement": "The negative log-likelihood minimised in training is unchanged when the training samples (with their responses) are permuted.", "quantifier": "every permutation and data set", "why_tests_cant": "n! permutations.", "anchors": ["src/mfpml/models/gaussian_process.py:GaussianProcessRegression._logLikelihood"]}
{"id": "C41", "title": "Hierarchical Kriging interpolates the high-fidelity data", "statement": "With noise 0, HierarchicalKriging.predict at the high-fidelity training set returns the high-fidelity responses exactly, whatever the low-fidelity model predicts (not identically zero after scaling).", "quantifier": "every data set, low-fidelity model and kernel parameters", "why_tests_cant": "Continuum.", "anchors": ["src/mfpml/models/hierarchical_kriging.py:HierarchicalKriging.predict", "src/mfpml/models/hierarchical_kriging.py:HierarchicalKriging._update_parameters"]}
{"id": "C42", "title": "Hierarchical Kriging uncertainty is at least the noise", "statement": "The standard deviation returned by HierarchicalKriging.predict is never below the noise level, and equals it at the high-fidelity training set of a noise-free model.", "quantifier": "every trained model and X", "why_tests_cant": "Continuum.", "anchors": ["src/mfpml/models/hierarchical_kriging.py:HierarchicalKriging.predict"]}
{"id": "C43", "title": "Scaled Kriging reproduces the high-fidelity data", "statement": "With noise 0, ScaledKriging.predict at the high-fidelity training set returns the high-fidelity responses exactly, for every scale factor rho.", "quantifier": "every data set, low-fidelity and discrepancy model and rho", "why_tests_cant": "Continuum.", "anchors": ["src/mfpml/models/scale_kriging.py:ScaledKriging.predict", "src/mfpml/models/scale_kriging.py:ScaledKriging._getDisc"]}
{"id": "C44", "title": "Scaled Kriging: rho options", "statement": "ScaledKriging.train uses rho = 1 when rho_optimize is off and otherwise a rho inside rho_bound; an unknown rho_method is reported as an error.", "quantifier": "every option combination and optimiser behaviour", "why_tests_cant": "All optimiser outcomes.", "anchors": ["src/mfpml/models/scale_kriging.py:ScaledKriging._rho_optimize"]}
{"id": "C45", "title": "Scaled Kriging error objective", "statement": "The 'error' objective is the sum of squared differences rho*lf(xh)-yh, evaluated independently for every candidate rho of a vectorised call, and its least-squares minimiser is lf.yh/lf.lf.", "quantifier": "every data set and candidate vector", "why_tests_cant": "Continuum.", "anchors": ["src/mfpml/models/scale_kriging.py:ScaledKriging._eval_error"]}
{"id": "C46", "title": "CoKriging.predict is read-only", "statement": "Calling CoKriging.predict(X, return_std=True) repeatedly on a trained model returns the same mean and the same standard deviation every time.", "quantifier": "every trained model, X and number of calls", "why_tests_cant": "All call histories.", "anchors": ["src/mfpml/models/co_kriging.py:CoKriging.predict"]}
{"id": "C47", "title": "CoKriging noise level is stable under retraining", "statement": "Training a CoKriging model twice on the same data leaves it with the same noise level (and so the same covariance) as training it once.", "quantifier": "every noise_prior and data set", "why_tests_cant": "All histories.", "anchors": ["src/mfpml/models/co_kriging.py:CoKriging.train"]}
{"id": "C48", "title": "CoKriging covariance is positive definite", "statement": "The joint low/high-fidelity covariance CoKriging builds is symmetric positive definite for all sample sets, parameters, rho and noise, so its Cholesky factorisation exists.", "quantifier": "every data set and parameters", "why_tests_cant": "Matrices of all sizes.", "anchors": ["src/mfpml/models/co_kriging.py:CoKriging._update_parameters"]}
{"id": "C49", "title": "CoKriging reproduces the high-fidelity data up to the jitter", "statement": "With noise 0, the prediction at the high-fidelity training set differs from the responses exactly by the jitter 1e-10 times the solved weights.", "quantifier": "every data set and parameters", "why_tests_cant": "Continuum.", "anchors": ["src/mfpml/models/co_kriging.py:CoKriging.predict"]}
{"id": "C50", "title": "Co-Kriging low-fidelity predictions are in response units", "statement": "CoKriging.predict_lf is the affine un-scaling (yh_std, yh_mean) of the low-fidelity model trained on scaled data; with noise 0 it reproduces the low-fidelity responses at the low-fidelity samples.", "quantifier": "every data set", "why_tests_cant": "Continuum.", "anchors": ["src/mfpml/models/co_kriging.py:CoKriging.predict_lf"]}
{"id": "C51", "title": "Single-fidelity BO reports the best evaluated point", "statement": "After construction and after any number of run_optimizer calls, best is the minimum of all responses observed so far and best_x a sample where it was observed; history_best never increases and has one entry per iteration plus one.", "quantifier": "every problem, acquisition behaviour, surrogate, number of calls and iterations", "why_tests_cant": "All histories.", "anchors": ["src/mfpml/optimization/sf_uncons_bo.py:BayesUnConsOpt._update_para", "src/mfpml/optimization/sf_uncons_bo.py:BayesUnConsOpt.run_optimizer"]}
{"id": "C52", "title": "Single-fidelity BO evaluation budget and stopping", "statement": "run_optimizer evaluates the objective exactly once per iteration, performs at most max_iter iterations, stops before the first iteration at which the error to the known optimum is below stopping_error, only appends to the sample set, and keeps sample and response rows aligned.", "quantifier": "every problem, acquisition, max_iter, stopping_error", "why_tests_cant": "All histories.", "anchors": ["src/mfpml/optimization/sf_uncons_bo.py:BayesUnConsOpt.run_optimizer"]}
{"id": "C53", "title": "Single-fidelity BO can be resumed", "statement": "run_optimizer(max_iter=a) followed by run_optimizer(max_iter=b) leaves the optimiser in the same state as run_optimizer(max_iter=a+b), for the same stopping_error.", "quantifier": "every problem, a, b, stopping error and deterministic acquisition/surrogate", "why_tests_cant": "All a, b and histories.", "anchors": ["src/mfpml/optimization/sf_uncons_bo.py:BayesUnConsOpt.run_optimizer"]}
{"id": "C54", "title": "Multi-fidelity BO best is a high-fidelity optimum", "statement": "best is always the minimum of the high-fidelity responses observed so far (initial design included) and low-fidelity queries never change it; history_best never increases.", "quantifier": "every problem, acquisition, surrogate and query sequence", "why_tests_cant": "All histories.", "anchors": ["src/mfpml/optimization/mf_uncons_bo.py:mfUnConsBayesOpt._update_para"]}
{"id": "C55", "title": "Multi-fidelity BO bookkeeping", "statement": "Each iteration evaluates exactly one fidelity once, appends one sample and response to that fidelity only and one entry to fidelity_query_order; the sample counts equal the initial counts plus the number of queries of each fidelity, and at most max_iter iterations run.", "quantifier": "every problem, acquisition and query sequence", "why_tests_cant": "All histories.", "anchors": ["src/mfpml/optimization/mf_uncons_bo.py:mfUnConsBayesOpt.run_optimizer"]}
{"id": "C56", "title": "BO with unknown optimum uses the whole budget", "statement": "For a problem without a known optimum, run_optimizer(max_iter=k) with the default stopping_error performs k iterations, for the single-, multi-fidelity and constrained optimisers alike.", "quantifier": "every problem with optimum None and every k", "why_tests_cant": "All k.", "anchors": ["src/mfpml/optimization/sf_uncons_bo.py:BayesUnConsOpt.run_optimizer", "src/mfpml/optimization/mf_uncons_bo.py:mfUnConsBayesOpt.run_optimizer", "src/mfpml/optimization/sf_cons_bo.py:BayesConsOpt.run_optimizer"]}
{"id": "C57", "title": "Error measure", "statement": "The stopping error is |best-optimum|/|optimum| for a non-zero known optimum, |best-optimum| for optimum 0, and 1 when it is unknown; it is never negative and is 0 exactly when the known optimum is reached.", "quantifier": "every best and optimum", "why_tests_cant": "Continuum.", "anchors": ["src/mfpml/optimization/sf_uncons_bo.py:BayesUnConsOpt.__update_error", "src/mfpml/optimization/mf_uncons_bo.py:mfUnConsBayesOpt.__update_error", "src/mfpml/optimization/sf_cons_bo.py:BayesConsOpt.__update_error"]}
{"id": "C58", "title": "Constrained BO reports the best feasible value", "statement": "After construction and after every iteration best is the minimum objective over all observed points satisfying every constraint (<= 0), or +inf (with best_x None) if none does; history_best never increases.", "quantifier": "every problem, number of constraints, acquisition and history", "why_tests_cant": "All histories.", "anchors": ["src/mfpml/optimization/sf_cons_bo.py:BayesConsOpt._update_para", "src/mfpml/optimization/sf_cons_bo.py:BayesConsOpt._initialization"]}
{"id": "C59", "title": "Constrained BO best_x is feasible", "statement": "Every design reported in best_x is an observed point that satisfies all constraints and attains best.", "quantifier": "every problem and history", "why_tests_cant": "Coincidences of objective values are rare in tests.", "anchors": ["src/mfpml/optimization/sf_cons_bo.py:BayesConsOpt._update_para"]}
{"id": "C60", "title": "Multi-fidelity query picks the better fidelity", "statement": "MF acquisition query returns the point and fidelity whose optimised acquisition value is smaller, preferring high fidelity on ties.", "quantifier": "every pair of optimiser results", "why_tests_cant": "Continuum.", "anchors": ["src/mfpml/optimization/mf_acqusitions.py:AugmentedEI.query", "src/mfpml/optimization/mf_acqusitions.py:VFEI.query", "src/mfpml/optimization/mf_acqusitions.py:VFLCB.query", "src/mfpml/optimization/mf_acqusitions.py:ExtendedPI.query"]}
{"id": "C61", "title": "Acquisitions accept a custom optimizer", "statement": "An acquisition constructed with one of the library's optimisers (DE/PSO) can be queried: query returns the point found by that optimiser.", "quantifier": "every acquisition, surrogate and optimiser", "why_tests_cant": "All optimisers.", "anchors": ["src/mfpml/optimization/sf_uncons_acqusitions.py:SFUnConsAcq.query", "src/mfpml/optimization/sf_cons_acqusitions.py:SFConsAcq.query", "src/mfpml/optimization/mf_acqusitions.py:AugmentedEI.query"]}
{"id": "C62", "title": "Expected improvement is non-negative", "statement": "The expected improvement -EI.eval(x) is non-negative everywhere (so maximising it never prefers a point to a certain non-improvement).", "quantifier": "every predicted mean, standard deviation >= 0 and incumbent", "why_tests_cant": "Continuum.", "anchors": ["src/mfpml/optimization/sf_uncons_acqusitions.py:EI.eval", "src/mfpml/optimization/sf_cons_acqusitions.py:CEI.ei"]}
{"id": "C63", "title": "Probability of improvement is a probability", "statement": "-PI.eval(x) lies in [0,1], increases with the incumbent and decreases with the predicted mean; it is 1/2 when the mean equals the incumbent.", "quantifier": "every mean, std, incumbent", "why_tests_cant": "Continuum.", "anchors": ["src/mfpml/optimization/sf_uncons_acqusitions.py:PI.eval"]}
{"id": "C64", "title": "Lower confidence bound", "statement": "LCB.eval = kappa0*mean - kappa1*std; VFLCB uses the high-fidelity mean with the high-fidelity std (fidelity 0) or cost_ratio times the low-fidelity std (fidelity 1), so with kappa1 >= 0 it decreases in the std.", "quantifier": "every mean, std, kappa, cost ratio", "why_tests_cant": "Continuum.", "anchors": ["src/mfpml/optimization/sf_uncons_acqusitions.py:LCB.eval", "src/mfpml/optimization/mf_acqusitions.py:VFLCB.eval"]}
{"id": "C65", "title": "Constrained EI weighting", "statement": "The probability of feasibility is a product of probabilities, lies in [0,1], decreases when a constraint's predicted mean grows, and CEI = -EI*PoF.", "quantifier": "every number of constraints and predictions", "why_tests_cant": "Continuum.", "anchors": ["src/mfpml/optimization/sf_cons_acqusitions.py:CEI.eval", "src/mfpml/optimization/sf_cons_acqusitions.py:CEI.pof"]}
{"id": "C66", "title": "Augmented EI", "statement": "Augmented EI vanishes where the model is certain, is non-negative, scales linearly with cost_ratio at low fidelity, and the correlation factor at low fidelity lies in [0,1] whenever the low-fidelity std does not exceed the high-fidelity std.", "quantifier": "every prediction", "why_tests_cant": "Continuum.", "anchors": ["src/mfpml/optimization/mf_acqusitions.py:AugmentedEI.eval", "src/mfpml/optimization/mf_acqusitions.py:AugmentedEI.corr"]}
{"id": "C67", "title": "VFEI", "statement": "VFEI at high fidelity is the expected improvement of the high-fidelity prediction, at low fidelity the same with the low-fidelity std scaled by the trend coefficient; it is zero where that std vanishes and rejects models other than HierarchicalKriging.", "quantifier": "every prediction and model type", "why_tests_cant": "Continuum.", "anchors": ["src/mfpml/optimization/mf_acqusitions.py:VFEI.eval"]}
{"id": "C68", "title": "Test functions are evaluated row by row", "statement": "For every problem, evaluating a batch returns one row per sample, equal to evaluating that sample alone; permuting or concatenating batches permutes or concatenates the responses.", "quantifier": "every problem and batch", "why_tests_cant": "All batches.", "anchors": ["src/mfpml/problems/sf_functions.py:Forrester.f", "src/mfpml/problems/sf_functions.py:Branin.f", "src/mfpml/problems/mf_functions.py:mf_Booth.hf"]}
{"id": "C69", "title": "Documented optima are global minima", "statement": "For each problem with an optimum attribute, no point of its input_domain has a smaller objective value than optimum.", "quantifier": "every point of the input domain, every such problem", "why_tests_cant": "A continuum of points.", "anchors": ["src/mfpml/problems/sf_functions.py:Branin", "src/mfpml/problems/sf_functions.py:GoldPrice", "src/mfpml/problems/sf_functions.py:Ackley", "src/mfpml/problems/sf_functions.py:AckleyN2", "src/mfpml/problems/sf_functions.py:Sixhump", "src/mfpml/problems/sf_functions.py:Thevenot", "src/mfpml/problems/mf_functions.py:mf_Booth", "src/mfpml/problems/mf_functions.py:mf_Bohachevsky", "src/mfpml/problems/mf_functions.py:mf_Sixhump"]}
{"id": "C70", "title": "Documented optimum schemes attain the optimum", "statement": "For each problem with optimum and optimum_scheme, evaluating the objective at optimum_scheme gives optimum (to the printed precision).", "quantifier": "every such problem", "why_tests_cant": "Exact values of transcendental functions.", "anchors": ["src/mfpml/problems/sf_functions.py:GoldPrice", "src/mfpml/problems/sf_functions.py:Branin", "src/mfpml/problems/sf_functions.py:AckleyN2", "src/mfpml/problems/sf_functions.py:Ackley", "src/mfpml/problems/mf_functions.py:mf_Booth", "src/mfpml/problems/mf_functions.py:mf_Bohachevsky"]}
{"id": "C71", "title": "Low-fidelity functions are the documented transforms of the high-fidelity ones", "statement": "Forrester_1a/1b/1c, mf_Discontinuous, mf_Park91B, mf_CurrinExp: lf is hf-5; 0.5 hf + 10(x-0.5) - 5; hf(x+0.2); the piecewise relation; 1.2 hf - 1; the mean of hf at the four corners x +- 0.05.", "quantifier": "every x", "why_tests_cant": "Continuum.", "anchors": ["src/mfpml/problems/mf_functions.py:Forrester_1a", "src/mfpml/problems/mf_functions.py:Forrester_1b", "src/mfpml/problems/mf_functions.py:Forrester_1c", "src/mfpml/problems/mf_functions.py:mf_Discontinuous", "src/mfpml/problems/mf_functions.py:mf_Park91B", "src/mfpml/problems/mf_functions.py:mf_CurrinExp"]}
{"id": "C72", "title": "Problems are defined on their whole input domain", "statement": "Evaluating hf/lf/f at any point of input_domain yields a finite real number (no division by zero, logarithm or root of a negative number).", "quantifier": "every point of every input domain", "why_tests_cant": "Continuum; the exceptional points have measure zero.", "anchors": ["src/mfpml/problems/mf_functions.py:mf_Park91A.hf", "src/mfpml/problems/mf_functions.py:mf_Borehole.base", "src/mfpml/problems/mf_functions.py:mf_CurrinExp.hf", "src/mfpml/problems/sf_functions.py:Hartman6.f"]}
{"id": "C73", "title": "Problem instances are independent", "statement": "Creating another instance of a problem class does not change the dimension, domain or optimum reported by an existing instance.", "quantifier": "every sequence of instantiations", "why_tests_cant": "All histories.", "anchors": ["src/mfpml/problems/sf_functions.py:Ackley.__update_parameters", "src/mfpml/problems/sf_functions.py:Thevenot.__update_parameters", "src/mfpml/problems/functions.py:Functions._get_dimension"]}
{"id": "C74", "title": "Dimension checks", "statement": "A problem constructor rejects every dimension its objective cannot handle.", "quantifier": "every dimension argument", "why_tests_cant": "All integers.", "anchors": ["src/mfpml/problems/sf_functions.py:AckleyN2.is_dim_compatible", "src/mfpml/problems/sf_functions.py:Ackley.is_dim_compatible", "src/mfpml/problems/sf_functions.py:Branin.is_dim_compatible", "src/mfpml/problems/mf_functions.py:MultiFidelityFunctions.is_dim_compatible"]}
{"id": "C75", "title": "Multi-fidelity problem call", "statement": "Calling a multi-fidelity problem on a list of sample arrays evaluates the first with hf and the second with lf and returns one response array per sample array.", "quantifier": "every list of sample arrays", "why_tests_cant": "All list lengths.", "anchors": ["src/mfpml/problems/mf_functions.py:MultiFidelityFunctions.__call__"]}
{"id": "C76", "title": "The number minimised in training is the negative log-likelihood", "statement": "For given kernel parameters (and scale factor and noise level) the objective minimised in training equals, up to a constant depending only on the number of samples, minus the largest log-density of the normalised responses under the Gaussian model, maximised over the trend coefficients and, for noise 0, over the process variance; for the GP, hierarchical Kriging and co-Kriging.", "quantifier": "every data set, basis, kernel parameters, noise level", "why_tests_cant": "Statement about all trend coefficients and variances.", "anchors": ["src/mfpml/models/gaussian_process.py:GaussianProcessRegression._logLikelihood", "src/mfpml/models/hierarchical_kriging.py:HierarchicalKriging._logLikelihood", "src/mfpml/models/co_kriging.py:CoKriging._logLikelihood"]}
{"id": "C77", "title": "Multi-fidelity and constrained BO: budget and resumption", "statement": "The constrained and multi-fidelity optimisers run at most max_iter iterations per call, evaluating once per iteration, stop early only because of the error threshold, and running a then b iterations is the same as running a+b.", "quantifier": "every problem, acquisition, surrogate, a, b, threshold", "why_tests_cant": "All histories.", "anchors": ["src/mfpml/optimization/sf_cons_bo.py:BayesConsOpt.run_optimizer", "src/mfpml/optimization/mf_uncons_bo.py:mfUnConsBayesOpt.run_optimizer"]}
{"id": "C78", "title": "BO recovers from exceptions", "statement": "If an iteration is cut short by an exception of the acquisition, the objective or the surrogate's training, samples and responses stay aligned, and once run_optimizer is called again and completes an iteration, best is the minimum of all (high-fidelity; with constraints: feasible) responses held by the optimiser.", "quantifier": "every crash point and history", "why_tests_cant": "All crash points and histories.", "anchors": ["src/mfpml/optimization/sf_uncons_bo.py:BayesUnConsOpt.run_optimizer", "src/mfpml/optimization/sf_cons_bo.py:BayesConsOpt.run_optimizer", "src/mfpml/optimization/sf_uncons_bo.py:BayesUnConsOpt._update_para", "src/mfpml/optimization/mf_uncons_bo.py:mfUnConsBayesOpt._update_para"]}
{"id": "C79", "title": "Multi-fidelity hyper-parameter search keeps the best restart within the bounds", "statement": "After training hierarchical Kriging or co-Kriging with the built-in optimiser, kernel parameters (and scale factor) lie within their bounds, the noise is the prior or, without prior, an estimate between 1e-5 and 10 times the standard deviation of the high-fidelity responses, and no restart reported a smaller objective value.", "quantifier": "every data set, set of start points and optimiser behaviour", "why_tests_cant": "All optimiser behaviours.", "anchors": ["src/mfpml/models/hierarchical_kriging.py:HierarchicalKriging._optHyp", "src/mfpml/models/co_kriging.py:CoKriging._optHyp"]}
{"id": "C80", "title": "Multi-fidelity BO works with every surrogate it accepts", "statement": "mfUnConsBayesOpt accepts surrogate_name 'CoKriging', 'HierarchicalKriging' and 'ScaledKriging', and the acquisitions can be queried with a trained surrogate of each kind.", "quantifier": "every trained surrogate, acquisition, problem", "why_tests_cant": "All data sets and surrogates.", "anchors": ["src/mfpml/optimization/mf_uncons_bo.py:mfUnConsBayesOpt.run_optimizer", "src/mfpml/optimization/mf_acqusitions.py:AugmentedEI.query", "src/mfpml/optimization/mf_acqusitions.py:VFLCB.query", "src/mfpml/models/co_kriging.py:CoKriging.__init__"]}
{"id": "C81", "title": "Unknown fidelities are rejected", "statement": "Evaluating a multi-fidelity acquisition at a fidelity other than 0 and 1 raises instead of returning values.", "quantifier": "every integer, surrogate, batch", "why_tests_cant": "All integers.", "anchors": ["src/mfpml/optimization/mf_acqusitions.py:AugmentedEI.eval", "src/mfpml/optimization/mf_acqusitions.py:VFEI.eval", "src/mfpml/optimization/mf_acqusitions.py:VFLCB.eval", "src/mfpml/optimization/mf_acqusitions.py:ExtendedPI.eval"]}
{"id": "C82", "title": "Extended probability of improvement", "statement": "-ExtendedPI.eval is the probability of improvement (0 where the model is certain) times the fidelity correlation, times the cost ratio at low fidelity, times a sample-density factor in [0,1] that vanishes at points already sampled.", "quantifier": "every prediction, incumbent, cost ratio, fidelity", "why_tests_cant": "Continuum.", "anchors": ["src/mfpml/optimization/mf_acqusitions.py:ExtendedPI.eval", "src/mfpml/optimization/mf_acqusitions.py:ExtendedPI.corr", "src/mfpml/models/mf_gaussian_process.py:_mfGaussianProcess._eval_corr"]}
{"id": "C83", "title": "Exceptions of the objective reach the caller of PSO and DE", "statement": "If the objective raises, run_optimizer raises that exception at that evaluation; a run that returns has evaluated every recorded array without exception and returns what it would for any total objective agreeing on those arrays.", "quantifier": "every objective, possibly partial, settings, random draws", "why_tests_cant": "All objectives and crash points.", "anchors": ["src/mfpml/optimization/evolutionary_algorithms.py:PSO.run_optimizer", "src/mfpml/optimization/evolutionary_algorithms.py:DE.run_optimizer"]}
{"id": "C84", "title": "Hyper-parameter searches with the library's own PSO and DE", "statement": "With a PSO or DE object as optimizer, training a Gaussian process with constant trend and known noise on non-constant responses succeeds; the kernel parameters are 10**theta with theta inside the kernel's bounds, and no candidate the optimiser evaluated has a smaller negative log-likelihood than theta.", "quantifier": "every data set, optimiser settings (population large enough), random draws", "why_tests_cant": "All data sets and draws.", "anchors": ["src/mfpml/models/gaussian_process.py:GaussianProcessRegression._hyper_paras_optimization", "src/mfpml/optimization/evolutionary_algorithms.py:PSO.run_optimizer", "src/mfpml/optimization/evolutionary_algorithms.py:DE.run_optimizer"]}
{"id": "C85", "title": "Single-fidelity BO stays in the input domain", "statement": "BayesUnConsOpt with the library's sampler, Kriging model and acquisitions evaluates the objective only at points of the problem's input domain; samples, best_x and history_best_x lie in it, and so does the next proposal.", "quantifier": "every problem, acquisition, seed, number of initial samples, history of run_optimizer calls", "why_tests_cant": "All problems and histories.", "anchors": ["src/mfpml/optimization/sf_uncons_bo.py:BayesUnConsOpt.run_optimizer", "src/mfpml/optimization/sf_uncons_bo.py:BayesUnConsOpt._initialization", "src/mfpml/optimization/sf_uncons_acqusitions.py:SFUnConsAcq.query"]}
{"id": "C86", "title": "When single-fidelity BO works", "statement": "For an objective that is defined everywhere and acquisition LCB, EI or PI, constructing BayesUnConsOpt succeeds exactly when the responses at the initial design are not all equal (so never with fewer than two initial samples); afterwards every run_optimizer call completes.", "quantifier": "every objective, domain, seed, number of iterations, threshold", "why_tests_cant": "All objectives and budgets.", "anchors": ["src/mfpml/optimization/sf_uncons_bo.py:BayesUnConsOpt.run_optimizer", "src/mfpml/optimization/sf_uncons_bo.py:BayesUnConsOpt._initialization"]}
{"id": "C87", "title": "Equal seeds give equal Bayesian optimisers", "statement": "Constructing any of the three Bayesian optimisers twice with equal arguments gives the same optimiser, hence the same results of all later calls, whatever the state of numpy's global generator.", "quantifier": "every problem, seed, generator state, history", "why_tests_cant": "All generator states.", "anchors": ["src/mfpml/optimization/sf_uncons_bo.py:BayesUnConsOpt.__init__", "src/mfpml/optimization/sf_cons_bo.py:BayesConsOpt.__init__", "src/mfpml/optimization/mf_uncons_bo.py:mfUnConsBayesOpt.__init__"]}
{"id": "C88", "title": "The BO surrogate always knows the whole history", "statement": "After construction and after every run_optimizer call the surrogate (and every constraint surrogate) reproduces all stored responses exactly with standard deviation zero, and the incumbent used by EI is the reported best; so the next proposal maximises (to the accuracy of the search) the expected improvement over best under a model of all data.", "quantifier": "every problem, acquisition, history", "why_tests_cant": "All histories.", "anchors": ["src/mfpml/optimization/sf_uncons_bo.py:BayesUnConsOpt.run_optimizer", "src/mfpml/optimization/sf_cons_bo.py:BayesConsOpt.run_optimizer", "src/mfpml/optimization/sf_uncons_acqusitions.py:EI.eval"]}
{"id": "C89", "title": "Constrained BO: domain and completion", "statement": "BayesConsOpt evaluates and reports only points of the input domain; for an objective and constraints defined everywhere, construction succeeds exactly when neither the objective nor any constraint is constant on the initial design, and then every run_optimizer call completes, whether or not a feasible point is known.", "quantifier": "every problem, number of constraints, seed, history", "why_tests_cant": "All problems and histories.", "anchors": ["src/mfpml/optimization/sf_cons_bo.py:BayesConsOpt.run_optimizer", "src/mfpml/optimization/sf_cons_bo.py:BayesConsOpt._initialization", "src/mfpml/optimization/sf_cons_acqusitions.py:SFConsAcq.query"]}
{"id": "C90", "title": "Multi-fidelity BO: domain and surrogate", "statement": "mfUnConsBayesOpt evaluates both fidelities only inside the input domain, proposes fidelity 0 or 1 only, and its hierarchical or scaled Kriging surrogate reproduces all high-fidelity responses of the history; with co-Kriging run_optimizer raises as soon as an iteration is due.", "quantifier": "every problem, acquisition, cost ratio, surrogate, history", "why_tests_cant": "All problems and histories.", "anchors": ["src/mfpml/optimization/mf_uncons_bo.py:mfUnConsBayesOpt.run_optimizer", "src/mfpml/optimization/mf_uncons_bo.py:mfUnConsBayesOpt._initialization"]}
{"id": "C91", "title": "num_init of multi-fidelity BO", "statement": "mfUnConsBayesOpt starts with num_init[0] high-fidelity and num_init[1] low-fidelity samples and leaves the caller's list usable for another optimiser.", "quantifier": "every list, problem, surrogate, seed", "why_tests_cant": "All lists and problems.", "anchors": ["src/mfpml/optimization/mf_uncons_bo.py:mfUnConsBayesOpt._initialization", "src/mfpml/design_of_experiment/mf_samplers.py:MultiFidelitySampler.get_samples"]}
{"id": "C92", "title": "A training that raises changes nothing", "statement": "If GaussianProcessRegression.train raises on a trained model and the caller catches the exception, the model's later predictions are what they were before the call, and no other model is affected.", "quantifier": "every trained model, every training data that make train raise, every prediction input", "why_tests_cant": "All crash points and data.", "anchors": ["src/mfpml/models/gaussian_process.py:GaussianProcessRegression.train", "src/mfpml/models/gaussian_process.py:GaussianProcessRegression.predict", "src/mfpml/models/gaussian_process.py:GaussianProcessRegression._update_kernel_matrix"]}
{"id": "C93", "title": "Predictions depend on the data at training time only", "statement": "After train has returned, changing the caller's response array or design-space array in place does not change the predictions of the model.", "quantifier": "every trained model, every later content of the arrays", "why_tests_cant": "All histories of writes.", "anchors": ["src/mfpml/models/gaussian_process.py:GaussianProcessRegression.train", "src/mfpml/models/gaussian_process.py:GaussianProcessRegression.y_mean", "src/mfpml/models/gaussian_process.py:GaussianProcessRegression.y_std"]}
{"id": "C94", "title": "Models do not disturb each other", "statement": "Training one GaussianProcessRegression object, successfully or not, does not change the predictions of another one.", "quantifier": "every program over any number of models, kernels and arrays", "why_tests_cant": "All interleavings of calls and all sharing patterns.", "anchors": ["src/mfpml/models/gaussian_process.py:GaussianProcessRegression.__init__", "src/mfpml/models/gaussian_process.py:GaussianProcessRegression.train", "src/mfpml/models/kernels.py:RBF.set_params"]}
{"id": "C95", "title": "Retraining forgets the past", "statement": "A model with a known noise that is trained after any history of trainings (including failed ones), kernel changes and writes predicts exactly as a newly created model with the same settings trained on the same data.", "quantifier": "every history, data set, search result", "why_tests_cant": "All histories.", "anchors": ["src/mfpml/models/gaussian_process.py:GaussianProcessRegression.train", "src/mfpml/models/gaussian_process.py:GaussianProcessRegression.predict"]}
{"id": "C96", "title": "Rounding does not push points out of the design space", "statement": "In binary floating-point arithmetic, where every operation is rounded to nearest, every point PSO and DE evaluate, record or return and every sample of the Latin hypercube, random and Sobol samplers (single- and multi-fidelity) satisfies low <= x <= high exactly, for draws from [0, 1).", "quantifier": "every precision, tie rule, bounds, objective, draw, number of generations", "why_tests_cant": "All floating-point bounds and draws.", "anchors": ["src/mfpml/optimization/evolutionary_algorithms.py:EABase._location_initialzer", "src/mfpml/optimization/evolutionary_algorithms.py:PSO.run_optimizer", "src/mfpml/optimization/evolutionary_algorithms.py:DE.run_optimizer", "src/mfpml/design_of_experiment/sf_samplers.py:SingleFidelitySampler.scale_samples", "src/mfpml/design_of_experiment/mf_samplers.py:MultiFidelitySampler.get_samples"]}
{"id": "C97", "title": "Optimiser objects can be used again", "statement": "Calling run_optimizer on a PSO or DE object that was used before, also if an earlier run raised, gives what a new object would give with the same arguments and draws; and results returned earlier keep their values whatever is run later.", "quantifier": "every sequence of runs on any number of objects, every objective, every outcome", "why_tests_cant": "All histories of an object.", "anchors": ["src/mfpml/optimization/evolutionary_algorithms.py:PSO.run_optimizer", "src/mfpml/optimization/evolutionary_algorithms.py:DE.run_optimizer", "src/mfpml/optimization/evolutionary_algorithms.py:PSO._pso_initializer", "src/mfpml/optimization/evolutionary_algorithms.py:DE._de_initializer"]}
{"id": "C98", "title": "Objective functions may return the same array every time", "statement": "An objective function that fills and returns one preallocated array on every call gives the same optimisation as one that allocates a new array: reported optimum, personal bests and accepted points are right.", "quantifier": "every objective, every pattern of array reuse, settings, draws", "why_tests_cant": "All sharing patterns between the objective's and the optimiser's arrays.", "anchors": ["src/mfpml/optimization/evolutionary_algorithms.py:PSO._pso_initializer", "src/mfpml/optimization/evolutionary_algorithms.py:PSO.__update_pop_optimum", "src/mfpml/optimization/evolutionary_algorithms.py:DE._de_initializer", "src/mfpml/optimization/evolutionary_algorithms.py:DE.__update_obj"]}
{"id": "C99", "title": "Optimisers leave the objective's arrays alone", "statement": "The arrays an objective function was called with and the arrays it returned still hold after the run what they held at the call, so an objective may keep them (as a log or a cache).", "quantifier": "every objective, settings, draws, number of generations", "why_tests_cant": "All runs.", "anchors": ["src/mfpml/optimization/evolutionary_algorithms.py:PSO.__update_pop_optimum", "src/mfpml/optimization/evolutionary_algorithms.py:PSO._pso_initializer", "src/mfpml/optimization/evolutionary_algorithms.py:DE.__update_pop", "src/mfpml/optimization/evolutionary_algorithms.py:DE.__update_obj"]}
{"id": "C100", "title": "Predictions are best linear unbiased predictions", "statement": "For the trained length scales and noise, the mean returned by GaussianProcessRegression.predict (and HierarchicalKriging.predict, with the low-fidelity prediction as trend) is the linear unbiased predictor of smallest mean squared error from the training responses, and the squared returned standard deviation is the mean squared error of that predictor for the fitted process variance plus the squared noise.", "quantifier": "every training set, basis, noise, prediction set", "why_tests_cant": "All data sets and all competing predictors.", "anchors": ["src/mfpml/models/gaussian_process.py:GaussianProcessRegression.predict", "src/mfpml/models/gaussian_process.py:GaussianProcessRegression._update_kernel_matrix", "src/mfpml/models/hierarchical_kriging.py:HierarchicalKriging.predict"]}
{"id": "C101", "title": "More samples, less relative uncertainty", "statement": "With the same length scales and relative noise, a process trained on more samples reports at every point a variance (beyond the noise) that is, relative to its fitted process variance, at most that of the process trained on fewer of these samples.", "quantifier": "every pair of nested training sets, responses, basis, prediction point", "why_tests_cant": "All nested data sets and points.", "anchors": ["src/mfpml/models/gaussian_process.py:GaussianProcessRegression.predict"]}
{"id": "C102", "title": "Co-Kriging predictions and their standard deviation", "statement": "For the trained length scales, scale factor and variances, the mean returned by CoKriging.predict is the best linear unbiased prediction from the responses of both fidelities, and the squared returned standard deviation is the mean squared error of that prediction plus the squared noise.", "quantifier": "every pair of training sets, noise, prediction set", "why_tests_cant": "All data sets and all competing predictors.", "anchors": ["src/mfpml/models/co_kriging.py:CoKriging.predict", "src/mfpml/models/co_kriging.py:CoKriging._optHyp"]}
{"id": "C103", "title": "Predictions do not depend on the units of the responses", "statement": "Training a Kriging, hierarchical Kriging, scaled Kriging (rho fixed at 1) or co-Kriging model on responses a*y + b instead of y (a non-zero, known noise levels multiplied by |a|) raises the same exception or chooses the same hyper-parameters, and then every predicted mean is a*mean + b and every predicted standard deviation |a| times the former one.", "quantifier": "every training set, unit change a, b with a non-zero, known noise, solver and start points, prediction set", "why_tests_cant": "All data sets, all affine unit changes, all solvers.", "anchors": ["src/mfpml/models/gaussian_process.py:GaussianProcessRegression.train", "src/mfpml/models/hierarchical_kriging.py:HierarchicalKriging._train_hf", "src/mfpml/models/scale_kriging.py:ScaledKriging._train_hf", "src/mfpml/models/co_kriging.py:CoKriging._optHyp"]}
{"id": "C104", "title": "Predictions do not depend on the units of the inputs", "statement": "Expressing every input variable in its own other unit (x_k becomes a_k x_k + b_k with a_k non-zero, for samples, prediction points and design space alike) leaves the outcome of train and all predicted means and standard deviations of Kriging, hierarchical Kriging, scaled Kriging and co-Kriging unchanged.", "quantifier": "every model, training set, unit change, solver, prediction set", "why_tests_cant": "All data sets, all unit changes, all solvers.", "anchors": ["src/mfpml/models/gaussian_process.py:GaussianProcessRegression.normalize_input", "src/mfpml/models/mf_gaussian_process.py:normalize_input", "src/mfpml/models/hierarchical_kriging.py:HierarchicalKriging.predict", "src/mfpml/models/scale_kriging.py:ScaledKriging.predict", "src/mfpml/models/co_kriging.py:CoKriging.predict"]}
{"id": "C105", "title": "Multi-fidelity predictions do not depend on the batch", "statement": "The mean and standard deviation predicted for a point by Kriging, hierarchical Kriging, scaled Kriging and co-Kriging are the same in every batch of points it is part of.", "quantifier": "every trained model, batch, position in the batch", "why_tests_cant": "All batches of all sizes.", "anchors": ["src/mfpml/models/hierarchical_kriging.py:HierarchicalKriging.predict", "src/mfpml/models/scale_kriging.py:ScaledKriging.predict", "src/mfpml/models/co_kriging.py:CoKriging.predict", "src/mfpml/models/kernels.py:RBF.get_kernel_matrix"]}
{"id": "C106", "title": "Kriging predictions do not depend on the order of the samples", "statement": "Training on the same samples in another order gives the same predicted means and standard deviations everywhere.", "quantifier": "every training set, permutation, solver, prediction set", "why_tests_cant": "All permutations of all data sets.", "anchors": ["src/mfpml/models/gaussian_process.py:GaussianProcessRegression.train", "src/mfpml/models/gaussian_process.py:GaussianProcessRegression.predict", "src/mfpml/models/kernels.py:RBF.get_kernel_matrix"]}
{"id": "C107", "title": "Multi-fidelity models can be trained on varying responses", "statement": "Hierarchical Kriging, scaled Kriging and co-Kriging with usual settings can be trained on every data set whose responses are not all equal at either fidelity.", "quantifier": "every data set, noise setting, solver meeting its contract", "why_tests_cant": "All data sets.", "anchors": ["src/mfpml/models/hierarchical_kriging.py:HierarchicalKriging._train_hf", "src/mfpml/models/scale_kriging.py:ScaledKriging._train_hf", "src/mfpml/models/co_kriging.py:CoKriging._optHyp"]}
{"id": "C108", "title": "Scaled Kriging works with the models it is given", "statement": "A ScaledKriging object built with the user's own low-fidelity and discrepancy models trains exactly when, and predicts exactly what, a low-fidelity model trained on the low-fidelity data and a discrepancy model trained on the differences give.", "quantifier": "every pair of models (also the same one twice), state of all objects, data set, solver", "why_tests_cant": "All object graphs and all data sets.", "anchors": ["src/mfpml/models/scale_kriging.py:ScaledKriging.__init__", "src/mfpml/models/scale_kriging.py:ScaledKriging._train_hf", "src/mfpml/models/scale_kriging.py:ScaledKriging.predict", "src/mfpml/models/mf_gaussian_process.py:_mfGaussianProcess.train"]}
{"id": "C109", "title": "A multi-fidelity training that raises changes no predictions", "statement": "When a second training of a ScaledKriging, HierarchicalKriging or CoKriging object raises, its predictions of both fidelities, and those of all other models, are what they were before.", "quantifier": "every state of all objects, data set, exception", "why_tests_cant": "The failure can happen at every step of the training.", "anchors": ["src/mfpml/models/mf_gaussian_process.py:_mfGaussianProcess.train", "src/mfpml/models/mf_gaussian_process.py:_mfGaussianProcess._train_lf", "src/mfpml/models/scale_kriging.py:ScaledKriging._train_hf", "src/mfpml/models/scale_kriging.py:ScaledKriging._rho_optimize", "src/mfpml/models/hierarchical_kriging.py:HierarchicalKriging._train_hf"]}
{"id": "C110", "title": "Writing into the response arrays after a multi-fidelity training changes no predictions", "statement": "Once a ScaledKriging or HierarchicalKriging object is trained, changing the caller's low- or high-fidelity response array in place changes no prediction.", "quantifier": "every trained model, array content, prediction set", "why_tests_cant": "All contents written, all models.", "anchors": ["src/mfpml/models/mf_gaussian_process.py:_mfGaussianProcess._train_lf", "src/mfpml/models/gaussian_process.py:GaussianProcessRegression.train", "src/mfpml/models/scale_kriging.py:ScaledKriging._train_hf", "src/mfpml/models/scale_kriging.py:ScaledKriging.predict", "src/mfpml/models/hierarchical_kriging.py:HierarchicalKriging._train_hf", "src/mfpml/models/hierarchical_kriging.py:HierarchicalKriging.predict"]}
{"id": "C111", "title": "When multi-fidelity Bayesian optimisation raises", "statement": "With hierarchical Kriging and VFEI or VFLCB, or scaled Kriging and VFLCB, run_optimizer raises nothing but what the retraining of the surrogate raises; if the fidelities share three rows with responses not on a line (scaled Kriging: two rows with different differences) neither the constructor nor any run raises. Scaled Kriging with VFEI always raises.", "quantifier": "every problem, design space, seed, state of the random generators, number of iterations and of runs", "why_tests_cant": "All histories of all runs; the retraining sees a different data set in each iteration.", "anchors": ["src/mfpml/optimization/mf_uncons_bo.py:mfUnConsBayesOpt.run_optimizer", "src/mfpml/optimization/mf_uncons_bo.py:mfUnConsBayesOpt.__init__", "src/mfpml/optimization/mf_acqusitions.py:VFEI.query", "src/mfpml/optimization/mf_acqusitions.py:VFLCB.query", "src/mfpml/models/mf_gaussian_process.py:_mfGaussianProcess.train"]}
{"id": "C112", "title": "Retraining a hierarchical Kriging model forgets the past", "statement": "Whatever was done before with a HierarchicalKriging object of known noise (trainings that returned or raised, kernel changes, writes into response arrays, uses of its low-fidelity model), training it succeeds exactly when it succeeds for a newly created object with the same settings, and the predictions of both fidelities are then the same.", "quantifier": "every history of calls, data set, solver, prediction set", "why_tests_cant": "All histories, with failed trainings in any place.", "anchors": ["src/mfpml/models/hierarchical_kriging.py:HierarchicalKriging.__init__", "src/mfpml/models/hierarchical_kriging.py:HierarchicalKriging._train_hf", "src/mfpml/models/hierarchical_kriging.py:HierarchicalKriging.predict", "src/mfpml/models/mf_gaussian_process.py:_mfGaussianProcess.train"]}
{"id": "C113", "title": "Retraining a co-Kriging model forgets the past", "statement": "Whatever was done before with a CoKriging object of known noise (trainings that returned or raised, standard deviations, kernel changes), training it succeeds exactly when it succeeds for a newly created object with the same settings, and both then answer every call alike.", "quantifier": "every history of calls, data set, solver, later call", "why_tests_cant": "All histories, with failed trainings in any place; one training on equal high-fidelity responses anywhere in the history ruins the object.", "anchors": ["src/mfpml/models/co_kriging.py:CoKriging.__init__", "src/mfpml/models/co_kriging.py:CoKriging.train", "src/mfpml/models/co_kriging.py:CoKriging.predict", "src/mfpml/models/co_kriging.py:_GP.train"]}
{"id": "C114", "title": "Predictions at evaluated points in any batch", "statement": "After Kriging is trained, predict at a training point, in any row of any batch, misses its response by at most sqrt(2 n v) with v = process variance times (1e-10 spread^2 + noise^2), and its standard deviation is at most sqrt(v + noise^2); without noise these are 1e-5 sqrt(2 n) and 1e-5 process standard deviations.", "quantifier": "every data set, kernel bounds, noise, batch and row", "why_tests_cant": "The kernel adds its nugget by row number, so a batch in another order interpolates differently; no batch of examples bounds the error.", "anchors": ["src/mfpml/models/gaussian_process.py:GaussianProcessRegression.train", "src/mfpml/models/gaussian_process.py:GaussianProcessRegression.predict", "src/mfpml/models/kernels.py:RBF.get_kernel_matrix"]}
{"id": "C115", "title": "Kriging predictions vary slowly", "statement": "With the constant basis, the predictions of a trained Kriging model at two points differ by at most the spread of the responses times sqrt(2 n s2 D) + 2e-5 sqrt(n s2), with s2 the fitted process variance and D the squared distance of the points weighted by the trained length scales; the variance at a point exceeds that at an evaluated point by at most 2 s2 D spread^2.", "quantifier": "every data set, pair of points, batch", "why_tests_cant": "A Lipschitz-type bound over all pairs of points and all data.", "anchors": ["src/mfpml/models/gaussian_process.py:GaussianProcessRegression.predict", "src/mfpml/models/kernels.py:RBF.get_kernel_matrix"]}
{"id": "C116", "title": "Acquisitions do not propose an evaluated point again", "statement": "While some point of the domain promises more than a small fraction of the process standard deviation, Bayesian optimisation does not propose a point that it has already evaluated.", "quantifier": "every problem, history, reachable state and near-exact search", "why_tests_cant": "All histories and all search outcomes; a repeated point makes the covariance matrix nearly singular and wastes an evaluation.", "anchors": ["src/mfpml/optimization/sf_uncons_acqusitions.py:EI.eval", "src/mfpml/optimization/sf_uncons_acqusitions.py:PI.eval", "src/mfpml/optimization/sf_uncons_bo.py:BayesUnConsOpt.run_optimizer"]}
{"id": "C117", "title": "Predictions are continuous", "statement": "After training, the mean and the standard deviation that predict returns are continuous functions of the point, for each row number, for Kriging, hierarchical, scaled and co-Kriging with any continuous basis (the package's bases are).", "quantifier": "every data set, model, row", "why_tests_cant": "Continuity at every point cannot be sampled; square roots of small variances and the division by the range are where it could fail.", "anchors": ["src/mfpml/models/gaussian_process.py:GaussianProcessRegression.predict", "src/mfpml/models/hierarchical_kriging.py:HierarchicalKriging.predict", "src/mfpml/models/scale_kriging.py:ScaledKriging.predict", "src/mfpml/models/co_kriging.py:CoKriging.predict", "src/mfpml/models/basis_functions.py:Quadratic"]}
{"id": "C118", "title": "The search problems of the acquisitions have a solution", "statement": "The function that an acquisition's query hands to the global search is defined everywhere in the domain and has a minimum there.", "quantifier": "every trained surrogate, reachable optimiser state, acquisition and fidelity", "why_tests_cant": "Existence of a minimum over a continuum; acquisitions that jump to 0 where the uncertainty is small are not continuous.", "anchors": ["src/mfpml/optimization/sf_uncons_acqusitions.py:SFUnConsAcq.query", "src/mfpml/optimization/sf_cons_acqusitions.py:SFConsAcq.query", "src/mfpml/optimization/mf_acqusitions.py:AugmentedEI.query", "src/mfpml/optimization/mf_acqusitions.py:VFEI.query", "src/mfpml/optimization/mf_acqusitions.py:VFLCB.query", "src/mfpml/optimization/mf_acqusitions.py:ExtendedPI.query"]}
{"id": "C119", "title": "Training is maximum likelihood estimation", "statement": "The likelihood that train searches has a best parameter within the bounds, and if the optimiser finds it, the trained kernel parameters (with the noise, if it is estimated), trend coefficients and, without noise, the process variance maximise the normal likelihood of the standardised responses jointly.", "quantifier": "every data set, basis, kernel bounds and noise setting", "why_tests_cant": "A joint maximum over a continuum of parameters, coefficients and variances, for every data set.", "anchors": ["src/mfpml/models/gaussian_process.py:GaussianProcessRegression.train", "src/mfpml/models/mf_gaussian_process.py:_mfGaussianProcess.train", "src/mfpml/models/co_kriging.py:CoKriging.train", "src/mfpml/models/co_kriging.py:CoKriging._optHyp"]}
{"id": "C120", "title": "Longer optimiser runs extend shorter ones", "statement": "Two PSO (or DE) runs with the same objective and the same draws that differ only in num_gen and the stopping threshold agree on every generation of the shorter one: same objective calls, samples, responses and best values. More generations and a lower or no threshold never shorten the run, and the longer run does not return a worse value.", "quantifier": "every objective, space, setting, pair of generation counts and thresholds, and every stream of draws", "why_tests_cant": "Relates two runs of any length on any objective.", "anchors": ["src/mfpml/optimization/evolutionary_algorithms.py:PSO.run_optimizer", "src/mfpml/optimization/evolutionary_algorithms.py:DE.run_optimizer"]}
{"id": "C121", "title": "Only the order of the objective values matters to the optimisers", "statement": "Replacing the objective by a strictly increasing function of it (and the stopping threshold likewise) changes no position visited by PSO or DE with the same draws: same calls, samples and best points; the reported best values are the transformed ones.", "quantifier": "every objective, strictly increasing transformation, space, setting and stream of draws", "why_tests_cant": "Every increasing function and every objective; a test fixes both.", "anchors": ["src/mfpml/optimization/evolutionary_algorithms.py:PSO.run_optimizer", "src/mfpml/optimization/evolutionary_algorithms.py:DE.run_optimizer"]}
{"id": "C122", "title": "The units of the design variables do not matter to the optimisers", "statement": "Multiplying each design variable by a positive factor and shifting it (bounds and objective rewritten accordingly) gives, with the same draws, the same PSO or DE run in the new units: the same best values, and every population and best point converted.", "quantifier": "every objective, box, positive factors and shifts, setting and stream of draws (exact arithmetic)", "why_tests_cant": "Every change of units, run length and objective.", "anchors": ["src/mfpml/optimization/evolutionary_algorithms.py:PSO.run_optimizer", "src/mfpml/optimization/evolutionary_algorithms.py:DE.run_optimizer", "src/mfpml/optimization/evolutionary_algorithms.py:EABase._loc_cons"]}
{"id": "C123", "title": "Flat and column responses give the same model", "statement": "Responses passed as an array of shape (n,) or (n, 1) give the same exception or a model with the same predictions and standard deviations at all points, for each surrogate and each fidelity.", "quantifier": "every surrogate, trend, data set, optimiser and prediction point", "why_tests_cant": "Broadcasting errors depend on shapes and sizes; all data sets and optimiser outcomes are covered.", "anchors": ["src/mfpml/models/gaussian_process.py:GaussianProcessRegression.train", "src/mfpml/models/hierarchical_kriging.py:HierarchicalKriging._train_hf", "src/mfpml/models/scale_kriging.py:ScaledKriging._train_hf", "src/mfpml/models/co_kriging.py:CoKriging.train", "src/mfpml/models/co_kriging.py:CoKriging._update_parameters"]}
{"id": "C124", "title": "A wrong number of responses is reported", "statement": "Training on n samples with an array of another number of responses raises an exception, for each surrogate, each fidelity and whatever the optimiser returns.", "quantifier": "every surrogate, sample array, response array of any shape and optimiser", "why_tests_cant": "All sizes, shapes and optimiser outcomes.", "anchors": ["src/mfpml/models/gaussian_process.py:GaussianProcessRegression.train", "src/mfpml/models/hierarchical_kriging.py:HierarchicalKriging._train_hf", "src/mfpml/models/scale_kriging.py:ScaledKriging._getDisc", "src/mfpml/models/co_kriging.py:CoKriging.train"]}
{"id": "C125", "title": "Sample arrays of a wrong shape are reported", "statement": "In a problem with d variables, one point may be passed as (d,) or (1, d) with the same prediction; samples or points with another number of columns, and training samples passed as a flat array, raise an exception.", "quantifier": "every surrogate, number of variables, number of columns, data and optimiser", "why_tests_cant": "All shapes; silent broadcasting gives plausible numbers a test would not question.", "anchors": ["src/mfpml/models/gaussian_process.py:GaussianProcessRegression.train", "src/mfpml/models/gaussian_process.py:GaussianProcessRegression.predict", "src/mfpml/models/gaussian_process.py:GaussianProcessRegression.normalize_input", "src/mfpml/models/kernels.py:RBF.get_kernel_matrix", "src/mfpml/models/hierarchical_kriging.py:HierarchicalKriging.predict", "src/mfpml/models/scale_kriging.py:ScaledKriging.predict", "src/mfpml/models/co_kriging.py:CoKriging.predict"]}
{"id": "C126", "title": "The stored log-likelihood is the maximised one", "statement": "After training with an optimiser that finds the best hyper-parameters, the attribute logp is the largest value of the log-likelihood that the search maximises (up to a constant that depends on the number of samples only).", "quantifier": "every data set, trend, noise setting and kernel range", "why_tests_cant": "The maximum over all hyper-parameters cannot be computed by a test.", "anchors": ["src/mfpml/models/gaussian_process.py:GaussianProcessRegression._update_kernel_matrix", "src/mfpml/models/hierarchical_kriging.py:HierarchicalKriging._update_parameters", "src/mfpml/models/co_kriging.py:CoKriging._update_parameters"]}
{"id": "C127", "title": "Far from the data predictions return to the trend", "statement": "As a prediction point moves away from the samples in any direction, the predicted mean tends to the fitted trend (for a constant trend: to the generalised least squares mean of the responses) and the standard deviation to that of the process, the estimated mean and the noise together.", "quantifier": "every surrogate, data set, hyper-parameters found by the search, direction and batch", "why_tests_cant": "A limit over all unbounded points.", "anchors": ["src/mfpml/models/gaussian_process.py:GaussianProcessRegression.predict", "src/mfpml/models/kernels.py:RBF.get_kernel_matrix", "src/mfpml/models/hierarchical_kriging.py:HierarchicalKriging.predict", "src/mfpml/models/scale_kriging.py:ScaledKriging.predict", "src/mfpml/models/co_kriging.py:CoKriging.predict"]}
{"id": "C128", "title": "Units of the low-fidelity responses do not matter for hierarchical Kriging", "statement": "Hierarchical Kriging estimates the scale between the fidelities, so measuring the low-fidelity responses in other units (multiplying them by a nonzero factor, together with a known low-fidelity noise) leaves all predictions for the high fidelity unchanged.", "quantifier": "every data set, nonzero factor, hyper-parameter search and batch of prediction points", "why_tests_cant": "Relates two trainings for all data sets and factors.", "anchors": ["src/mfpml/models/hierarchical_kriging.py:HierarchicalKriging._train_hf", "src/mfpml/models/hierarchical_kriging.py:HierarchicalKriging.predict", "src/mfpml/models/hierarchical_kriging.py:HierarchicalKriging._logLikelihood"]}
{"id": "C129", "title": "Samples and initial populations are uniformly distributed over the design space", "statement": "With an ideal random generator the samples of RandomSampler and the initial populations of PSO and DE are independent and uniformly distributed over the design space, and every single sample of LatinHyperCube and SobolSequence is uniformly distributed over it.", "quantifier": "every design space with low < high, number of samples, objective and configuration", "why_tests_cant": "A statement about a probability distribution; tests see single outcomes.", "anchors": ["src/mfpml/design_of_experiment/sf_samplers.py:RandomSampler.get_samples", "src/mfpml/design_of_experiment/sf_samplers.py:LatinHyperCube.get_samples", "src/mfpml/design_of_experiment/sf_samplers.py:SobolSequence.get_samples", "src/mfpml/design_of_experiment/sf_samplers.py:SingleFidelitySampler.scale_samples", "src/mfpml/optimization/evolutionary_algorithms.py:EABase._location_initialzer"]}
{"id": "C130", "title": "Large populations find the minimum with high probability", "statement": "The value returned by PSO or DE is worse than v with a probability of at most s^num_pop, where s is the share of the design space with objective values worse than v; for a continuous objective the probability of missing the global minimum by more than any fixed amount tends to zero as the population grows, for all other settings.", "quantifier": "every measurable objective, design space, configuration, threshold and distribution of the later draws", "why_tests_cant": "A bound on probabilities over all random draws and all objectives.", "anchors": ["src/mfpml/optimization/evolutionary_algorithms.py:PSO.run_optimizer", "src/mfpml/optimization/evolutionary_algorithms.py:DE.run_optimizer", "src/mfpml/optimization/evolutionary_algorithms.py:EABase._location_initialzer"]}
{"id": "C131", "title": "Bayesian optimisation does not depend on the units of the objective, up to the constants of the code", "statement": "If the objective f is replaced by a*f + b with a > 0, a Bayesian optimiser with LCB makes exactly the same evaluations, over its construction and any number of runs, reports the same best points and the converted best values, and raises in the same cases; with EI and PI the same is true once the absolute constant 1e-9 in their guard is divided by a. The known optimum, if one is given, has to be converted by a factor only and be different from zero: with a known optimum of 0 the stopping rule itself depends on the units and a run in other units can make a different number of evaluations.", "quantifier": "every objective, design space, a > 0, b, seed, number of initial samples, list of runs and inner search whose outcome depends only on the order of the values", "why_tests_cant": "Compares two whole histories for every objective and change of units.", "anchors": ["src/mfpml/optimization/sf_uncons_bo.py:BayesUnConsOpt.run_optimizer", "src/mfpml/optimization/sf_uncons_bo.py:BayesUnConsOpt.__update_error", "src/mfpml/optimization/sf_uncons_acqusitions.py:LCB.eval", "src/mfpml/optimization/sf_uncons_acqusitions.py:EI.eval", "src/mfpml/optimization/sf_uncons_acqusitions.py:PI.eval"]}
{"id": "C132", "title": "Multi-fidelity Bayesian optimisation does not depend on the units of the objectives, up to the constants of the code", "statement": "If both objectives are replaced by a*f + b with the same a > 0 and b, a multi-fidelity optimiser with VFLCB and any of the surrogates evaluates the same points at the same fidelities in the same order, reports the same best points and the converted best values, and raises in the same cases; with VFEI, AugmentedEI and ExtendedPI the same is true once their absolute constants (1e-8 and the floating point epsilon) are divided by a. A known optimum, if given, has to be converted by a factor only and be different from zero.", "quantifier": "every pair of objectives, design space, surrogate, a > 0, b, seed, list of runs and inner search whose outcome depends only on the order of the values", "why_tests_cant": "Compares two whole histories for every pair of objectives and change of units.", "anchors": ["src/mfpml/optimization/mf_uncons_bo.py:mfUnConsBayesOpt.run_optimizer", "src/mfpml/optimization/mf_acqusitions.py:VFLCB.query", "src/mfpml/optimization/mf_acqusitions.py:VFEI.query", "src/mfpml/optimization/mf_acqusitions.py:AugmentedEI.query", "src/mfpml/optimization/mf_acqusitions.py:ExtendedPI.query"]}
{"id": "C133", "title": "Responses that follow the trend are reproduced everywhere", "statement": "A Gaussian process with the linear basis trained on responses that are an affine function of the inputs predicts exactly that function at every point, inside or outside the samples, whatever kernel parameters training finds, and reports the noise as standard deviation; with the quadratic basis the same holds for every polynomial of degree at most 2. In hierarchical Kriging the low-fidelity prediction is the trend: if the high-fidelity deviations from their average are proportional to those of the low-fidelity predictions at the samples they are so everywhere, and with equal data at both fidelities the model predicts what its exact low-fidelity model predicts.", "quantifier": "every affine or quadratic function, dimension, sample matrix, noise, solver outcome for which training succeeds, and every batch of query points", "why_tests_cant": "Exact equality at every point of the space for every function of an infinite class.", "anchors": ["src/mfpml/models/gaussian_process.py:GaussianProcessRegression.train", "src/mfpml/models/gaussian_process.py:GaussianProcessRegression.predict", "src/mfpml/models/basis_functions.py:Linear", "src/mfpml/models/basis_functions.py:Quadratic", "src/mfpml/models/mf_gaussian_process.py:_mfGaussianProcess.train", "src/mfpml/models/hierarchical_kriging.py:HierarchicalKriging.predict"]}
{"id": "C134", "title": "save_data saves the samples returned last", "statement": "In every program that uses sampler objects, save_data of a sampler leaves in the file exactly the samples that the sampler's last successful get_samples call returned (as they are at that moment, if the caller has written into the returned arrays), and nothing but a later save_data call with the same file name changes the file; a single-fidelity sampler without samples saves None. Failed get_samples calls in between do not matter.", "quantifier": "every program: any number of sampler objects of any kind, sequence of constructions, get_samples calls (successful or not), writes by the caller and save_data calls", "why_tests_cant": "A property of all histories of several objects sharing memory and files.", "anchors": ["src/mfpml/design_of_experiment/sf_samplers.py:SingleFidelitySampler.save_data", "src/mfpml/design_of_experiment/mf_samplers.py:MultiFidelitySampler.save_data", "src/mfpml/design_of_experiment/sf_samplers.py:LatinHyperCube.get_samples", "src/mfpml/design_of_experiment/sf_samplers.py:SobolSequence.get_samples", "src/mfpml/design_of_experiment/mf_samplers.py:MultiFidelitySampler.get_samples"]}
{"id": "C135", "title": "Saving never destroys files", "statement": "A save_data call either writes the samples or leaves existing files as they are.", "quantifier": "every program using sampler objects and every existing file", "why_tests_cant": "A property of all histories, about what is left after an exception.", "anchors": ["src/mfpml/design_of_experiment/sf_samplers.py:SingleFidelitySampler.save_data", "src/mfpml/design_of_experiment/mf_samplers.py:MultiFidelitySampler.save_data"]}
{"id": "C136", "title": "Returned sample arrays are independent", "statement": "Writing into a sample array that get_samples returned changes no other sample array returned earlier or later, by the same sampler or another one, in particular not the samples of another fidelity of the same design.", "quantifier": "every program using sampler objects, every two arrays returned in it, every later time and every write", "why_tests_cant": "Aliasing between any two arrays of any history.", "anchors": ["src/mfpml/design_of_experiment/mf_samplers.py:MFSobolSequence._get_nested_samples", "src/mfpml/design_of_experiment/mf_samplers.py:MFLatinHyperCube._get_nested_samples", "src/mfpml/design_of_experiment/mf_samplers.py:MultiFidelitySampler.get_samples", "src/mfpml/design_of_experiment/sf_samplers.py:FixNumberSampler.get_samples"]}
{"id": "C137", "title": "A sampler keeps the design space it was constructed with", "statement": "All samples a sampler draws lie in the design space it was constructed with, whatever the program does between construction and drawing.", "quantifier": "every program using sampler objects and every sampler constructed in it", "why_tests_cant": "A property of all histories, about memory shared with the caller.", "anchors": ["src/mfpml/design_of_experiment/sf_samplers.py:SingleFidelitySampler.__init__", "src/mfpml/design_of_experiment/mf_samplers.py:MultiFidelitySampler.__init__", "src/mfpml/design_of_experiment/mf_samplers.py:MultiFidelitySampler.transfer_design_space_list"]}
{"id": "C138", "title": "Writing into the results of a Bayesian optimiser does not change the optimiser", "statement": "A program may write into best_x (the array run_optimizer returns) and into the entries of history_best_x: what the optimiser has recorded (samples, responses, incumbent values) and all later runs are as if nothing had been written.", "quantifier": "every problem, surrogate and acquisition, every program of run_optimizer calls and writes into the arrays the optimiser has handed out, at any time", "why_tests_cant": "Aliasing: a property of all interleavings of runs and writes.", "anchors": ["src/mfpml/optimization/sf_uncons_bo.py:BayesUnConsOpt._update_para", "src/mfpml/optimization/sf_uncons_bo.py:BayesUnConsOpt._initialization", "src/mfpml/optimization/sf_uncons_bo.py:BayesUnConsOpt.run_optimizer", "src/mfpml/optimization/mf_uncons_bo.py:mfUnConsBayesOpt._initialization", "src/mfpml/optimization/mf_uncons_bo.py:mfUnConsBayesOpt._update_para", "src/mfpml/optimization/sf_cons_bo.py:BayesConsOpt._update_para", "src/mfpml/optimization/sf_cons_bo.py:BayesConsOpt._initialization"]}
{"id": "C139", "title": "Acquisitions prefer better and more uncertain predictions", "statement": "If the model predicts at one point a mean that is not larger and a standard deviation that is not smaller than at another point, no acquisition that balances exploitation and exploration (lower confidence bound, expected improvement, and their constrained and multi-fidelity variants at high fidelity) ranks the first point behind the second.", "quantifier": "every surrogate, every two points, every incumbent and every pair of predictions", "why_tests_cant": "A monotonicity statement over all pairs of real predictions; the code adds small constants to the standard deviation in some places only, so its failure region is invisible to samples.", "anchors": ["src/mfpml/optimization/sf_uncons_acqusitions.py:LCB.eval", "src/mfpml/optimization/sf_uncons_acqusitions.py:EI.eval", "src/mfpml/optimization/sf_uncons_acqusitions.py:PI.eval", "src/mfpml/optimization/sf_cons_acqusitions.py:CEI.eval", "src/mfpml/optimization/sf_cons_acqusitions.py:CEI.ei", "src/mfpml/optimization/sf_cons_acqusitions.py:CEI.pof", "src/mfpml/optimization/mf_acqusitions.py:AugmentedEI.eval", "src/mfpml/optimization/mf_acqusitions.py:VFEI.eval"]}
{"id": "C140", "title": "Saved step results survive crashes", "statement": "With save_step_results=True, if the process is killed at any moment after the first iteration has been saved, or the objective raises, step_results.pickle can be read and holds the record of the completed iterations (at most one behind): the same rows a run with only that many generations returns. Saving and printing never change the result of the run.", "quantifier": "every objective (also one that raises), every setting, and every crash point of the run", "why_tests_cant": "Quantifies over crash points; a test cannot kill the process between two system calls.", "anchors": ["src/mfpml/optimization/evolutionary_algorithms.py:EABase._save_results", "src/mfpml/optimization/evolutionary_algorithms.py:EABase.print_info", "src/mfpml/optimization/evolutionary_algorithms.py:PSO.run_optimizer", "src/mfpml/optimization/evolutionary_algorithms.py:DE.run_optimizer"]}
{"id": "C141", "title": "Order of the design variables does not matter", "statement": "Numbering the design variables in another order (in the design space, the samples, the objective and the prediction points, with the random numbers going to the same variables) changes nothing but the order of the coordinates: PSO and DE evaluate and return the same points and values, and Kriging, hierarchical, scaled and co-Kriging models with any of the library's trends find the same noise and length scales and give the same predictions, or raise the same exception.", "quantifier": "every permutation of any number of variables, every data set, objective (also one that raises), setting and schedule of random numbers", "why_tests_cant": "Quantifies over permutations, objectives and random histories.", "anchors": ["src/mfpml/optimization/evolutionary_algorithms.py:PSO.run_optimizer", "src/mfpml/optimization/evolutionary_algorithms.py:DE.run_optimizer", "src/mfpml/models/gaussian_process.py:GaussianProcessRegression.train", "src/mfpml/models/hierarchical_kriging.py:HierarchicalKriging", "src/mfpml/models/scale_kriging.py:ScaledKriging", "src/mfpml/models/co_kriging.py:CoKriging", "src/mfpml/models/basis_functions.py:Linear", "src/mfpml/models/basis_functions.py:Quadratic", "src/mfpml/models/kernels.py:RBF"]}
{"id": "C142", "title": "Multi-fidelity Sobol samples are the requested block of the sequence", "statement": "MFSobolSequence.get_samples returns for every fidelity the points num_skip, ..., num_skip + n_i - 1 of the Sobol sequence of the seed, scaled into the design space; without num_skip it skips as many points as there are variables, as SobolSequence does.", "quantifier": "every number of fidelities, every sample counts, seeds, skips and design spaces, nested or not, given once or as a list", "why_tests_cant": "Ranges over all counts, skips and seeds.", "anchors": ["src/mfpml/design_of_experiment/mf_samplers.py:MFSobolSequence", "src/mfpml/design_of_experiment/mf_samplers.py:MFSobolSequence._get_nested_samples", "src/mfpml/design_of_experiment/mf_samplers.py:MFSobolSequence._get_non_nested_samples", "src/mfpml/design_of_experiment/sf_samplers.py:SobolSequence.get_samples"]}
{"id": "C143", "title": "Test problems refuse samples with the wrong number of columns", "statement": "f, f_cons, hf and lf of the test problems raise an exception when the samples have another number of columns than num_dim.", "quantifier": "every problem, every number of samples and of columns, and all sample values", "why_tests_cant": "Ranges over all problems, column counts and samples.", "anchors": ["src/mfpml/problems/functions.py:Functions", "src/mfpml/problems/sf_functions.py", "src/mfpml/problems/sf_cons_functions.py", "src/mfpml/problems/mf_functions.py"]}
{"id": "C144", "title": "Bumpiness objective of scaled Kriging", "statement": "With rho_method='bumpiness' the objective of a scale factor rho is the sum of squared differences between rho times the low-fidelity predictions and the responses, times the Euclidean norm of the length-scale parameters of the discrepancy model trained for rho. It is defined for every rho and does not depend on the candidates evaluated before.", "quantifier": "every discrepancy model, data set, candidate and history of candidates", "why_tests_cant": "Quantifies over histories of evaluations that retrain one shared model.", "anchors": ["src/mfpml/models/scale_kriging.py:ScaledKriging._eval_bumpiness", "src/mfpml/models/scale_kriging.py:ScaledKriging._eval_error", "src/mfpml/models/scale_kriging.py:ScaledKriging._rho_optimize", "src/mfpml/models/gaussian_process.py:GaussianProcessRegression.train"]}
{"id": "C145", "title": "Sample plots show the samples", "statement": "Constructing a sampler visualisation raises exactly if the sampler has produced no samples. plot_samples then draws one mark per sample, at the sample's coordinates, of the samples the sampler returned last; for several fidelities each fidelity is labelled with its number and has its own colour and marker. With more than three variables it raises ValueError.", "quantifier": "every program of sampler calls, saves and writes into returned arrays before and after constructing the visualisation, every number of samples, variables and fidelities", "why_tests_cant": "Ranges over all programs that share the sampler and its arrays.", "anchors": ["src/mfpml/visualization/samplers_visualization.py:SFSamplerVisualization", "src/mfpml/visualization/samplers_visualization.py:MFSamplerVisualization", "src/mfpml/design_of_experiment/sf_samplers.py:SingleFidelitySampler", "src/mfpml/design_of_experiment/mf_samplers.py:MFSampler"]}
{"id": "C146", "title": "The convergence plot shows the best value of every generation", "statement": "plot_optimization_history draws one point per generation from 0 to num_gen, and its height at a generation is the smallest objective value found up to that generation.", "quantifier": "every population size, dimension, generation count, objective function, parameter setting and every sequence of random draws", "why_tests_cant": "The random draws and the objective are unbounded inputs; a test fixes one seed and one objective.", "anchors": ["src/mfpml/optimization/evolutionary_algorithms.py:EABase.plot_optimization_history", "src/mfpml/optimization/evolutionary_algorithms.py:PSO.run_optimizer", "src/mfpml/optimization/evolutionary_algorithms.py:DE.run_optimizer"]}
{"id": "C147", "title": "update_model equals training on all samples", "statement": "After any number of update_model calls a low-fidelity model of co-Kriging is the model obtained by training a fresh one on all samples given so far; an update that raises leaves the model as it was.", "quantifier": "every first training, every history of updates (also ones that raise), kernels, trends, noise settings and solvers", "why_tests_cant": "Quantifies over histories of updates with failures in between.", "anchors": ["src/mfpml/models/co_kriging.py:_GP.update_model", "src/mfpml/models/co_kriging.py:_GP.train"]}
{"id": "C148", "title": "Failed evaluations (nan) do not spoil an optimisation", "statement": "If the objective returns nan for some points, run_optimizer treats them as worse than every number: it returns the smallest number found and a point where it was found.", "quantifier": "every population size, dimension, generation count, objective function, parameter setting and every sequence of random draws; the objective returns nan anywhere", "why_tests_cant": "The random draws and the objective are unbounded inputs; a test fixes one seed and one objective.", "anchors": ["src/mfpml/optimization/evolutionary_algorithms.py:PSO.run_optimizer", "src/mfpml/optimization/evolutionary_algorithms.py:DE.run_optimizer", "src/mfpml/optimization/evolutionary_algorithms.py:EABase._gen_best_obj", "src/mfpml/optimization/evolutionary_algorithms.py:EABase._gen_best_x", "src/mfpml/optimization/evolutionary_algorithms.py:PSO.__update_gen_optimum", "src/mfpml/optimization/evolutionary_algorithms.py:DE.__update_obj"]}
{"id": "C149", "title": "Design spaces may be written as lists or arrays", "statement": "A single-fidelity sampler gives the same samples whether its design space is written as an array, as nested lists or, for one variable, as a flat [lower, upper].", "quantifier": "all design spaces of any dimension, samplers, seeds, sample numbers and states of the generators", "why_tests_cant": "the forms, dimensions, seeds and generators are unbounded", "anchors": ["src/mfpml/design_of_experiment/sf_samplers.py:SingleFidelitySampler.__init__", "src/mfpml/design_of_experiment/sf_samplers.py:SobolSequence.__init__"]}
{"id": "C150", "title": "Malformed design spaces are reported", "statement": "A single-fidelity sampler whose design space is not one pair of bounds per variable raises, in the constructor or when samples are drawn.", "quantifier": "all arguments: flat lists of any length and lists of rows of any lengths", "why_tests_cant": "the arguments are unbounded", "anchors": ["src/mfpml/design_of_experiment/sf_samplers.py:SingleFidelitySampler.__init__", "src/mfpml/design_of_experiment/sf_samplers.py:SingleFidelitySampler.scale_samples"]}
{"id": "C151", "title": "Multi-fidelity samplers accept the same design spaces", "statement": "Multi-fidelity samplers accept design spaces written as arrays, lists of arrays and nested lists, and give the samples of these design spaces.", "quantifier": "all numbers of fidelities, design spaces, sample numbers, seeds and states of the generators", "why_tests_cant": "the arguments are unbounded", "anchors": ["src/mfpml/design_of_experiment/mf_samplers.py:MultiFidelitySampler.__init__", "src/mfpml/design_of_experiment/mf_samplers.py:MultiFidelitySampler.lb", "src/mfpml/design_of_experiment/mf_samplers.py:MultiFidelitySampler.get_samples"]}
{"id": "C152", "title": "Design spaces with different numbers of variables are refused", "statement": "If the design spaces given for the fidelities have different numbers of variables, get_samples raises instead of returning samples.", "quantifier": "all numbers of fidelities and variables, sample numbers, seeds and states of the generators", "why_tests_cant": "the arguments are unbounded", "anchors": ["src/mfpml/design_of_experiment/mf_samplers.py:MultiFidelitySampler.__init__", "src/mfpml/design_of_experiment/mf_samplers.py:MFLatinHyperCube._get_non_nested_samples", "src/mfpml/design_of_experiment/mf_samplers.py:MFSobolSequence._get_non_nested_samples"]}
{"id": "C153", "title": "Samples do not depend on the units of the variables", "statement": "Giving the bounds in other units (every variable scaled and shifted) gives the same samples in the new units, for every sampler, nested or not.", "quantifier": "all changes of units, design spaces, samplers, seeds, sample numbers and states of the generators, in exact arithmetic", "why_tests_cant": "an equality of two programs for all units", "anchors": ["src/mfpml/design_of_experiment/sf_samplers.py:SingleFidelitySampler.scale_samples", "src/mfpml/design_of_experiment/mf_samplers.py:MultiFidelitySampler.get_samples"]}
{"id": "C154", "title": "Bayesian optimisation does not depend on the units of the design variables", "statement": "Giving a problem in other units of its variables (bounds converted, objective and constraints taking converted points) gives the same optimisation: the evaluated, proposed and best points are converted, all values, best values, fidelities and exceptions are the same, for the single-fidelity, constrained and multi-fidelity optimisers with each surrogate and acquisition.", "quantifier": "all changes of units, problems, initial sizes, seeds, settings and sequences of run_optimizer calls, in exact arithmetic, for a search of the acquisition that does not itself depend on the units", "why_tests_cant": "an equality of two whole histories for all units and problems", "anchors": ["src/mfpml/optimization/sf_uncons_bo.py:BayesUnConsOpt.run_optimizer", "src/mfpml/optimization/sf_cons_bo.py:BayesConsOpt.run_optimizer", "src/mfpml/optimization/mf_uncons_bo.py:mfUnConsBayesOpt.run_optimizer", "src/mfpml/models/gaussian_process.py:GaussianProcessRegression.normalize_input"]}
{"id": "C155", "title": "A failed evaluation is survived by Bayesian optimisation", "statement": "If the objective or a constraint returns nan or an infinite value for some design, the optimiser does not count it as an improvement: best, best_x and the history are never nan and remain those of the proper evaluations; and the optimisation can be continued afterwards.", "quantifier": "all objectives that return nan or infinities anywhere, all histories of completed and failed iterations, all float arithmetics and library results", "why_tests_cant": "failed evaluations may come at any point of any history", "anchors": ["src/mfpml/optimization/sf_uncons_bo.py:BayesUnConsOpt.run_optimizer", "src/mfpml/optimization/sf_cons_bo.py:BayesConsOpt.run_optimizer", "src/mfpml/optimization/mf_uncons_bo.py:mfUnConsBayesOpt.run_optimizer", "src/mfpml/models/gaussian_process.py:GaussianProcessRegression.train", "src/mfpml/models/hierarchical_kriging.py:HierarchicalKriging.train", "src/mfpml/models/scale_kriging.py:ScaledKriging.train"]}
{"id": "C156", "title": "What Bayesian optimisation prints", "statement": "verbose does not influence what an optimiser does. With verbose=True the constructor reports the initial best, and run_optimizer prints one report per completed iteration, numbered from 1, with the best value and point after it (and the error if stopping_error < 1), also when a later iteration raises; with verbose=False no report. The first line of run_optimizer is the current error. The multi-fidelity and constrained optimisers print each evaluation as it enters the samples, the latter also a note for each iteration that ends without a feasible sample. Numbers printed with d decimals are right to half a unit of the last one and keep their order.", "quantifier": "all problems, surrogates, acquisitions, budgets, stopping errors, states of the optimiser and points at which an exception is raised", "why_tests_cant": "a relation between the whole output and the whole history", "anchors": ["src/mfpml/optimization/sf_uncons_bo.py:BayesUnConsOpt.run_optimizer", "src/mfpml/optimization/sf_cons_bo.py:BayesConsOpt.run_optimizer", "src/mfpml/optimization/mf_uncons_bo.py:mfUnConsBayesOpt.run_optimizer", "src/mfpml/optimization/mf_uncons_bo.py:mfUnConsBayesOpt._print_info"]}
{"id": "C157", "title": "Constrained Bayesian optimisation looks for improvements of the best feasible value", "statement": "In every iteration the constrained optimiser proposes a design with (nearly) the largest expected improvement over the reported best, the best feasible value, weighted with the probability of feasibility.", "quantifier": "all problems with row-wise objective and constraints, outside worlds (samplers, searches, draws), budgets, reachable states of the optimiser and points of the domain", "why_tests_cant": "the incumbent of the acquisition differs from the reported best only when an infeasible design has a smaller objective value, which depends on the history", "anchors": ["src/mfpml/optimization/sf_cons_acqusitions.py:CEI.eval", "src/mfpml/optimization/sf_cons_acqusitions.py:CEI.ei", "src/mfpml/optimization/sf_cons_bo.py:BayesConsOpt.run_optimizer"]}
{"id": "C158", "title": "Constrained Bayesian optimisation does not depend on the units of the objective and of the constraints", "statement": "Give the objective in other units and each constraint in its own other unit (positive factors). The constrained optimiser then evaluates the same points in the same order and reports the same best points and the same exceptions, with converted values, provided the two constants 1e-9 of the acquisition are read in the new units too.", "quantifier": "all problems, numbers of constraints, positive factors, offsets of the objective, budgets and sequences of run_optimizer calls", "why_tests_cant": "two runs of the whole optimiser are compared, for every pair of units", "anchors": ["src/mfpml/optimization/sf_cons_bo.py:BayesConsOpt.run_optimizer", "src/mfpml/optimization/sf_cons_acqusitions.py:CEI.eval", "src/mfpml/optimization/sf_cons_acqusitions.py:CEI.pof"]}
{"id": "C159", "title": "Hyper-parameters stay within kernel_bound", "statement": "After any sequence of train and change_optimizer calls that contains a training, every kernel hyper-parameter of a surrogate lies between 10**low and 10**high of the bounds the object was created with.", "quantifier": "all four models, all their options, data, searches that stay in their bounds (among them PSO and DE), and sequences of trainings and optimiser changes", "why_tests_cant": "it depends on the whole history of trainings and on the search, for every choice of bounds", "anchors": ["src/mfpml/models/hierarchical_kriging.py:HierarchicalKriging.__init__", "src/mfpml/models/co_kriging.py:CoKriging.__init__", "src/mfpml/models/scale_kriging.py:ScaledKriging.__init__", "src/mfpml/models/gaussian_process.py:GaussianProcessRegression.__init__", "src/mfpml/models/kernels.py:RBF"]}
{"id": "C160", "title": "The cost ratio steers the choice of fidelity", "statement": "If a multi-fidelity query chooses the low fidelity, it also does so for every larger cost_ratio; where the high fidelity would be evaluated does not depend on cost_ratio; and if low-fidelity evaluations promise any improvement, they are chosen for every large enough cost_ratio.", "quantifier": "all four multi-fidelity acquisitions, surrogates, cost ratios, random states and exact searches", "why_tests_cant": "it compares queries for all pairs of cost ratios, and limits", "anchors": ["src/mfpml/optimization/mf_acqusitions.py:AugmentedEI.query", "src/mfpml/optimization/mf_acqusitions.py:VFLCB.query", "src/mfpml/optimization/mf_acqusitions.py:ExtendedPI.query", "src/mfpml/optimization/mf_acqusitions.py:VFEI.query"]}
{"id": "C161", "title": "Every fidelity of MFLatinHyperCube is a Latin hypercube", "statement": "The samples that MFLatinHyperCube.get_samples returns for one fidelity form a Latin hypercube on the design space of that fidelity: in every direction each of n equal slices holds exactly one of the n samples.", "quantifier": "all boxes, numbers of samples and fidelities, nested or not, seeds and Latin-hypercube engines of scipy", "why_tests_cant": "it must hold for every output of the engine and every random choice of the nested subsets", "anchors": ["src/mfpml/design_of_experiment/mf_samplers.py:MFLatinHyperCube._get_non_nested_samples", "src/mfpml/design_of_experiment/mf_samplers.py:MultiFidelitySampler.get_samples"]}
{"id": "C162", "title": "Low-fidelity predictions depend on the low-fidelity data only", "statement": "Two trainings of the same multi-fidelity model with the same low-fidelity data, but different high-fidelity data, give the same predict_lf everywhere, with and without standard deviation.", "quantifier": "all three multi-fidelity models, sample sets of any sizes, responses, solvers, random starts and points", "why_tests_cant": "it compares two trainings on arbitrary data", "anchors": ["src/mfpml/models/mf_gaussian_process.py:_mfGaussianProcess.predict_lf", "src/mfpml/models/co_kriging.py:CoKriging.train", "src/mfpml/models/co_kriging.py:CoKriging.predict_lf"]}
{"id": "C163", "title": "Longer runs find the minimum", "statement": "For a continuous objective and independent uniform draws the probability that PSO or DE reports a value within any given distance of the minimum over the design space does not decrease with num_gen and tends to one.", "quantifier": "continuous objectives, design spaces, population sizes, tolerances and numbers of generations", "why_tests_cant": "it is a limit of probabilities over unboundedly long runs", "anchors": ["src/mfpml/optimization/evolutionary_algorithms.py:PSO.run_optimizer", "src/mfpml/optimization/evolutionary_algorithms.py:DE.run_optimizer", "src/mfpml/optimization/evolutionary_algorithms.py:EABase._loc_cons"]}
{"id": "C164", "title": "Improper training data never give proper predictions", "statement": "If training a surrogate on responses one of which is nan or infinite completes, whatever optimiser is used, no mean predicted afterwards at any point is a finite number: for Kriging, hierarchical and scaled Kriging all means and standard deviations are nan, for co-Kriging all means are nan or infinite (and all standard deviations nan if the improper response is of high fidelity).", "quantifier": "samples, responses with at least one improper value of either fidelity, optimisers, settings, prediction points, roundings", "why_tests_cant": "one improper value among any number of responses must reach every prediction at every point, through any search and any linear algebra", "anchors": ["src/mfpml/models/gaussian_process.py:GaussianProcessRegression.predict", "src/mfpml/models/hierarchical_kriging.py:HierarchicalKriging.predict", "src/mfpml/models/scale_kriging.py:ScaledKriging.predict", "src/mfpml/models/co_kriging.py:CoKriging.predict"]}
{"id": "C165", "title": "Prediction errors are bounded by the predicted uncertainty", "statement": "If the response function is a trend plus finitely many Gaussian bumps of the trained widths, of size N, measured with any errors e, then the error of the mean that Kriging or hierarchical Kriging predicts at any point is at most sqrt(N^2 + sum e^2 / noise variance) times the epistemic standard deviation it reports there (relative to the fitted process deviation), up to 2e-5; in particular noise-free Kriging becomes exact where samples become dense.", "quantifier": "response functions, measurement errors, samples, batches, prediction points", "why_tests_cant": "it bounds the error at all unseen points for all response functions of a kind", "anchors": ["src/mfpml/models/gaussian_process.py:GaussianProcessRegression.predict", "src/mfpml/models/hierarchical_kriging.py:HierarchicalKriging.predict"]}
{"id": "C166", "title": "Models refuse to predict before a training has returned", "statement": "As long as no call of train on a model has returned without an exception, predict raises, with and without return_std, whatever else the program has done (trainings that raised, trainings of other models, writes into shared arrays, set_params, change_optimizer); for a design space that is not degenerate it is AttributeError.", "quantifier": "all programs, models of the four classes, prediction points", "why_tests_cant": "it concerns every history in which each training raised at whatever point", "anchors": ["src/mfpml/models/gaussian_process.py:GaussianProcessRegression.predict", "src/mfpml/models/hierarchical_kriging.py:HierarchicalKriging.predict", "src/mfpml/models/scale_kriging.py:ScaledKriging.predict", "src/mfpml/models/co_kriging.py:CoKriging.predict"]}
{"id": "C167", "title": "Training finds the least-squares scale factor within its bounds", "statement": "With rho_method='error' and the built-in solver, ScaledKriging.train chooses, for every starting point, the scale factor within rho_bound that fits the low-fidelity predictions to the high-fidelity responses best in the sense of least squares: the unconstrained solution, moved to the nearest bound if it lies outside.", "quantifier": "data sets, bounds, starting points, models", "why_tests_cant": "the criterion has to have no other local minimum for any data", "anchors": ["src/mfpml/models/scale_kriging.py:ScaledKriging._rho_optimize", "src/mfpml/models/scale_kriging.py:ScaledKriging._eval_error"]}
{"id": "C168", "title": "kronDelta marks equal rows", "statement": "kronDelta(X, Y) is true at (i, j) exactly if row i of X equals row j of Y.", "quantifier": "all pairs of arrays with the same number of columns", "why_tests_cant": "it concerns all pairs of rows, however close", "anchors": ["src/mfpml/models/kernels.py:kronDelta"]}
{"id": "C169", "title": "Reports of the constrained optimiser with nan and infinite values", "statement": "Whatever floats objective and constraints return (nan and infinities included) and whatever the surrogates propose: after the constructor and after every iteration that returned, also after earlier iterations that raised, BayesConsOpt reports as best the smallest objective value of the designs that satisfy all constraints and as best_x the designs with this objective value, and infinity and None while no design is feasible. A nan objective or constraint of an infeasible design has no effect; a nan objective of a feasible design makes best nan and best_x empty.", "quantifier": "problems, float values, surrogates, acquisition proposals, histories with exceptions", "why_tests_cant": "the reports have to be right for every pattern of nan and infinite values and every history of crashes", "anchors": ["src/mfpml/optimization/sf_cons_bo.py:BayesConsOpt._initialization", "src/mfpml/optimization/sf_cons_bo.py:BayesConsOpt._update_para"]}
{"id": "C170", "title": "Test problems have a minimum on their input domain", "statement": "Every test problem, at every fidelity, takes a smallest value at some point of its input domain; the constrained problems take a smallest value at some feasible point, so that there is a best value for an optimiser to find.", "quantifier": "all problem classes, fidelities, dimensions and parameters, over all points of the input domain", "why_tests_cant": "existence of a minimum over a continuum cannot be sampled", "anchors": ["src/mfpml/problems/sf_functions.py:Forrester", "src/mfpml/problems/sf_cons_functions.py:Branin_1", "src/mfpml/problems/sf_cons_functions.py:Branin_2", "src/mfpml/problems/mf_functions.py:mf_Discontinuous", "src/mfpml/problems/mf_functions.py:mf_CurrinExp", "src/mfpml/problems/mf_functions.py:mf_Park91A"]}
{"id": "C171", "title": "The order of the constraints does not matter", "statement": "Two constrained problems that differ only in the order in which the constraints are listed are optimised alike: if the result of training a surrogate does not depend on where its random restarts begin, BayesConsOpt with the same settings and seed finishes on one exactly if it finishes on the other, with the same samples, objective values, best value, best point and histories, and with the constraint values and surrogates in the other order. Which sample is reported as the best feasible one never depends on the order.", "quantifier": "all problems, numbers of constraints, permutations of the constraints, settings, random states and sequences of run_optimizer calls", "why_tests_cant": "all permutations and whole optimisation histories", "anchors": ["src/mfpml/optimization/sf_cons_bo.py:BayesConsOpt", "src/mfpml/optimization/sf_cons_acqusitions.py:CEI"]}
{"id": "C172", "title": "Multi-fidelity arrays show the list given last", "statement": "Whatever a program does with lists and mfArray objects, an mfArray shows the present contents of the list that its constructor or its last call was given: n_levels is the length, hf the first entry, arr[i] entry i, arr[-k] the k-th entry from the end, IndexError for every other position, and size the lengths of all entries in order. Without a list every access raises TypeError. mfArray objects change no list.", "quantifier": "all programs over any number of list objects and mfArray objects", "why_tests_cant": "all histories and aliasings of lists and objects", "anchors": ["src/mfpml/core/data.py:mfArray"]}
{"id": "C173", "title": "The stopping error in floating-point arithmetic", "statement": "With every operation rounded to the nearest binary floating-point number (any precision, double precision included, ties broken in any way), the error that run_optimizer compares with stopping_error is never negative, is zero exactly when the best value equals the known optimum - however close the two numbers are - and never grows when the best value gets closer to an optimum below it.  So the errors of successive iterations never increase, and a run that asks for a positive error makes no further iteration once the optimum has been observed.", "quantifier": "all best values and optima, all precisions, all rounding rules, all reachable optimiser states, budgets and stopping errors", "why_tests_cant": "rounding and underflow for all pairs of numbers", "anchors": ["src/mfpml/optimization/sf_uncons_bo.py:BayesUnConsOpt.__update_error", "src/mfpml/optimization/mf_uncons_bo.py:mfUnConsBayesOpt.__update_error"]}
{"id": "C174", "title": "Seeded samplers give the same samples in every program", "statement": "In two programs, or at two places of one program, get_samples with the same number of samples and the same seed, of samplers of the same class and arguments on the same bounds, gives the same samples or raises the same exception, whatever the programs do in between: use other samplers with or without seeds, draw random numbers, write into returned arrays, save files, fail.", "quantifier": "all pairs of programs with any number of sampler objects, all histories, seeds, numbers of samples and states of the random number generators", "why_tests_cant": "Quantifies over all pairs of programs and generator states.", "anchors": ["src/mfpml/design_of_experiment/sf_samplers.py:SingleFidelitySampler.get_samples", "src/mfpml/design_of_experiment/mf_samplers.py:MultiFidelitySampler.get_samples"]}
{"id": "C175", "title": "Seeded samples do not disturb the random numbers of the program", "statement": "A get_samples call with a seed leaves the random number generators of the process (numpy's global generator) as they were, so that the other random numbers of the program do not depend on it.", "quantifier": "all sampler objects, seeds, numbers of samples, program states", "why_tests_cant": "The state of the generator is unbounded and invisible in the result of the call.", "anchors": ["src/mfpml/design_of_experiment/sf_samplers.py:RandomSampler.get_samples", "src/mfpml/design_of_experiment/sf_samplers.py:LatinHyperCube.get_samples", "src/mfpml/design_of_experiment/mf_samplers.py:MFLatinHyperCube._get_nested_samples"]}
{"id": "C176", "title": "Correlations computed in floating-point arithmetic are correlations", "statement": "Computed in floating-point arithmetic, the kernel value of two points of the scaled design space is the exact one up to rounding errors that are small for all admissible kernel parameters, and it never exceeds the exact value for equal points (1, plus the nugget on the diagonal).", "quantifier": "all sample arrays in the unit cube, kernel parameters, dimensions, precisions, tie rules, orders of summation and implementations of exp of the given accuracy", "why_tests_cant": "Rounding errors depend on every bit of the inputs and on the order in which BLAS adds; no test sample covers them.", "anchors": ["src/mfpml/models/kernels.py:RBF.get_kernel_matrix", "src/mfpml/models/kernels.py:RBF.__call__"]}
{"id": "C177", "title": "Covariance matrices computed in floating-point arithmetic are positive definite", "statement": "The covariance matrix of the training samples, computed in floating-point arithmetic for any samples in the design space (repeated ones included) and any noise, is positive definite, so that its Cholesky factorisation exists, as long as the number of samples is below 1e-10 divided by the accuracy of the kernel values.", "quantifier": "all numbers of samples and dimensions, samples in the design space, kernel parameters, noise levels, precisions, orders of summation", "why_tests_cant": "Whether the nugget outweighs the rounding errors has to be known for every data set.", "anchors": ["src/mfpml/models/gaussian_process.py:GaussianProcessRegression._update_kernel_matrix", "src/mfpml/models/gaussian_process.py:GaussianProcessRegression.normalize_input", "src/mfpml/models/kernels.py:RBF.get_kernel_matrix", "src/mfpml/models/hierarchical_kriging.py:HierarchicalKriging._update_parameters", "src/mfpml/models/co_kriging.py:CoKriging._update_parameters"]}
{"id": "C178", "title": "Counting a design variable from the other end does not change the models", "statement": "If some design variables are counted from the other end of their range (x becomes low + high - x) in the samples and in the points asked for, every surrogate model trains to the same length scales, noise and scale factor, or raises the same exception, and all its predictions and standard deviations are the same; the constant, linear and quadratic trends all allow this.", "quantifier": "all models (Kriging, hierarchical, scaled, co-Kriging), sets of mirrored variables, data sets, points and solvers", "why_tests_cant": "The linear and quadratic trend columns and the regression coefficients all change; only a proof over all data shows that nothing observable does.", "anchors": ["src/mfpml/models/gaussian_process.py:GaussianProcessRegression.train", "src/mfpml/models/hierarchical_kriging.py:HierarchicalKriging.train", "src/mfpml/models/scale_kriging.py:ScaledKriging.train", "src/mfpml/models/co_kriging.py:CoKriging.train", "src/mfpml/models/basis_functions.py"]}
{"id": "C179", "title": "The Cholesky factorisation in floating-point arithmetic does not fail", "statement": "For samples in the design space (repeated ones included), admissible kernel parameters and any noise, training and likelihood evaluation do not stop because the covariance matrix is found not to be positive definite: the factorisation, with every operation rounded and in whatever order it is carried out, meets positive pivots only, and the returned factor multiplied by its transpose is the covariance matrix up to a small multiple of the unit roundoff. The number of samples n may be as large as n * (accuracy of the kernel values) + 4 (n + 4)^2 2^-53 < 1e-10.", "quantifier": "all numbers of samples and dimensions, samples in the design space, kernel parameters, noise levels, precisions, orders and blockings of the factorisation", "why_tests_cant": "Whether a pivot becomes negative depends on every bit of the data and on the LAPACK in use; a test samples one of each.", "anchors": ["src/mfpml/models/gaussian_process.py:GaussianProcessRegression._update_kernel_matrix", "src/mfpml/models/gaussian_process.py:GaussianProcessRegression._logLikelihood", "src/mfpml/models/hierarchical_kriging.py:HierarchicalKriging._update_parameters", "src/mfpml/models/co_kriging.py:CoKriging._update_parameters"]}
{"id": "C180", "title": "Very large design spaces", "statement": "In floating-point arithmetic with a largest number (overflow to inf, nan from inf - inf, inf/inf and 0*inf), for every design space with finite bounds, every sample of the samplers and every point at which PSO and DE evaluate the objective has finite coordinates between the bounds.", "quantifier": "all design spaces with finite bounds, populations, settings, draws, objectives and generations, precisions and exponent ranges", "why_tests_cant": "Whether an intermediate result overflows depends on the magnitude of the bounds, on the settings and on the draws of all generations; a nan point is noticed only if the objective raises on it.", "anchors": ["src/mfpml/optimization/evolutionary_algorithms.py:PSO", "src/mfpml/optimization/evolutionary_algorithms.py:DE", "src/mfpml/optimization/evolutionary_algorithms.py:EABase._loc_cons", "src/mfpml/design_of_experiment/sf_samplers.py:SingleFidelitySampler.scale_samples"]}
{"id": "C181", "title": "Normalisation of responses in floating-point arithmetic", "statement": "In floating-point arithmetic, in whatever order the sums are computed: the normalised responses of a surrogate are nan exactly when all responses are equal (so that equal responses are noticed); the computed mean and standard deviation are accurate; and transforming a normalised response back gives the response up to a few roundings.", "quantifier": "all responses, numbers of samples, precisions, tie rules and orders of summation", "why_tests_cant": "Whether the computed standard deviation of equal numbers is exactly zero depends on the last bits of the responses and on the order of the additions.", "anchors": ["src/mfpml/models/gaussian_process.py:GaussianProcessRegression.normalize_output", "src/mfpml/models/gaussian_process.py:GaussianProcessRegression.predict", "src/mfpml/models/mf_gaussian_process.py:_mfGaussianProcess.normalize_hf_output", "src/mfpml/models/co_kriging.py:CoKriging.normalize_hf_output"]}
{"id": "C182", "title": "The joint covariance of co-Kriging can be factorised in floating-point arithmetic", "statement": "In floating-point arithmetic, in whatever order the operations are made: the joint covariance matrix of low- and high-fidelity samples that a co-Kriging model builds at the end of training is accurate up to rounding, and its Cholesky factorisation succeeds, also when high-fidelity samples coincide with low-fidelity ones, so that training does not end with LinAlgError.", "quantifier": "all samples in the design space, kernel parameters, scale factors, process variances, noise levels, precisions, tie rules and orders of the operations", "why_tests_cant": "The matrix is singular but for a jitter of 1e-10; whether it survives rounding depends on the size of all other entries and on the order of the operations in the linear algebra library.", "anchors": ["src/mfpml/models/co_kriging.py:CoKriging._update_parameters", "src/mfpml/models/co_kriging.py:CoKriging.train"]}
{"id": "C183", "title": "Acquisition values are accurate in floating-point arithmetic", "statement": "In floating-point arithmetic, for the mean and standard deviation that the surrogate predicts: EI.eval returns minus the true expected improvement, PI.eval minus the probability of improvement, LCB.eval the weighted difference of mean and standard deviation, and the constrained acquisition minus the expected improvement times the probability that all constraints hold, each up to the accuracy of norm.cdf and norm.pdf, a fixed number of roundings (for the product: of each constraint) and, for the expected improvement, 2e-9 from the guard against division by zero; also when the standard deviation is zero. Hence a point with the smallest computed EI has nearly the largest expected improvement.", "quantifier": "all predictions and standard deviations, smallest responses, weights, numbers of constraints, precisions, tie rules, orders of the product and implementations of norm.cdf and norm.pdf", "why_tests_cant": "Near a sample the standard deviation vanishes and the standardised improvement is a quotient of cancelled numbers that can be as large as 1e9 times the response; relative errors of such arguments could ruin the value.", "anchors": ["src/mfpml/optimization/sf_uncons_acqusitions.py:EI.eval", "src/mfpml/optimization/sf_uncons_acqusitions.py:PI.eval", "src/mfpml/optimization/sf_uncons_acqusitions.py:LCB.eval", "src/mfpml/optimization/sf_cons_acqusitions.py:CEI.eval", "src/mfpml/optimization/sf_cons_acqusitions.py:CEI.ei", "src/mfpml/optimization/sf_cons_acqusitions.py:CEI.pof"]}
{"id": "C184", "title": "Predicted means in floating-point arithmetic", "statement": "In floating-point arithmetic, in whatever order sums are computed: the mean that GaussianProcessRegression.predict returns for a point of the design space is the textbook value (trend plus correlations times weights, scaled back to the responses) for the trained coefficients, up to an explicit multiple of the sum of the absolute values of the coefficients; so predictions for one point in different batches agree up to twice that; and at a training sample the mean is the response up to the residual the linear solver left, the noise level times the weight of the sample, and the same accuracy.", "quantifier": "all samples, points and batches in the design space, the three trends, kernel parameters, trained coefficients, residuals, precisions, tie rules and orders of summation", "why_tests_cant": "The weights alternate in sign and can be large, so terms cancel; the order of the additions depends on the batch size through the linear algebra library.", "anchors": ["src/mfpml/models/gaussian_process.py:GaussianProcessRegression.predict", "src/mfpml/models/gaussian_process.py:GaussianProcessRegression._update_kernel_matrix", "src/mfpml/models/basis_functions.py:Quadratic.__call__"]}
{"id": "C185", "title": "Latin hypercubes in floating-point arithmetic", "statement": "In floating-point arithmetic too, cutting [lb, ub] into n equal cells puts exactly one of the n points returned by LatinHyperCube.get_samples(n) in each cell, along every axis.", "quantifier": "every n, design space with lb < ub, Latin hypercube in the unit cube, precision and tie rule", "why_tests_cant": "All permutations and jitters are possible engine outputs, and the rounding errors depend on the bounds.", "anchors": ["src/mfpml/design_of_experiment/sf_samplers.py:LatinHyperCube.get_samples", "src/mfpml/design_of_experiment/sf_samplers.py:SingleFidelitySampler.scale_samples"]}
{"id": "C186", "title": "Multi-fidelity acquisition functions in floating-point arithmetic", "statement": "In floating-point arithmetic, for given predictions at a point: AugmentedEI.eval returns minus the expected improvement, for the low fidelity times the correlation std_lf / (|pre - pre_lf| + std) and the cost ratio; VFEI.eval returns minus the expected improvement computed with the high-fidelity prediction up to 2e-8; both are exactly zero when the standard deviation they check is below 2^-52. VFLCB.eval returns kappa[0] mean - kappa[1] std (times the cost ratio for the low fidelity). ExtendedPI.eval returns minus the probability of improvement times correlation, cost ratio and the product of correlations. All up to explicit multiples of the rounding error and the error of the normal distribution; so the fidelity AugmentedEI.query chooses is nearly the better one.", "quantifier": "all predictions with a nonnegative standard deviation, best values, cost ratios, kappas, precisions, tie rules and implementations of the normal distribution with a given accuracy", "why_tests_cant": "The argument of the distribution can be arbitrarily large or badly conditioned, as the standard deviation goes down to 2^-52.", "anchors": ["src/mfpml/optimization/mf_acqusitions.py:AugmentedEI.eval", "src/mfpml/optimization/mf_acqusitions.py:VFEI.eval", "src/mfpml/optimization/mf_acqusitions.py:VFLCB.eval", "src/mfpml/optimization/mf_acqusitions.py:ExtendedPI.eval"]}
{"id": "C187", "title": "Predicted means of hierarchical and scaled Kriging in floating-point arithmetic", "statement": "In floating-point arithmetic, in whatever order sums are computed: the mean that HierarchicalKriging.predict returns for a point of the design space is the textbook value (scaled low-fidelity mean plus correlations times weights) for the trained coefficients, up to the regression coefficient times the error of the low-fidelity mean and an explicit multiple of the sizes of the parts; the mean of ScaledKriging.predict is the scale factor times the low-fidelity mean plus the mean of the discrepancy (with return_std=True; without it, the factor is on the discrepancy), up to the errors of the two models and three roundings.", "quantifier": "all samples, points and batches in the design space, kernel parameters, trained coefficients, scale factors, precisions, tie rules and orders of summation", "why_tests_cant": "The errors of one level enter the next, the weights alternate in sign and can be large, and the order of the additions depends on the batch size.", "anchors": ["src/mfpml/models/hierarchical_kriging.py:HierarchicalKriging.predict", "src/mfpml/models/scale_kriging.py:ScaledKriging.predict"]}
{"id": "C188", "title": "Multi-fidelity predictions at evaluated points in any batch", "statement": "After hierarchical, scaled or co-Kriging is trained, predict at a high-fidelity training point, in any row of any batch, misses its response by at most an explicit bound, and its squared standard deviation is at most an explicit bound; both are small multiples (1e-5 for the mean, 1e-10 for the variance) of the fitted process variances plus the noise. For scaled Kriging the mean is that returned with the standard deviation, and the variance of the low-fidelity model comes on top, which is small at points sampled at both fidelities.", "quantifier": "every pair of training sets, noise, batch and row number", "why_tests_cant": "All data sets and batches; the nugget is added by row number, so the row of a point matters.", "anchors": ["src/mfpml/models/hierarchical_kriging.py:HierarchicalKriging.predict", "src/mfpml/models/scale_kriging.py:ScaledKriging.predict", "src/mfpml/models/co_kriging.py:CoKriging.predict"]}
{"id": "C189", "title": "Hierarchical and scaled Kriging predictions vary slowly", "statement": "With constant bases, the predictions of a trained hierarchical or scaled Kriging model at two points differ by at most the step sqrt(2 n s2 D) + 2e-5 sqrt(n s2) (times the spread of the responses) of one process plus |factor| times that of the other, with s2 the fitted process variance and D the squared distance of the points weighted by the trained length scales of each process; the factor is the regression coefficient or the scale factor.", "quantifier": "every pair of training sets, pair of points, batches and row numbers", "why_tests_cant": "All pairs of points.", "anchors": ["src/mfpml/models/hierarchical_kriging.py:HierarchicalKriging.predict", "src/mfpml/models/scale_kriging.py:ScaledKriging.predict"]}
{"id": "C190", "title": "The predicted mean of co-Kriging in floating-point arithmetic", "statement": "In floating-point arithmetic, in whatever order sums are computed: the mean that CoKriging.predict returns for a point of the design space is the textbook value (trained mean plus weighted covariances with all low- and high-fidelity samples) for the trained parameters and the weights from the linear solve, up to an explicit accuracy relative to the size of the terms; predictions for one point in different batches agree to twice this; at a high-fidelity sample, wherever it is in the batch, it is the response up to the residual of the solve, the noise and jitter times the weight of the sample, and this accuracy.", "quantifier": "all samples, points and batches in the design space, kernel parameters, scale factors, non-negative process variances, weights and residuals, precisions, tie rules and orders of summation", "why_tests_cant": "The weights alternate in sign and can be large, so that the sum cancels; the covariances of the batch and of the training matrix are computed by different expressions; the order of the additions depends on the batch size.", "anchors": ["src/mfpml/models/co_kriging.py:CoKriging.predict", "src/mfpml/models/kernels.py:RBF.get_kernel_matrix"]}
{"id": "C191", "title": "The standard deviation of Kriging is not below the noise level", "statement": "The standard deviation that GaussianProcessRegression.predict returns is that of a new observation: it includes the noise, so it is not below the noise level at any point of any batch. The squared standard deviation of ScaledKriging.predict is not below rho^2 times the squared low-fidelity noise level plus the squared noise level of the discrepancy model. The standard deviation of CoKriging.predict after training is not below the high-fidelity noise level.", "quantifier": "all trained models, noise levels, points and batches", "why_tests_cant": "Near training points the predicted variance of the process is a difference of almost equal numbers; whether its sign is right depends on the row of the batch, as the kernel adds its nugget by row number.", "anchors": ["src/mfpml/models/gaussian_process.py:GaussianProcessRegression.predict", "src/mfpml/models/kernels.py:RBF.get_kernel_matrix", "src/mfpml/models/scale_kriging.py:ScaledKriging.predict", "src/mfpml/models/co_kriging.py:CoKriging.predict"]}
{"id": "C192", "title": "Predicted standard deviations in floating-point arithmetic", "statement": "In floating-point arithmetic, whatever number the linear solves give as mean squared error: the standard deviation each model returns is a non-negative number, never the root of a negative one; the total standard deviation of hierarchical and co-Kriging is not below the epistemic one nor below the noise level, exactly, and equals the epistemic one without noise; those of Kriging (mean squared error not negative), of co-Kriging's low-fidelity model and of scaled Kriging are not below the noise level and the standard deviation of the discrepancy model; all agree with their formulas up to a few units of rounding.", "quantifier": "all mean squared errors, noise levels, scale factors and standard deviations whose squares do not underflow, precisions and tie rules", "why_tests_cant": "Near samples the computed mean squared error is rounding noise of either sign; whether the root of a rounded sum of rounded squares can fall below one of the numbers depends on how the roundings of square and root interact, for every pattern of bits.", "anchors": ["src/mfpml/models/gaussian_process.py:GaussianProcessRegression.predict", "src/mfpml/models/hierarchical_kriging.py:HierarchicalKriging.predict", "src/mfpml/models/co_kriging.py:CoKriging.predict", "src/mfpml/models/scale_kriging.py:ScaledKriging.predict"]}
{"id": "C193", "title": "Co-Kriging predictions vary slowly", "statement": "The predictions of a trained co-Kriging model at two points, in any rows of any batches, differ by at most the spread of the high-fidelity responses times |rho| sqrt(2 sl Q Dl) + sqrt(2 sd Q D) + 2e-5 (|rho| sl + v) sqrt(Q): sl and sd are the process variances of the low-fidelity process and of the difference, v = rho^2 sl + sd, Dl and D the squared distances of the points weighted by the trained length scales of the two, Q the squared Mahalanobis length of the scaled responses. The variance at a point exceeds the bound at a high-fidelity sample (C188) by at most 2 (rho^2 sl Dl + sd D) spread^2.", "quantifier": "all trained co-Kriging models, pairs of points and batches", "why_tests_cant": "The bound must hold for every data set and every pair of points; the joint covariance mixes two kernels and gets its nuggets by row number, so that the quadratic forms of the parts have to be compared with that of the whole.", "anchors": ["src/mfpml/models/co_kriging.py:CoKriging.predict", "src/mfpml/models/kernels.py:RBF.get_kernel_matrix"]}
