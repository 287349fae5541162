#!/usr/bin/env python3
"""Generates /verif/properties.jsonl (kept as a script so the list is easy to review and append to)."""
import json, os
P = []
def p(title, statement, quant, why, *anchors):
    P.append(dict(id="C%02d" % (len(P) + 1), title=title, statement=statement, quantifier=quant,
                  why_tests_cant=why, anchors=list(anchors)))
EA = "src/mfpml/optimization/evolutionary_algorithms.py"
SF = "src/mfpml/design_of_experiment/sf_samplers.py"
MF = "src/mfpml/design_of_experiment/mf_samplers.py"
GP = "src/mfpml/models/gaussian_process.py"
KE = "src/mfpml/models/kernels.py"
BF = "src/mfpml/models/basis_functions.py"
MG = "src/mfpml/models/mf_gaussian_process.py"
HK = "src/mfpml/models/hierarchical_kriging.py"
SK = "src/mfpml/models/scale_kriging.py"
CK = "src/mfpml/models/co_kriging.py"
SB = "src/mfpml/optimization/sf_uncons_bo.py"
CB = "src/mfpml/optimization/sf_cons_bo.py"
MB = "src/mfpml/optimization/mf_uncons_bo.py"
SA = "src/mfpml/optimization/sf_uncons_acqusitions.py"
CA = "src/mfpml/optimization/sf_cons_acqusitions.py"
MA = "src/mfpml/optimization/mf_acqusitions.py"
FN = "src/mfpml/problems/functions.py"
SP = "src/mfpml/problems/sf_functions.py"
CP = "src/mfpml/problems/sf_cons_functions.py"
MP = "src/mfpml/problems/mf_functions.py"
rng = "every population size, dimension, generation count, objective function, parameter setting and every sequence of random draws"
rw = "The random draws and the objective are unbounded inputs; a test fixes one seed and one objective."

# ---- evolutionary optimisers
p("PSO stays in the design space",
  "PSO.run_optimizer never evaluates the objective outside the design space: every row of results['all_samples'] up to the last generation run satisfies low <= x <= high in every coordinate, and so does the returned best_x.",
  rng + ", with low <= high", rw, EA+":PSO.run_optimizer", EA+":EABase._loc_cons", EA+":EABase._location_initialzer")
p("PSO best history is the running minimum",
  "After PSO.run_optimizer, best_y_historical[g] is exactly the smallest objective value among all responses of generations 0..g, for every generation g that ran; in particular it never increases.",
  rng, rw, EA+":PSO.run_optimizer", EA+":PSO.__update_gen_optimum", EA+":PSO._pso_initializer")
p("PSO best point attains the best value",
  "For every generation g that ran, best_x_historical[g] is one of the recorded samples of generations 0..g and the response recorded for it equals best_y_historical[g]; recorded responses are the objective applied to the recorded samples, so for a row-wise objective f, f(best_x) = best_y for the returned pair.",
  rng, rw, EA+":PSO.run_optimizer", EA+":EABase._gen_best_x")
p("PSO result dictionary agrees with the returned optimum",
  "results['best_x'] and results['best_y'] are the optimum found, i.e. the same point and value as the second and third return values.",
  rng + ", with and without stopping_error", rw + " The repository's tests only use stopping_error=None.", EA+":PSO.run_optimizer")
p("PSO stopping rule",
  "PSO.run_optimizer runs generations one by one, stops right after the first generation whose best value is below stopping_error, never runs more than num_gen generations, evaluates the objective exactly once per generation plus once initially, and leaves all rows of later generations zero.",
  rng, rw, EA+":PSO.run_optimizer")
p("PSO step is bounded or resampled",
  "From one generation to the next each coordinate of each particle either moves by at most max_velocity_rate*(high-low) or is replaced by a fresh uniform draw from the design space; the velocity used follows weight*v + cognition*(own best - x) + social*(swarm best - x) clipped to that bound.",
  rng + ", max_velocity_rate >= 0", rw, EA+":PSO.__update_pop", EA+":PSO.__velocity_cons", EA+":PSO.__velocity_initialzer")
p("PSO personal bests",
  "After every generation, each particle's personal best value is the minimum of that particle's own responses so far, and its personal best position is one of that particle's own past positions attaining it.",
  rng, rw, EA+":PSO.__update_pop_optimum")
p("DE stays in the design space",
  "DE.run_optimizer only evaluates the objective inside the design space: every trial population and every recorded population row, and the returned best_x, satisfy low <= x <= high.",
  rng + " and both strategies, low <= high", rw, EA+":DE.run_optimizer", EA+":DE.__update_pop", EA+":EABase._loc_cons")
p("DE selection is greedy and elitist",
  "In DE each population slot's response never increases from one generation to the next; a slot changes only to a trial point with a strictly smaller objective value; recorded responses always belong to the recorded samples.",
  rng + " and both strategies", rw, EA+":DE.__update_obj")
p("DE best history is the running minimum and is attained",
  "best_y_historical[g] equals the minimum of all responses of generations 0..g (equivalently of generation g alone), never increases, and best_x_historical[g] is a recorded sample attaining it.",
  rng + " and both strategies", rw, EA+":DE.__update_gen_optimum")
p("DE result dictionary agrees with the returned optimum",
  "results['best_x'] and results['best_y'] equal the second and third return values of DE.run_optimizer.",
  rng + ", with and without stopping_error", rw, EA+":DE.run_optimizer")
p("DE mutation partners are distinct",
  "When DE builds the donor of individual i, the population members it combines are mutually different and different from i (three for DE/rand/1/bin, two for DE/best/1/bin), as differential evolution requires.",
  "every population size for which a donor can be drawn, every individual and every draw without replacement",
  "Needs every draw of np.random.choice; collisions occur with small probability per draw.", EA+":DE.__update_pop")
p("DE binomial crossover",
  "Every coordinate of a DE trial point (before out-of-domain coordinates are resampled) comes from the donor or from the parent, at least one coordinate comes from the donor, and the donor is base + step_size*(difference of two members) with base a population member (rand) or the best point so far (best).",
  rng + ", num_dim >= 1", rw, EA+":DE.__update_pop")
p("Evolutionary optimisers: degenerate settings",
  "DE/PSO.run_optimizer either returns a result or raises: it raises for an empty population, for num_gen = 0, and (DE) for an unknown strategy or a population too small to draw partners; in all other settings it returns.",
  rng, "The claim is about every setting, including ones no test uses.", EA+":PSO.run_optimizer", EA+":DE.run_optimizer")

# ---- samplers
p("Single-fidelity samples fill the requested shape inside the bounds",
  "LatinHyperCube, RandomSampler and SobolSequence.get_samples(n) return n rows, each inside [lb, ub] in every coordinate, for any unit-cube draws; the affine scaling is inverted exactly by the models' input normalisation.",
  "every design space with lb <= ub (lb < ub for the inverse), every n, every engine output in [0,1]",
  "Any unit sample can occur.", SF+":SingleFidelitySampler.scale_samples", SF+":LatinHyperCube.get_samples", SF+":RandomSampler.get_samples", GP+":GaussianProcessRegression.normalize_input")
p("Latin hypercube stratification survives scaling",
  "In every dimension, cutting [lb, ub] into n equal cells puts exactly one of the n points returned by LatinHyperCube.get_samples(n) in each cell.",
  "every n, design space with lb < ub and every Latin hypercube in the unit cube",
  "All permutations and jitters are possible engine outputs.", SF+":LatinHyperCube.get_samples", SF+":SingleFidelitySampler.scale_samples")
p("RandomSampler is reproducible from its seed",
  "RandomSampler.get_samples(n, seed) depends only on n, the seed and the design space, not on earlier use of numpy's global generator; it leaves the global generator in a state that depends only on seed, n and the dimension.",
  "every prior global generator state and every generator implementation", "Prior histories are unbounded.", SF+":RandomSampler.get_samples")
p("SobolSequence returns the requested block of the sequence",
  "SobolSequence.get_samples(n) returns the scaled Sobol points number num_skip .. num_skip+n-1, for every n >= 1 up to the capacity of the generator.",
  "every n, num_skip and Sobol generator", "Large n cannot be enumerated.", SF+":SobolSequence.get_samples")
p("FixNumberSampler repeats the given point",
  "FixNumberSampler.get_samples(n) returns n identical rows, each the flattened design space.",
  "every n and design space", "All n.", SF+":FixNumberSampler.get_samples")
p("Multi-fidelity sampler returns the requested sizes",
  "MFLatinHyperCube/MFSobolSequence.get_samples([n_0,...,n_k]) returns k+1 arrays, the i-th with n_i rows (highest fidelity first); it raises AssertionError exactly when some n_i > n_{i+1}.",
  "every list of sizes, nested or not, every generator", "Lists are unbounded.", MF+":MultiFidelitySampler.get_samples", MF+":MultiFidelitySampler._mf_samples_rules")
p("Nested multi-fidelity samples are nested",
  "With nested=True every sample of a fidelity is also a sample of every lower fidelity, and distinct rows of a lower fidelity are used at most once.",
  "every list of sizes, design space and generator", "All index draws.", MF+":MFLatinHyperCube._get_nested_samples", MF+":MFSobolSequence._get_nested_samples")
p("Multi-fidelity samples respect each fidelity's bounds",
  "Every returned sample of fidelity i lies in the design space of fidelity i.",
  "every list of per-fidelity design spaces, sizes, nested flag and generator", "All design spaces.", MF+":MultiFidelitySampler.lb", MF+":MultiFidelitySampler.get_samples")
p("Non-nested Sobol samples differ between fidelities",
  "With nested=False, MFSobolSequence draws each fidelity's samples independently, so they are not nested in each other.",
  "every integer seed, sizes and shared design space", "Needs all seeds.", MF+":MFSobolSequence._get_non_nested_samples")
p("Multi-fidelity samplers are reproducible from the seed",
  "Two calls of get_samples with the same sizes and the same seed return the same samples, whatever happened to numpy's global generator in between.",
  "every history of the global generator", "Prior histories are unbounded.", MF+":MFLatinHyperCube._get_nested_samples", MF+":MultiFidelitySampler.get_samples")
p("get_samples does not modify its arguments",
  "Calling get_samples leaves the caller's num_samples list unchanged, so the same list can be used for a second call.",
  "every list of sizes", "All lists.", MF+":MultiFidelitySampler.get_samples", MB+":mfUnConsBayesOpt._initialization")

# ---- kernels / basis
p("RBF kernel values",
  "RBF.get_kernel_matrix(X, Y)[i,j] equals exp(-sum_k theta_k (X[i,k]-Y[j,k])^2), plus 1e-10 when i = j; hence it is symmetric for X = Y, lies in (0, 1] off the diagonal, depends only on differences, and equals the value computed by calling the kernel with the log10 parameters.",
  "every X, Y, positive parameter vector, dimension", "Continuum of inputs.", KE+":RBF.get_kernel_matrix", KE+":RBF.__call__", KE+":RBF.set_params")
p("RBF kernel matrices are positive definite",
  "For every sample set (duplicates included) and every parameter vector, RBF.get_kernel_matrix(X, X) plus any noise^2 on the diagonal is symmetric positive definite, so its Cholesky factorisation exists.",
  "every sample matrix, dimension, parameters, noise", "Needs all matrices of all sizes.", KE+":RBF.get_kernel_matrix", GP+":GaussianProcessRegression._update_kernel_matrix")
p("Basis functions",
  "Ordinary, Linear and Quadratic return for each sample 1; (1, x); and (1, x, all products x_k x_l with k <= l) respectively, every column of the Quadratic matrix being written exactly once and its width being (d+1)(d+2)/2.",
  "every dimension and sample matrix", "All dimensions.", BF+":Ordinary", BF+":Linear", BF+":Quadratic")
p("Input normalisation",
  "normalize_input maps the design space onto the unit cube: lower bounds to 0, upper bounds to 1, points inside to [0,1], affinely and injectively, for lb < ub.",
  "every design space and sample", "Continuum.", GP+":GaussianProcessRegression.normalize_input", MG+":_mfGaussianProcess.normalize_input", CK+":CoKriging.normalize_input")
p("Output normalisation",
  "For non-constant responses normalize_output produces mean 0 and standard deviation 1, and multiplying by the standard deviation and adding the mean restores the responses exactly; for constant responses it is undefined (division by zero).",
  "every response vector", "Continuum.", GP+":GaussianProcessRegression.normalize_output", MG+":_mfGaussianProcess.normalize_hf_output")

# ---- GP
p("GP training succeeds",
  "GaussianProcessRegression.train on any non-constant responses (duplicated samples allowed, any non-negative or learned noise, any hyper-parameter optimiser returning a point in its box) terminates with a fitted model and never raises a linear-algebra error; this holds unconditionally for the default constant trend, and for another trend whenever its basis functions are linearly independent on the samples (and, for noise 0, do not fit the responses exactly).",
  "every sample set, design space with lb < ub, noise setting and optimiser behaviour", "All data sets and optimiser behaviours.", GP+":GaussianProcessRegression.train", GP+":GaussianProcessRegression._logLikelihood", GP+":GaussianProcessRegression._update_kernel_matrix")
p("GP hyper-parameter restarts keep the best",
  "After train with the built-in optimiser, the stored hyper-parameters lie inside the search box and their negative log-likelihood is no larger than that of any restart.",
  "every number of restarts and every optimiser behaviour", "All optimiser outcomes.", GP+":GaussianProcessRegression._hyper_paras_optimization")
p("GP trend is the generalised least-squares solution",
  "The fitted beta makes the residual y - F beta K^-1-orthogonal to the basis functions and minimises the K^-1-weighted squared residual over all beta; sigma2 is that minimum divided by n and is non-negative (positive when no trend fits exactly).",
  "every data set, basis and kernel parameters", "Continuum.", GP+":GaussianProcessRegression._update_kernel_matrix")
p("Noise-free GP interpolates",
  "With noise 0, predict(X_train) returns Y_train exactly (in exact arithmetic).",
  "every training set with non-constant responses, kernel parameters, basis", "Continuum.", GP+":GaussianProcessRegression.predict")
p("GP predictive standard deviation",
  "predict(..., return_std=True) returns a non-negative real standard deviation for every input; with noise 0 it is exactly 0 at the training set.",
  "every trained model and every prediction set", "Continuum.", GP+":GaussianProcessRegression.predict")
p("GP predictions do not depend on the batch",
  "The prediction for a point is the same whether it is predicted alone or together with other points, and in any position of the batch.",
  "every trained model and prediction batch", "All batches.", GP+":GaussianProcessRegression.predict", KE+":RBF.get_kernel_matrix")
p("Asking for the standard deviation does not change the mean",
  "For every surrogate, predict(X) equals the first component of predict(X, return_std=True).",
  "every trained model and X", "Continuum of models.", GP+":GaussianProcessRegression.predict", HK+":HierarchicalKriging.predict", SK+":ScaledKriging.predict", CK+":CoKriging.predict")
p("Retraining re-estimates the noise",
  "A model constructed with noise_prior=None estimates the noise on every call of train, so training twice on the same data gives the same search problem as training a fresh model.",
  "every training history", "All histories.", GP+":GaussianProcessRegression._update_kernel_matrix", HK+":HierarchicalKriging._update_parameters", CK+":CoKriging.train")
p("GP predictions are equivariant under affine changes of the response",
  "Training on a*Y+b (a != 0) instead of Y, with noise 0 and the same optimiser, gives predictions a*mean+b and standard deviations |a|*std.",
  "every data set, a != 0, b, and every (deterministic) optimiser", "Continuum.", GP+":GaussianProcessRegression.train", GP+":GaussianProcessRegression.predict")
p("GP likelihood does not depend on sample order",
  "The negative log-likelihood minimised in training is unchanged when the training samples (with their responses) are permuted.",
  "every permutation and data set", "n! permutations.", GP+":GaussianProcessRegression._logLikelihood")

# ---- MF models
p("Hierarchical Kriging interpolates the high-fidelity data",
  "With noise 0, HierarchicalKriging.predict at the high-fidelity training set returns the high-fidelity responses exactly, whatever the low-fidelity model predicts (not identically zero after scaling).",
  "every data set, low-fidelity model and kernel parameters", "Continuum.", HK+":HierarchicalKriging.predict", HK+":HierarchicalKriging._update_parameters")
p("Hierarchical Kriging uncertainty is at least the noise",
  "The standard deviation returned by HierarchicalKriging.predict is never below the noise level, and equals it at the high-fidelity training set of a noise-free model.",
  "every trained model and X", "Continuum.", HK+":HierarchicalKriging.predict")
p("Scaled Kriging reproduces the high-fidelity data",
  "With noise 0, ScaledKriging.predict at the high-fidelity training set returns the high-fidelity responses exactly, for every scale factor rho.",
  "every data set, low-fidelity and discrepancy model and rho", "Continuum.", SK+":ScaledKriging.predict", SK+":ScaledKriging._getDisc")
p("Scaled Kriging: rho options",
  "ScaledKriging.train uses rho = 1 when rho_optimize is off and otherwise a rho inside rho_bound; an unknown rho_method is reported as an error.",
  "every option combination and optimiser behaviour", "All optimiser outcomes.", SK+":ScaledKriging._rho_optimize")
p("Scaled Kriging error objective",
  "The 'error' objective is the sum of squared differences rho*lf(xh)-yh, evaluated independently for every candidate rho of a vectorised call, and its least-squares minimiser is lf.yh/lf.lf.",
  "every data set and candidate vector", "Continuum.", SK+":ScaledKriging._eval_error")
p("CoKriging.predict is read-only",
  "Calling CoKriging.predict(X, return_std=True) repeatedly on a trained model returns the same mean and the same standard deviation every time.",
  "every trained model, X and number of calls", "All call histories.", CK+":CoKriging.predict")
p("CoKriging noise level is stable under retraining",
  "Training a CoKriging model twice on the same data leaves it with the same noise level (and so the same covariance) as training it once.",
  "every noise_prior and data set", "All histories.", CK+":CoKriging.train")
p("CoKriging covariance is positive definite",
  "The joint low/high-fidelity covariance CoKriging builds is symmetric positive definite for all sample sets, parameters, rho and noise, so its Cholesky factorisation exists.",
  "every data set and parameters", "Matrices of all sizes.", CK+":CoKriging._update_parameters")
p("CoKriging reproduces the high-fidelity data up to the jitter",
  "With noise 0, the prediction at the high-fidelity training set differs from the responses exactly by the jitter 1e-10 times the solved weights.",
  "every data set and parameters", "Continuum.", CK+":CoKriging.predict")
p("Co-Kriging low-fidelity predictions are in response units",
  "CoKriging.predict_lf is the affine un-scaling (yh_std, yh_mean) of the low-fidelity model trained on scaled data; with noise 0 it reproduces the low-fidelity responses at the low-fidelity samples.",
  "every data set", "Continuum.", CK+":CoKriging.predict_lf")

# ---- BO loops
p("Single-fidelity BO reports the best evaluated point",
  "After construction and after any number of run_optimizer calls, best is the minimum of all responses observed so far and best_x a sample where it was observed; history_best never increases and has one entry per iteration plus one.",
  "every problem, acquisition behaviour, surrogate, number of calls and iterations", "All histories.", SB+":BayesUnConsOpt._update_para", SB+":BayesUnConsOpt.run_optimizer")
p("Single-fidelity BO evaluation budget and stopping",
  "run_optimizer evaluates the objective exactly once per iteration, performs at most max_iter iterations, stops before the first iteration at which the error to the known optimum is below stopping_error, only appends to the sample set, and keeps sample and response rows aligned.",
  "every problem, acquisition, max_iter, stopping_error", "All histories.", SB+":BayesUnConsOpt.run_optimizer")
p("Single-fidelity BO can be resumed",
  "run_optimizer(max_iter=a) followed by run_optimizer(max_iter=b) leaves the optimiser in the same state as run_optimizer(max_iter=a+b), for the same stopping_error.",
  "every problem, a, b, stopping error and deterministic acquisition/surrogate", "All a, b and histories.", SB+":BayesUnConsOpt.run_optimizer")
p("Multi-fidelity BO best is a high-fidelity optimum",
  "best is always the minimum of the high-fidelity responses observed so far (initial design included) and low-fidelity queries never change it; history_best never increases.",
  "every problem, acquisition, surrogate and query sequence", "All histories.", MB+":mfUnConsBayesOpt._update_para")
p("Multi-fidelity BO bookkeeping",
  "Each iteration evaluates exactly one fidelity once, appends one sample and response to that fidelity only and one entry to fidelity_query_order; the sample counts equal the initial counts plus the number of queries of each fidelity, and at most max_iter iterations run.",
  "every problem, acquisition and query sequence", "All histories.", MB+":mfUnConsBayesOpt.run_optimizer")
p("BO with unknown optimum uses the whole budget",
  "For a problem without a known optimum, run_optimizer(max_iter=k) with the default stopping_error performs k iterations, for the single-, multi-fidelity and constrained optimisers alike.",
  "every problem with optimum None and every k", "All k.", SB+":BayesUnConsOpt.run_optimizer", MB+":mfUnConsBayesOpt.run_optimizer", CB+":BayesConsOpt.run_optimizer")
p("Error measure",
  "The stopping error is |best-optimum|/|optimum| for a non-zero known optimum, |best-optimum| for optimum 0, and 1 when it is unknown; it is never negative and is 0 exactly when the known optimum is reached.",
  "every best and optimum", "Continuum.", SB+":BayesUnConsOpt.__update_error", MB+":mfUnConsBayesOpt.__update_error", CB+":BayesConsOpt.__update_error")
p("Constrained BO reports the best feasible value",
  "After construction and after every iteration best is the minimum objective over all observed points satisfying every constraint (<= 0), or +inf (with best_x None) if none does; history_best never increases.",
  "every problem, number of constraints, acquisition and history", "All histories.", CB+":BayesConsOpt._update_para", CB+":BayesConsOpt._initialization")
p("Constrained BO best_x is feasible",
  "Every design reported in best_x is an observed point that satisfies all constraints and attains best.",
  "every problem and history", "Coincidences of objective values are rare in tests.", CB+":BayesConsOpt._update_para")
p("Multi-fidelity query picks the better fidelity",
  "MF acquisition query returns the point and fidelity whose optimised acquisition value is smaller, preferring high fidelity on ties.",
  "every pair of optimiser results", "Continuum.", MA+":AugmentedEI.query", MA+":VFEI.query", MA+":VFLCB.query", MA+":ExtendedPI.query")
p("Acquisitions accept a custom optimizer",
  "An acquisition constructed with one of the library's optimisers (DE/PSO) can be queried: query returns the point found by that optimiser.",
  "every acquisition, surrogate and optimiser", "All optimisers.", SA+":SFUnConsAcq.query", CA+":SFConsAcq.query", MA+":AugmentedEI.query")

# ---- acquisitions
p("Expected improvement is non-negative",
  "The expected improvement -EI.eval(x) is non-negative everywhere (so maximising it never prefers a point to a certain non-improvement).",
  "every predicted mean, standard deviation >= 0 and incumbent", "Continuum.", SA+":EI.eval", CA+":CEI.ei")
p("Probability of improvement is a probability",
  "-PI.eval(x) lies in [0,1], increases with the incumbent and decreases with the predicted mean; it is 1/2 when the mean equals the incumbent.",
  "every mean, std, incumbent", "Continuum.", SA+":PI.eval")
p("Lower confidence bound",
  "LCB.eval = kappa0*mean - kappa1*std; VFLCB uses the high-fidelity mean with the high-fidelity std (fidelity 0) or cost_ratio times the low-fidelity std (fidelity 1), so with kappa1 >= 0 it decreases in the std.",
  "every mean, std, kappa, cost ratio", "Continuum.", SA+":LCB.eval", MA+":VFLCB.eval")
p("Constrained EI weighting",
  "The probability of feasibility is a product of probabilities, lies in [0,1], decreases when a constraint's predicted mean grows, and CEI = -EI*PoF.",
  "every number of constraints and predictions", "Continuum.", CA+":CEI.eval", CA+":CEI.pof")
p("Augmented EI",
  "Augmented EI vanishes where the model is certain, is non-negative, scales linearly with cost_ratio at low fidelity, and the correlation factor at low fidelity lies in [0,1] whenever the low-fidelity std does not exceed the high-fidelity std.",
  "every prediction", "Continuum.", MA+":AugmentedEI.eval", MA+":AugmentedEI.corr")
p("VFEI",
  "VFEI at high fidelity is the expected improvement of the high-fidelity prediction, at low fidelity the same with the low-fidelity std scaled by the trend coefficient; it is zero where that std vanishes and rejects models other than HierarchicalKriging.",
  "every prediction and model type", "Continuum.", MA+":VFEI.eval")

# ---- problems
p("Test functions are evaluated row by row",
  "For every problem, evaluating a batch returns one row per sample, equal to evaluating that sample alone; permuting or concatenating batches permutes or concatenates the responses.",
  "every problem and batch", "All batches.", SP+":Forrester.f", SP+":Branin.f", MP+":mf_Booth.hf")
p("Documented optima are global minima",
  "For each problem with an optimum attribute, no point of its input_domain has a smaller objective value than optimum.",
  "every point of the input domain, every such problem", "A continuum of points.", SP+":Branin", SP+":GoldPrice", SP+":Ackley", SP+":AckleyN2", SP+":Sixhump", SP+":Thevenot", MP+":mf_Booth", MP+":mf_Bohachevsky", MP+":mf_Sixhump")
p("Documented optimum schemes attain the optimum",
  "For each problem with optimum and optimum_scheme, evaluating the objective at optimum_scheme gives optimum (to the printed precision).",
  "every such problem", "Exact values of transcendental functions.", SP+":GoldPrice", SP+":Branin", SP+":AckleyN2", SP+":Ackley", MP+":mf_Booth", MP+":mf_Bohachevsky")
p("Low-fidelity functions are the documented transforms of the high-fidelity ones",
  "Forrester_1a/1b/1c, mf_Discontinuous, mf_Park91B, mf_CurrinExp: lf is hf-5; 0.5 hf + 10(x-0.5) - 5; hf(x+0.2); the piecewise relation; 1.2 hf - 1; the mean of hf at the four corners x +- 0.05.",
  "every x", "Continuum.", MP+":Forrester_1a", MP+":Forrester_1b", MP+":Forrester_1c", MP+":mf_Discontinuous", MP+":mf_Park91B", MP+":mf_CurrinExp")
p("Problems are defined on their whole input domain",
  "Evaluating hf/lf/f at any point of input_domain yields a finite real number (no division by zero, logarithm or root of a negative number).",
  "every point of every input domain", "Continuum; the exceptional points have measure zero.", MP+":mf_Park91A.hf", MP+":mf_Borehole.base", MP+":mf_CurrinExp.hf", SP+":Hartman6.f")
p("Problem instances are independent",
  "Creating another instance of a problem class does not change the dimension, domain or optimum reported by an existing instance.",
  "every sequence of instantiations", "All histories.", SP+":Ackley.__update_parameters", SP+":Thevenot.__update_parameters", FN+":Functions._get_dimension")
p("Dimension checks",
  "A problem constructor rejects every dimension its objective cannot handle.",
  "every dimension argument", "All integers.", SP+":AckleyN2.is_dim_compatible", SP+":Ackley.is_dim_compatible", SP+":Branin.is_dim_compatible", MP+":MultiFidelityFunctions.is_dim_compatible")
p("Multi-fidelity problem call",
  "Calling a multi-fidelity problem on a list of sample arrays evaluates the first with hf and the second with lf and returns one response array per sample array.",
  "every list of sample arrays", "All list lengths.", MP+":MultiFidelityFunctions.__call__")

# ---- appended
p("The number minimised in training is the negative log-likelihood",
  "For given kernel parameters (and scale factor and noise level) the objective minimised in training equals, up to a constant depending only on the number of samples, minus the largest log-density of the normalised responses under the Gaussian model, maximised over the trend coefficients and, for noise 0, over the process variance; for the GP, hierarchical Kriging and co-Kriging.",
  "every data set, basis, kernel parameters, noise level", "Statement about all trend coefficients and variances.", GP+":GaussianProcessRegression._logLikelihood", HK+":HierarchicalKriging._logLikelihood", CK+":CoKriging._logLikelihood")
p("Multi-fidelity and constrained BO: budget and resumption",
  "The constrained and multi-fidelity optimisers run at most max_iter iterations per call, evaluating once per iteration, stop early only because of the error threshold, and running a then b iterations is the same as running a+b.",
  "every problem, acquisition, surrogate, a, b, threshold", "All histories.", CB+":BayesConsOpt.run_optimizer", MB+":mfUnConsBayesOpt.run_optimizer")
p("BO recovers from exceptions",
  "If an iteration is cut short by an exception of the acquisition, the objective or the surrogate's training, samples and responses stay aligned, and once run_optimizer is called again and completes an iteration, best is the minimum of all (high-fidelity; with constraints: feasible) responses held by the optimiser.",
  "every crash point and history", "All crash points and histories.", SB+":BayesUnConsOpt.run_optimizer", "src/mfpml/optimization/sf_cons_bo.py:BayesConsOpt.run_optimizer", SB+":BayesUnConsOpt._update_para", MB+":mfUnConsBayesOpt._update_para")
p("Multi-fidelity hyper-parameter search keeps the best restart within the bounds",
  "After training hierarchical Kriging or co-Kriging with the built-in optimiser, kernel parameters (and scale factor) lie within their bounds, the noise is the prior or, without prior, an estimate between 1e-5 and 10 times the standard deviation of the high-fidelity responses, and no restart reported a smaller objective value.",
  "every data set, set of start points and optimiser behaviour", "All optimiser behaviours.", HK+":HierarchicalKriging._optHyp", CK+":CoKriging._optHyp")

p("Multi-fidelity BO works with every surrogate it accepts",
  "mfUnConsBayesOpt accepts surrogate_name 'CoKriging', 'HierarchicalKriging' and 'ScaledKriging', and the acquisitions can be queried with a trained surrogate of each kind.",
  "every trained surrogate, acquisition, problem", "All data sets and surrogates.", MB+":mfUnConsBayesOpt.run_optimizer", MA+":AugmentedEI.query", MA+":VFLCB.query", CK+":CoKriging.__init__")
p("Unknown fidelities are rejected",
  "Evaluating a multi-fidelity acquisition at a fidelity other than 0 and 1 raises instead of returning values.",
  "every integer, surrogate, batch", "All integers.", MA+":AugmentedEI.eval", MA+":VFEI.eval", MA+":VFLCB.eval", MA+":ExtendedPI.eval")
p("Extended probability of improvement",
  "-ExtendedPI.eval is the probability of improvement (0 where the model is certain) times the fidelity correlation, times the cost ratio at low fidelity, times a sample-density factor in [0,1] that vanishes at points already sampled.",
  "every prediction, incumbent, cost ratio, fidelity", "Continuum.", MA+":ExtendedPI.eval", MA+":ExtendedPI.corr", MG+":_mfGaussianProcess._eval_corr")
p("Exceptions of the objective reach the caller of PSO and DE",
  "If the objective raises, run_optimizer raises that exception at that evaluation; a run that returns has evaluated every recorded array without exception and returns what it would for any total objective agreeing on those arrays.",
  "every objective, possibly partial, settings, random draws", "All objectives and crash points.", EA+":PSO.run_optimizer", EA+":DE.run_optimizer")

p("Hyper-parameter searches with the library's own PSO and DE",
  "With a PSO or DE object as optimizer, training a Gaussian process with constant trend and known noise on non-constant responses succeeds; the kernel parameters are 10**theta with theta inside the kernel's bounds, and no candidate the optimiser evaluated has a smaller negative log-likelihood than theta.",
  "every data set, optimiser settings (population large enough), random draws", "All data sets and draws.", GP+":GaussianProcessRegression._hyper_paras_optimization", EA+":PSO.run_optimizer", EA+":DE.run_optimizer")

p("Single-fidelity BO stays in the input domain",
  "BayesUnConsOpt with the library's sampler, Kriging model and acquisitions evaluates the objective only at points of the problem's input domain; samples, best_x and history_best_x lie in it, and so does the next proposal.",
  "every problem, acquisition, seed, number of initial samples, history of run_optimizer calls", "All problems and histories.", SB+":BayesUnConsOpt.run_optimizer", SB+":BayesUnConsOpt._initialization", SA+":SFUnConsAcq.query")
p("When single-fidelity BO works",
  "For an objective that is defined everywhere and acquisition LCB, EI or PI, constructing BayesUnConsOpt succeeds exactly when the responses at the initial design are not all equal (so never with fewer than two initial samples); afterwards every run_optimizer call completes.",
  "every objective, domain, seed, number of iterations, threshold", "All objectives and budgets.", SB+":BayesUnConsOpt.run_optimizer", SB+":BayesUnConsOpt._initialization")
p("Equal seeds give equal Bayesian optimisers",
  "Constructing any of the three Bayesian optimisers twice with equal arguments gives the same optimiser, hence the same results of all later calls, whatever the state of numpy's global generator.",
  "every problem, seed, generator state, history", "All generator states.", SB+":BayesUnConsOpt.__init__", CB+":BayesConsOpt.__init__", MB+":mfUnConsBayesOpt.__init__")
p("The BO surrogate always knows the whole history",
  "After construction and after every run_optimizer call the surrogate (and every constraint surrogate) reproduces all stored responses exactly with standard deviation zero, and the incumbent used by EI is the reported best; so the next proposal maximises (to the accuracy of the search) the expected improvement over best under a model of all data.",
  "every problem, acquisition, history", "All histories.", SB+":BayesUnConsOpt.run_optimizer", CB+":BayesConsOpt.run_optimizer", SA+":EI.eval")
p("Constrained BO: domain and completion",
  "BayesConsOpt evaluates and reports only points of the input domain; for an objective and constraints defined everywhere, construction succeeds exactly when neither the objective nor any constraint is constant on the initial design, and then every run_optimizer call completes, whether or not a feasible point is known.",
  "every problem, number of constraints, seed, history", "All problems and histories.", CB+":BayesConsOpt.run_optimizer", CB+":BayesConsOpt._initialization", CA+":SFConsAcq.query")
p("Multi-fidelity BO: domain and surrogate",
  "mfUnConsBayesOpt evaluates both fidelities only inside the input domain, proposes fidelity 0 or 1 only, and its hierarchical or scaled Kriging surrogate reproduces all high-fidelity responses of the history; with co-Kriging run_optimizer raises as soon as an iteration is due.",
  "every problem, acquisition, cost ratio, surrogate, history", "All problems and histories.", MB+":mfUnConsBayesOpt.run_optimizer", MB+":mfUnConsBayesOpt._initialization")
p("num_init of multi-fidelity BO",
  "mfUnConsBayesOpt starts with num_init[0] high-fidelity and num_init[1] low-fidelity samples and leaves the caller's list usable for another optimiser.",
  "every list, problem, surrogate, seed", "All lists and problems.", MB+":mfUnConsBayesOpt._initialization", MF+":MultiFidelitySampler.get_samples")

p("A training that raises changes nothing",
  "If GaussianProcessRegression.train raises on a trained model and the caller catches the exception, the model's later predictions are what they were before the call, and no other model is affected.",
  "every trained model, every training data that make train raise, every prediction input", "All crash points and data.", GP+":GaussianProcessRegression.train", GP+":GaussianProcessRegression.predict", GP+":GaussianProcessRegression._update_kernel_matrix")
p("Predictions depend on the data at training time only",
  "After train has returned, changing the caller's response array or design-space array in place does not change the predictions of the model.",
  "every trained model, every later content of the arrays", "All histories of writes.", GP+":GaussianProcessRegression.train", GP+":GaussianProcessRegression.y_mean", GP+":GaussianProcessRegression.y_std")
p("Models do not disturb each other",
  "Training one GaussianProcessRegression object, successfully or not, does not change the predictions of another one.",
  "every program over any number of models, kernels and arrays", "All interleavings of calls and all sharing patterns.", GP+":GaussianProcessRegression.__init__", GP+":GaussianProcessRegression.train", KE+":RBF.set_params")
p("Retraining forgets the past",
  "A model with a known noise that is trained after any history of trainings (including failed ones), kernel changes and writes predicts exactly as a newly created model with the same settings trained on the same data.",
  "every history, data set, search result", "All histories.", GP+":GaussianProcessRegression.train", GP+":GaussianProcessRegression.predict")

p("Rounding does not push points out of the design space",
  "In binary floating-point arithmetic, where every operation is rounded to nearest, every point PSO and DE evaluate, record or return and every sample of the Latin hypercube, random and Sobol samplers (single- and multi-fidelity) satisfies low <= x <= high exactly, for draws from [0, 1).",
  "every precision, tie rule, bounds, objective, draw, number of generations", "All floating-point bounds and draws.", EA+":EABase._location_initialzer", EA+":PSO.run_optimizer", EA+":DE.run_optimizer", SF+":SingleFidelitySampler.scale_samples", MF+":MultiFidelitySampler.get_samples")

p("Optimiser objects can be used again",
  "Calling run_optimizer on a PSO or DE object that was used before, also if an earlier run raised, gives what a new object would give with the same arguments and draws; and results returned earlier keep their values whatever is run later.",
  "every sequence of runs on any number of objects, every objective, every outcome", "All histories of an object.", EA+":PSO.run_optimizer", EA+":DE.run_optimizer", EA+":PSO._pso_initializer", EA+":DE._de_initializer")
p("Objective functions may return the same array every time",
  "An objective function that fills and returns one preallocated array on every call gives the same optimisation as one that allocates a new array: reported optimum, personal bests and accepted points are right.",
  "every objective, every pattern of array reuse, settings, draws", "All sharing patterns between the objective's and the optimiser's arrays.", EA+":PSO._pso_initializer", EA+":PSO.__update_pop_optimum", EA+":DE._de_initializer", EA+":DE.__update_obj")
p("Optimisers leave the objective's arrays alone",
  "The arrays an objective function was called with and the arrays it returned still hold after the run what they held at the call, so an objective may keep them (as a log or a cache).",
  "every objective, settings, draws, number of generations", "All runs.", EA+":PSO.__update_pop_optimum", EA+":PSO._pso_initializer", EA+":DE.__update_pop", EA+":DE.__update_obj")

p("Predictions are best linear unbiased predictions",
  "For the trained length scales and noise, the mean returned by GaussianProcessRegression.predict (and HierarchicalKriging.predict, with the low-fidelity prediction as trend) is the linear unbiased predictor of smallest mean squared error from the training responses, and the squared returned standard deviation is the mean squared error of that predictor for the fitted process variance plus the squared noise.",
  "every training set, basis, noise, prediction set", "All data sets and all competing predictors.", GP+":GaussianProcessRegression.predict", GP+":GaussianProcessRegression._update_kernel_matrix", HK+":HierarchicalKriging.predict")
p("More samples, less relative uncertainty",
  "With the same length scales and relative noise, a process trained on more samples reports at every point a variance (beyond the noise) that is, relative to its fitted process variance, at most that of the process trained on fewer of these samples.",
  "every pair of nested training sets, responses, basis, prediction point", "All nested data sets and points.", GP+":GaussianProcessRegression.predict")

p("Co-Kriging predictions and their standard deviation",
  "For the trained length scales, scale factor and variances, the mean returned by CoKriging.predict is the best linear unbiased prediction from the responses of both fidelities, and the squared returned standard deviation is the mean squared error of that prediction plus the squared noise.",
  "every pair of training sets, noise, prediction set", "All data sets and all competing predictors.", CK+":CoKriging.predict", CK+":CoKriging._optHyp")

p("Predictions do not depend on the units of the responses",
  "Training a Kriging, hierarchical Kriging, scaled Kriging (rho fixed at 1) or co-Kriging model on responses a*y + b instead of y (a non-zero, known noise levels multiplied by |a|) raises the same exception or chooses the same hyper-parameters, and then every predicted mean is a*mean + b and every predicted standard deviation |a| times the former one.",
  "every training set, unit change a, b with a non-zero, known noise, solver and start points, prediction set", "All data sets, all affine unit changes, all solvers.",
  GP+":GaussianProcessRegression.train", HK+":HierarchicalKriging._train_hf", SK+":ScaledKriging._train_hf", CK+":CoKriging._optHyp")

p("Predictions do not depend on the units of the inputs",
  "Expressing every input variable in its own other unit (x_k becomes a_k x_k + b_k with a_k non-zero, for samples, prediction points and design space alike) leaves the outcome of train and all predicted means and standard deviations of Kriging, hierarchical Kriging, scaled Kriging and co-Kriging unchanged.",
  "every model, training set, unit change, solver, prediction set", "All data sets, all unit changes, all solvers.",
  GP+":GaussianProcessRegression.normalize_input", MG+":normalize_input", HK+":HierarchicalKriging.predict", SK+":ScaledKriging.predict", CK+":CoKriging.predict")
p("Multi-fidelity predictions do not depend on the batch",
  "The mean and standard deviation predicted for a point by Kriging, hierarchical Kriging, scaled Kriging and co-Kriging are the same in every batch of points it is part of.",
  "every trained model, batch, position in the batch", "All batches of all sizes.",
  HK+":HierarchicalKriging.predict", SK+":ScaledKriging.predict", CK+":CoKriging.predict", KE+":RBF.get_kernel_matrix")
p("Kriging predictions do not depend on the order of the samples",
  "Training on the same samples in another order gives the same predicted means and standard deviations everywhere.",
  "every training set, permutation, solver, prediction set", "All permutations of all data sets.",
  GP+":GaussianProcessRegression.train", GP+":GaussianProcessRegression.predict", KE+":RBF.get_kernel_matrix")
p("Multi-fidelity models can be trained on varying responses",
  "Hierarchical Kriging, scaled Kriging and co-Kriging with usual settings can be trained on every data set whose responses are not all equal at either fidelity.",
  "every data set, noise setting, solver meeting its contract", "All data sets.",
  HK+":HierarchicalKriging._train_hf", SK+":ScaledKriging._train_hf", CK+":CoKriging._optHyp")

p("Scaled Kriging works with the models it is given",
  "A ScaledKriging object built with the user's own low-fidelity and discrepancy models trains exactly when, and predicts exactly what, a low-fidelity model trained on the low-fidelity data and a discrepancy model trained on the differences give.",
  "every pair of models (also the same one twice), state of all objects, data set, solver", "All object graphs and all data sets.",
  SK+":ScaledKriging.__init__", SK+":ScaledKriging._train_hf", SK+":ScaledKriging.predict", MG+":_mfGaussianProcess.train")
p("A multi-fidelity training that raises changes no predictions",
  "When a second training of a ScaledKriging, HierarchicalKriging or CoKriging object raises, its predictions of both fidelities, and those of all other models, are what they were before.",
  "every state of all objects, data set, exception", "The failure can happen at every step of the training.",
  MG+":_mfGaussianProcess.train", MG+":_mfGaussianProcess._train_lf", SK+":ScaledKriging._train_hf", SK+":ScaledKriging._rho_optimize", HK+":HierarchicalKriging._train_hf")
p("Writing into the response arrays after a multi-fidelity training changes no predictions",
  "Once a ScaledKriging or HierarchicalKriging object is trained, changing the caller's low- or high-fidelity response array in place changes no prediction.",
  "every trained model, array content, prediction set", "All contents written, all models.",
  MG+":_mfGaussianProcess._train_lf", GP+":GaussianProcessRegression.train", SK+":ScaledKriging._train_hf", SK+":ScaledKriging.predict", HK+":HierarchicalKriging._train_hf", HK+":HierarchicalKriging.predict")

p("When multi-fidelity Bayesian optimisation raises",
  "With hierarchical Kriging and VFEI or VFLCB, or scaled Kriging and VFLCB, run_optimizer raises nothing but what the retraining of the surrogate raises; if the fidelities share three rows with responses not on a line (scaled Kriging: two rows with different differences) neither the constructor nor any run raises. Scaled Kriging with VFEI always raises.",
  "every problem, design space, seed, state of the random generators, number of iterations and of runs", "All histories of all runs; the retraining sees a different data set in each iteration.",
  MB+":mfUnConsBayesOpt.run_optimizer", MB+":mfUnConsBayesOpt.__init__", MA+":VFEI.query", MA+":VFLCB.query", MG+":_mfGaussianProcess.train")

p("Retraining a hierarchical Kriging model forgets the past",
  "Whatever was done before with a HierarchicalKriging object of known noise (trainings that returned or raised, kernel changes, writes into response arrays, uses of its low-fidelity model), training it succeeds exactly when it succeeds for a newly created object with the same settings, and the predictions of both fidelities are then the same.",
  "every history of calls, data set, solver, prediction set", "All histories, with failed trainings in any place.",
  HK+":HierarchicalKriging.__init__", HK+":HierarchicalKriging._train_hf", HK+":HierarchicalKriging.predict", MG+":_mfGaussianProcess.train")

p("Retraining a co-Kriging model forgets the past",
  "Whatever was done before with a CoKriging object of known noise (trainings that returned or raised, standard deviations, kernel changes), training it succeeds exactly when it succeeds for a newly created object with the same settings, and both then answer every call alike.",
  "every history of calls, data set, solver, later call", "All histories, with failed trainings in any place; one training on equal high-fidelity responses anywhere in the history ruins the object.",
  CK+":CoKriging.__init__", CK+":CoKriging.train", CK+":CoKriging.predict", CK+":_GP.train")

p("Predictions at evaluated points in any batch",
  "After Kriging is trained, predict at a training point, in any row of any batch, misses its response by at most sqrt(2 n v) with v = process variance times (1e-10 spread^2 + noise^2), and its standard deviation is at most sqrt(v + noise^2); without noise these are 1e-5 sqrt(2 n) and 1e-5 process standard deviations.",
  "every data set, kernel bounds, noise, batch and row", "The kernel adds its nugget by row number, so a batch in another order interpolates differently; no batch of examples bounds the error.",
  GP+":GaussianProcessRegression.train", GP+":GaussianProcessRegression.predict", KE+":RBF.get_kernel_matrix")

p("Kriging predictions vary slowly",
  "With the constant basis, the predictions of a trained Kriging model at two points differ by at most the spread of the responses times sqrt(2 n s2 D) + 2e-5 sqrt(n s2), with s2 the fitted process variance and D the squared distance of the points weighted by the trained length scales; the variance at a point exceeds that at an evaluated point by at most 2 s2 D spread^2.",
  "every data set, pair of points, batch", "A Lipschitz-type bound over all pairs of points and all data.",
  GP+":GaussianProcessRegression.predict", KE+":RBF.get_kernel_matrix")

p("Acquisitions do not propose an evaluated point again",
  "While some point of the domain promises more than a small fraction of the process standard deviation, Bayesian optimisation does not propose a point that it has already evaluated.",
  "every problem, history, reachable state and near-exact search", "All histories and all search outcomes; a repeated point makes the covariance matrix nearly singular and wastes an evaluation.",
  SA+":EI.eval", SA+":PI.eval", SB+":BayesUnConsOpt.run_optimizer")

p("Predictions are continuous",
  "After training, the mean and the standard deviation that predict returns are continuous functions of the point, for each row number, for Kriging, hierarchical, scaled and co-Kriging with any continuous basis (the package's bases are).",
  "every data set, model, row", "Continuity at every point cannot be sampled; square roots of small variances and the division by the range are where it could fail.",
  GP+":GaussianProcessRegression.predict", HK+":HierarchicalKriging.predict", SK+":ScaledKriging.predict", CK+":CoKriging.predict", BF+":Quadratic")

p("The search problems of the acquisitions have a solution",
  "The function that an acquisition's query hands to the global search is defined everywhere in the domain and has a minimum there.",
  "every trained surrogate, reachable optimiser state, acquisition and fidelity", "Existence of a minimum over a continuum; acquisitions that jump to 0 where the uncertainty is small are not continuous.",
  SA+":SFUnConsAcq.query", CA+":SFConsAcq.query", MA+":AugmentedEI.query", MA+":VFEI.query", MA+":VFLCB.query", MA+":ExtendedPI.query")

p("Training is maximum likelihood estimation",
  "The likelihood that train searches has a best parameter within the bounds, and if the optimiser finds it, the trained kernel parameters (with the noise, if it is estimated), trend coefficients and, without noise, the process variance maximise the normal likelihood of the standardised responses jointly.",
  "every data set, basis, kernel bounds and noise setting", "A joint maximum over a continuum of parameters, coefficients and variances, for every data set.",
  GP+":GaussianProcessRegression.train", MG+":_mfGaussianProcess.train", CK+":CoKriging.train", CK+":CoKriging._optHyp")

p("Longer optimiser runs extend shorter ones",
  "Two PSO (or DE) runs with the same objective and the same draws that differ only in num_gen and the stopping threshold agree on every generation of the shorter one: same objective calls, samples, responses and best values. More generations and a lower or no threshold never shorten the run, and the longer run does not return a worse value.",
  "every objective, space, setting, pair of generation counts and thresholds, and every stream of draws", "Relates two runs of any length on any objective.",
  EA+":PSO.run_optimizer", EA+":DE.run_optimizer")
p("Only the order of the objective values matters to the optimisers",
  "Replacing the objective by a strictly increasing function of it (and the stopping threshold likewise) changes no position visited by PSO or DE with the same draws: same calls, samples and best points; the reported best values are the transformed ones.",
  "every objective, strictly increasing transformation, space, setting and stream of draws", "Every increasing function and every objective; a test fixes both.",
  EA+":PSO.run_optimizer", EA+":DE.run_optimizer")
p("The units of the design variables do not matter to the optimisers",
  "Multiplying each design variable by a positive factor and shifting it (bounds and objective rewritten accordingly) gives, with the same draws, the same PSO or DE run in the new units: the same best values, and every population and best point converted.",
  "every objective, box, positive factors and shifts, setting and stream of draws (exact arithmetic)", "Every change of units, run length and objective.",
  EA+":PSO.run_optimizer", EA+":DE.run_optimizer", EA+":EABase._loc_cons")

p("Flat and column responses give the same model",
  "Responses passed as an array of shape (n,) or (n, 1) give the same exception or a model with the same predictions and standard deviations at all points, for each surrogate and each fidelity.",
  "every surrogate, trend, data set, optimiser and prediction point", "Broadcasting errors depend on shapes and sizes; all data sets and optimiser outcomes are covered.",
  GP+":GaussianProcessRegression.train", HK+":HierarchicalKriging._train_hf", SK+":ScaledKriging._train_hf", CK+":CoKriging.train", CK+":CoKriging._update_parameters")
p("A wrong number of responses is reported",
  "Training on n samples with an array of another number of responses raises an exception, for each surrogate, each fidelity and whatever the optimiser returns.",
  "every surrogate, sample array, response array of any shape and optimiser", "All sizes, shapes and optimiser outcomes.",
  GP+":GaussianProcessRegression.train", HK+":HierarchicalKriging._train_hf", SK+":ScaledKriging._getDisc", CK+":CoKriging.train")
p("Sample arrays of a wrong shape are reported",
  "In a problem with d variables, one point may be passed as (d,) or (1, d) with the same prediction; samples or points with another number of columns, and training samples passed as a flat array, raise an exception.",
  "every surrogate, number of variables, number of columns, data and optimiser", "All shapes; silent broadcasting gives plausible numbers a test would not question.",
  GP+":GaussianProcessRegression.train", GP+":GaussianProcessRegression.predict", GP+":GaussianProcessRegression.normalize_input", KE+":RBF.get_kernel_matrix", HK+":HierarchicalKriging.predict", SK+":ScaledKriging.predict", CK+":CoKriging.predict")

p("The stored log-likelihood is the maximised one",
  "After training with an optimiser that finds the best hyper-parameters, the attribute logp is the largest value of the log-likelihood that the search maximises (up to a constant that depends on the number of samples only).",
  "every data set, trend, noise setting and kernel range", "The maximum over all hyper-parameters cannot be computed by a test.",
  GP+":GaussianProcessRegression._update_kernel_matrix", HK+":HierarchicalKriging._update_parameters", CK+":CoKriging._update_parameters")

p("Far from the data predictions return to the trend",
  "As a prediction point moves away from the samples in any direction, the predicted mean tends to the fitted trend (for a constant trend: to the generalised least squares mean of the responses) and the standard deviation to that of the process, the estimated mean and the noise together.",
  "every surrogate, data set, hyper-parameters found by the search, direction and batch", "A limit over all unbounded points.",
  GP+":GaussianProcessRegression.predict", KE+":RBF.get_kernel_matrix", HK+":HierarchicalKriging.predict", SK+":ScaledKriging.predict", CK+":CoKriging.predict")

p("Units of the low-fidelity responses do not matter for hierarchical Kriging",
  "Hierarchical Kriging estimates the scale between the fidelities, so measuring the low-fidelity responses in other units (multiplying them by a nonzero factor, together with a known low-fidelity noise) leaves all predictions for the high fidelity unchanged.",
  "every data set, nonzero factor, hyper-parameter search and batch of prediction points", "Relates two trainings for all data sets and factors.",
  HK+":HierarchicalKriging._train_hf", HK+":HierarchicalKriging.predict", HK+":HierarchicalKriging._logLikelihood")

p("Samples and initial populations are uniformly distributed over the design space",
  "With an ideal random generator the samples of RandomSampler and the initial populations of PSO and DE are independent and uniformly distributed over the design space, and every single sample of LatinHyperCube and SobolSequence is uniformly distributed over it.",
  "every design space with low < high, number of samples, objective and configuration", "A statement about a probability distribution; tests see single outcomes.",
  SF+":RandomSampler.get_samples", SF+":LatinHyperCube.get_samples", SF+":SobolSequence.get_samples", SF+":SingleFidelitySampler.scale_samples", EA+":EABase._location_initialzer")

p("Large populations find the minimum with high probability",
  "The value returned by PSO or DE is worse than v with a probability of at most s^num_pop, where s is the share of the design space with objective values worse than v; for a continuous objective the probability of missing the global minimum by more than any fixed amount tends to zero as the population grows, for all other settings.",
  "every measurable objective, design space, configuration, threshold and distribution of the later draws", "A bound on probabilities over all random draws and all objectives.",
  EA+":PSO.run_optimizer", EA+":DE.run_optimizer", EA+":EABase._location_initialzer")

p("Bayesian optimisation does not depend on the units of the objective, up to the constants of the code",
  "If the objective f is replaced by a*f + b with a > 0, a Bayesian optimiser with LCB makes exactly the same evaluations, over its construction and any number of runs, reports the same best points and the converted best values, and raises in the same cases; with EI and PI the same is true once the absolute constant 1e-9 in their guard is divided by a. The known optimum, if one is given, has to be converted by a factor only and be different from zero: with a known optimum of 0 the stopping rule itself depends on the units and a run in other units can make a different number of evaluations.",
  "every objective, design space, a > 0, b, seed, number of initial samples, list of runs and inner search whose outcome depends only on the order of the values", "Compares two whole histories for every objective and change of units.",
  SB+":BayesUnConsOpt.run_optimizer", SB+":BayesUnConsOpt.__update_error", SA+":LCB.eval", SA+":EI.eval", SA+":PI.eval")

p("Multi-fidelity Bayesian optimisation does not depend on the units of the objectives, up to the constants of the code",
  "If both objectives are replaced by a*f + b with the same a > 0 and b, a multi-fidelity optimiser with VFLCB and any of the surrogates evaluates the same points at the same fidelities in the same order, reports the same best points and the converted best values, and raises in the same cases; with VFEI, AugmentedEI and ExtendedPI the same is true once their absolute constants (1e-8 and the floating point epsilon) are divided by a. A known optimum, if given, has to be converted by a factor only and be different from zero.",
  "every pair of objectives, design space, surrogate, a > 0, b, seed, list of runs and inner search whose outcome depends only on the order of the values", "Compares two whole histories for every pair of objectives and change of units.",
  MB+":mfUnConsBayesOpt.run_optimizer", MA+":VFLCB.query", MA+":VFEI.query", MA+":AugmentedEI.query", MA+":ExtendedPI.query")

p("Responses that follow the trend are reproduced everywhere",
  "A Gaussian process with the linear basis trained on responses that are an affine function of the inputs predicts exactly that function at every point, inside or outside the samples, whatever kernel parameters training finds, and reports the noise as standard deviation; with the quadratic basis the same holds for every polynomial of degree at most 2. In hierarchical Kriging the low-fidelity prediction is the trend: if the high-fidelity deviations from their average are proportional to those of the low-fidelity predictions at the samples they are so everywhere, and with equal data at both fidelities the model predicts what its exact low-fidelity model predicts.",
  "every affine or quadratic function, dimension, sample matrix, noise, solver outcome for which training succeeds, and every batch of query points", "Exact equality at every point of the space for every function of an infinite class.",
  GP+":GaussianProcessRegression.train", GP+":GaussianProcessRegression.predict", BF+":Linear", BF+":Quadratic", MG+":_mfGaussianProcess.train", HK+":HierarchicalKriging.predict")

p("save_data saves the samples returned last",
  "In every program that uses sampler objects, save_data of a sampler leaves in the file exactly the samples that the sampler's last successful get_samples call returned (as they are at that moment, if the caller has written into the returned arrays), and nothing but a later save_data call with the same file name changes the file; a single-fidelity sampler without samples saves None. Failed get_samples calls in between do not matter.",
  "every program: any number of sampler objects of any kind, sequence of constructions, get_samples calls (successful or not), writes by the caller and save_data calls", "A property of all histories of several objects sharing memory and files.",
  SF+":SingleFidelitySampler.save_data", MF+":MultiFidelitySampler.save_data", SF+":LatinHyperCube.get_samples", SF+":SobolSequence.get_samples", MF+":MultiFidelitySampler.get_samples")

p("Saving never destroys files",
  "A save_data call either writes the samples or leaves existing files as they are.",
  "every program using sampler objects and every existing file", "A property of all histories, about what is left after an exception.",
  SF+":SingleFidelitySampler.save_data", MF+":MultiFidelitySampler.save_data")

p("Returned sample arrays are independent",
  "Writing into a sample array that get_samples returned changes no other sample array returned earlier or later, by the same sampler or another one, in particular not the samples of another fidelity of the same design.",
  "every program using sampler objects, every two arrays returned in it, every later time and every write", "Aliasing between any two arrays of any history.",
  MF+":MFSobolSequence._get_nested_samples", MF+":MFLatinHyperCube._get_nested_samples", MF+":MultiFidelitySampler.get_samples", SF+":FixNumberSampler.get_samples")

p("A sampler keeps the design space it was constructed with",
  "All samples a sampler draws lie in the design space it was constructed with, whatever the program does between construction and drawing.",
  "every program using sampler objects and every sampler constructed in it", "A property of all histories, about memory shared with the caller.",
  SF+":SingleFidelitySampler.__init__", MF+":MultiFidelitySampler.__init__", MF+":MultiFidelitySampler.transfer_design_space_list")

p("Writing into the results of a Bayesian optimiser does not change the optimiser",
  "A program may write into best_x (the array run_optimizer returns) and into the entries of history_best_x: what the optimiser has recorded (samples, responses, incumbent values) and all later runs are as if nothing had been written.",
  "every problem, surrogate and acquisition, every program of run_optimizer calls and writes into the arrays the optimiser has handed out, at any time", "Aliasing: a property of all interleavings of runs and writes.",
  SB+":BayesUnConsOpt._update_para", SB+":BayesUnConsOpt._initialization", SB+":BayesUnConsOpt.run_optimizer", MB+":mfUnConsBayesOpt._initialization", MB+":mfUnConsBayesOpt._update_para", CB+":BayesConsOpt._update_para", CB+":BayesConsOpt._initialization")

p("Acquisitions prefer better and more uncertain predictions",
  "If the model predicts at one point a mean that is not larger and a standard deviation that is not smaller than at another point, no acquisition that balances exploitation and exploration (lower confidence bound, expected improvement, and their constrained and multi-fidelity variants at high fidelity) ranks the first point behind the second.",
  "every surrogate, every two points, every incumbent and every pair of predictions", "A monotonicity statement over all pairs of real predictions; the code adds small constants to the standard deviation in some places only, so its failure region is invisible to samples.",
  SA+":LCB.eval", SA+":EI.eval", SA+":PI.eval", CA+":CEI.eval", CA+":CEI.ei", CA+":CEI.pof", MA+":AugmentedEI.eval", MA+":VFEI.eval")

p("Saved step results survive crashes",
  "With save_step_results=True, if the process is killed at any moment after the first iteration has been saved, or the objective raises, step_results.pickle can be read and holds the record of the completed iterations (at most one behind): the same rows a run with only that many generations returns. Saving and printing never change the result of the run.",
  "every objective (also one that raises), every setting, and every crash point of the run", "Quantifies over crash points; a test cannot kill the process between two system calls.",
  EA+":EABase._save_results", EA+":EABase.print_info", EA+":PSO.run_optimizer", EA+":DE.run_optimizer")

p("Order of the design variables does not matter",
  "Numbering the design variables in another order (in the design space, the samples, the objective and the prediction points, with the random numbers going to the same variables) changes nothing but the order of the coordinates: PSO and DE evaluate and return the same points and values, and Kriging, hierarchical, scaled and co-Kriging models with any of the library's trends find the same noise and length scales and give the same predictions, or raise the same exception.",
  "every permutation of any number of variables, every data set, objective (also one that raises), setting and schedule of random numbers", "Quantifies over permutations, objectives and random histories.",
  EA+":PSO.run_optimizer", EA+":DE.run_optimizer", GP+":GaussianProcessRegression.train", HK+":HierarchicalKriging", SK+":ScaledKriging", CK+":CoKriging", BF+":Linear", BF+":Quadratic", KE+":RBF")

p("Multi-fidelity Sobol samples are the requested block of the sequence",
  "MFSobolSequence.get_samples returns for every fidelity the points num_skip, ..., num_skip + n_i - 1 of the Sobol sequence of the seed, scaled into the design space; without num_skip it skips as many points as there are variables, as SobolSequence does.",
  "every number of fidelities, every sample counts, seeds, skips and design spaces, nested or not, given once or as a list", "Ranges over all counts, skips and seeds.",
  MF+":MFSobolSequence", MF+":MFSobolSequence._get_nested_samples", MF+":MFSobolSequence._get_non_nested_samples", SF+":SobolSequence.get_samples")

p("Test problems refuse samples with the wrong number of columns",
  "f, f_cons, hf and lf of the test problems raise an exception when the samples have another number of columns than num_dim.",
  "every problem, every number of samples and of columns, and all sample values", "Ranges over all problems, column counts and samples.",
  FN+":Functions", SP, CP, MP)

p("Bumpiness objective of scaled Kriging",
  "With rho_method='bumpiness' the objective of a scale factor rho is the sum of squared differences between rho times the low-fidelity predictions and the responses, times the Euclidean norm of the length-scale parameters of the discrepancy model trained for rho. It is defined for every rho and does not depend on the candidates evaluated before.",
  "every discrepancy model, data set, candidate and history of candidates", "Quantifies over histories of evaluations that retrain one shared model.",
  SK+":ScaledKriging._eval_bumpiness", SK+":ScaledKriging._eval_error", SK+":ScaledKriging._rho_optimize", GP+":GaussianProcessRegression.train")

p("Sample plots show the samples",
  "Constructing a sampler visualisation raises exactly if the sampler has produced no samples. plot_samples then draws one mark per sample, at the sample's coordinates, of the samples the sampler returned last; for several fidelities each fidelity is labelled with its number and has its own colour and marker. With more than three variables it raises ValueError.",
  "every program of sampler calls, saves and writes into returned arrays before and after constructing the visualisation, every number of samples, variables and fidelities", "Ranges over all programs that share the sampler and its arrays.",
  "src/mfpml/visualization/samplers_visualization.py:SFSamplerVisualization", "src/mfpml/visualization/samplers_visualization.py:MFSamplerVisualization", SF+":SingleFidelitySampler", MF+":MFSampler")

p("The convergence plot shows the best value of every generation",
  "plot_optimization_history draws one point per generation from 0 to num_gen, and its height at a generation is the smallest objective value found up to that generation.",
  rng, rw, EA+":EABase.plot_optimization_history", EA+":PSO.run_optimizer", EA+":DE.run_optimizer")

p("update_model equals training on all samples",
  "After any number of update_model calls a low-fidelity model of co-Kriging is the model obtained by training a fresh one on all samples given so far; an update that raises leaves the model as it was.",
  "every first training, every history of updates (also ones that raise), kernels, trends, noise settings and solvers", "Quantifies over histories of updates with failures in between.",
  CK+":_GP.update_model", CK+":_GP.train")

p("Failed evaluations (nan) do not spoil an optimisation",
  "If the objective returns nan for some points, run_optimizer treats them as worse than every number: it returns the smallest number found and a point where it was found.",
  rng + "; the objective returns nan anywhere", rw, EA+":PSO.run_optimizer", EA+":DE.run_optimizer", EA+":EABase._gen_best_obj", EA+":EABase._gen_best_x", EA+":PSO.__update_gen_optimum", EA+":DE.__update_obj")

p("Design spaces may be written as lists or arrays",
  "A single-fidelity sampler gives the same samples whether its design space is written as an array, as nested lists or, for one variable, as a flat [lower, upper].",
  "all design spaces of any dimension, samplers, seeds, sample numbers and states of the generators", "the forms, dimensions, seeds and generators are unbounded", "src/mfpml/design_of_experiment/sf_samplers.py:SingleFidelitySampler.__init__", "src/mfpml/design_of_experiment/sf_samplers.py:SobolSequence.__init__")
p("Malformed design spaces are reported",
  "A single-fidelity sampler whose design space is not one pair of bounds per variable raises, in the constructor or when samples are drawn.",
  "all arguments: flat lists of any length and lists of rows of any lengths", "the arguments are unbounded", "src/mfpml/design_of_experiment/sf_samplers.py:SingleFidelitySampler.__init__", "src/mfpml/design_of_experiment/sf_samplers.py:SingleFidelitySampler.scale_samples")
p("Multi-fidelity samplers accept the same design spaces",
  "Multi-fidelity samplers accept design spaces written as arrays, lists of arrays and nested lists, and give the samples of these design spaces.",
  "all numbers of fidelities, design spaces, sample numbers, seeds and states of the generators", "the arguments are unbounded", "src/mfpml/design_of_experiment/mf_samplers.py:MultiFidelitySampler.__init__", "src/mfpml/design_of_experiment/mf_samplers.py:MultiFidelitySampler.lb", "src/mfpml/design_of_experiment/mf_samplers.py:MultiFidelitySampler.get_samples")
p("Design spaces with different numbers of variables are refused",
  "If the design spaces given for the fidelities have different numbers of variables, get_samples raises instead of returning samples.",
  "all numbers of fidelities and variables, sample numbers, seeds and states of the generators", "the arguments are unbounded", "src/mfpml/design_of_experiment/mf_samplers.py:MultiFidelitySampler.__init__", "src/mfpml/design_of_experiment/mf_samplers.py:MFLatinHyperCube._get_non_nested_samples", "src/mfpml/design_of_experiment/mf_samplers.py:MFSobolSequence._get_non_nested_samples")
p("Samples do not depend on the units of the variables",
  "Giving the bounds in other units (every variable scaled and shifted) gives the same samples in the new units, for every sampler, nested or not.",
  "all changes of units, design spaces, samplers, seeds, sample numbers and states of the generators, in exact arithmetic", "an equality of two programs for all units", "src/mfpml/design_of_experiment/sf_samplers.py:SingleFidelitySampler.scale_samples", "src/mfpml/design_of_experiment/mf_samplers.py:MultiFidelitySampler.get_samples")

p("Bayesian optimisation does not depend on the units of the design variables",
  "Giving a problem in other units of its variables (bounds converted, objective and constraints taking converted points) gives the same optimisation: the evaluated, proposed and best points are converted, all values, best values, fidelities and exceptions are the same, for the single-fidelity, constrained and multi-fidelity optimisers with each surrogate and acquisition.",
  "all changes of units, problems, initial sizes, seeds, settings and sequences of run_optimizer calls, in exact arithmetic, for a search of the acquisition that does not itself depend on the units", "an equality of two whole histories for all units and problems", "src/mfpml/optimization/sf_uncons_bo.py:BayesUnConsOpt.run_optimizer", "src/mfpml/optimization/sf_cons_bo.py:BayesConsOpt.run_optimizer", "src/mfpml/optimization/mf_uncons_bo.py:mfUnConsBayesOpt.run_optimizer", "src/mfpml/models/gaussian_process.py:GaussianProcessRegression.normalize_input")

p("A failed evaluation is survived by Bayesian optimisation",
  "If the objective or a constraint returns nan or an infinite value for some design, the optimiser does not count it as an improvement: best, best_x and the history are never nan and remain those of the proper evaluations; and the optimisation can be continued afterwards.",
  "all objectives that return nan or infinities anywhere, all histories of completed and failed iterations, all float arithmetics and library results", "failed evaluations may come at any point of any history", "src/mfpml/optimization/sf_uncons_bo.py:BayesUnConsOpt.run_optimizer", "src/mfpml/optimization/sf_cons_bo.py:BayesConsOpt.run_optimizer", "src/mfpml/optimization/mf_uncons_bo.py:mfUnConsBayesOpt.run_optimizer", "src/mfpml/models/gaussian_process.py:GaussianProcessRegression.train", "src/mfpml/models/hierarchical_kriging.py:HierarchicalKriging.train", "src/mfpml/models/scale_kriging.py:ScaledKriging.train")

p("What Bayesian optimisation prints",
  "verbose does not influence what an optimiser does. With verbose=True the constructor reports the initial best, and run_optimizer prints one report per completed iteration, numbered from 1, with the best value and point after it (and the error if stopping_error < 1), also when a later iteration raises; with verbose=False no report. The first line of run_optimizer is the current error. The multi-fidelity and constrained optimisers print each evaluation as it enters the samples, the latter also a note for each iteration that ends without a feasible sample. Numbers printed with d decimals are right to half a unit of the last one and keep their order.",
  "all problems, surrogates, acquisitions, budgets, stopping errors, states of the optimiser and points at which an exception is raised", "a relation between the whole output and the whole history", "src/mfpml/optimization/sf_uncons_bo.py:BayesUnConsOpt.run_optimizer", "src/mfpml/optimization/sf_cons_bo.py:BayesConsOpt.run_optimizer", "src/mfpml/optimization/mf_uncons_bo.py:mfUnConsBayesOpt.run_optimizer", "src/mfpml/optimization/mf_uncons_bo.py:mfUnConsBayesOpt._print_info")

p("Constrained Bayesian optimisation looks for improvements of the best feasible value",
  "In every iteration the constrained optimiser proposes a design with (nearly) the largest expected improvement over the reported best, the best feasible value, weighted with the probability of feasibility.",
  "all problems with row-wise objective and constraints, outside worlds (samplers, searches, draws), budgets, reachable states of the optimiser and points of the domain", "the incumbent of the acquisition differs from the reported best only when an infeasible design has a smaller objective value, which depends on the history", "src/mfpml/optimization/sf_cons_acqusitions.py:CEI.eval", "src/mfpml/optimization/sf_cons_acqusitions.py:CEI.ei", "src/mfpml/optimization/sf_cons_bo.py:BayesConsOpt.run_optimizer")

p("Constrained Bayesian optimisation does not depend on the units of the objective and of the constraints",
  "Give the objective in other units and each constraint in its own other unit (positive factors). The constrained optimiser then evaluates the same points in the same order and reports the same best points and the same exceptions, with converted values, provided the two constants 1e-9 of the acquisition are read in the new units too.",
  "all problems, numbers of constraints, positive factors, offsets of the objective, budgets and sequences of run_optimizer calls", "two runs of the whole optimiser are compared, for every pair of units", "src/mfpml/optimization/sf_cons_bo.py:BayesConsOpt.run_optimizer", "src/mfpml/optimization/sf_cons_acqusitions.py:CEI.eval", "src/mfpml/optimization/sf_cons_acqusitions.py:CEI.pof")

p("Hyper-parameters stay within kernel_bound",
  "After any sequence of train and change_optimizer calls that contains a training, every kernel hyper-parameter of a surrogate lies between 10**low and 10**high of the bounds the object was created with.",
  "all four models, all their options, data, searches that stay in their bounds (among them PSO and DE), and sequences of trainings and optimiser changes", "it depends on the whole history of trainings and on the search, for every choice of bounds", "src/mfpml/models/hierarchical_kriging.py:HierarchicalKriging.__init__", "src/mfpml/models/co_kriging.py:CoKriging.__init__", "src/mfpml/models/scale_kriging.py:ScaledKriging.__init__", "src/mfpml/models/gaussian_process.py:GaussianProcessRegression.__init__", "src/mfpml/models/kernels.py:RBF")

p("The cost ratio steers the choice of fidelity",
  "If a multi-fidelity query chooses the low fidelity, it also does so for every larger cost_ratio; where the high fidelity would be evaluated does not depend on cost_ratio; and if low-fidelity evaluations promise any improvement, they are chosen for every large enough cost_ratio.",
  "all four multi-fidelity acquisitions, surrogates, cost ratios, random states and exact searches", "it compares queries for all pairs of cost ratios, and limits", "src/mfpml/optimization/mf_acqusitions.py:AugmentedEI.query", "src/mfpml/optimization/mf_acqusitions.py:VFLCB.query", "src/mfpml/optimization/mf_acqusitions.py:ExtendedPI.query", "src/mfpml/optimization/mf_acqusitions.py:VFEI.query")

p("Every fidelity of MFLatinHyperCube is a Latin hypercube",
  "The samples that MFLatinHyperCube.get_samples returns for one fidelity form a Latin hypercube on the design space of that fidelity: in every direction each of n equal slices holds exactly one of the n samples.",
  "all boxes, numbers of samples and fidelities, nested or not, seeds and Latin-hypercube engines of scipy", "it must hold for every output of the engine and every random choice of the nested subsets", "src/mfpml/design_of_experiment/mf_samplers.py:MFLatinHyperCube._get_non_nested_samples", "src/mfpml/design_of_experiment/mf_samplers.py:MultiFidelitySampler.get_samples")

p("Low-fidelity predictions depend on the low-fidelity data only",
  "Two trainings of the same multi-fidelity model with the same low-fidelity data, but different high-fidelity data, give the same predict_lf everywhere, with and without standard deviation.",
  "all three multi-fidelity models, sample sets of any sizes, responses, solvers, random starts and points", "it compares two trainings on arbitrary data", "src/mfpml/models/mf_gaussian_process.py:_mfGaussianProcess.predict_lf", "src/mfpml/models/co_kriging.py:CoKriging.train", "src/mfpml/models/co_kriging.py:CoKriging.predict_lf")

p("Longer runs find the minimum",
  "For a continuous objective and independent uniform draws the probability that PSO or DE reports a value within any given distance of the minimum over the design space does not decrease with num_gen and tends to one.",
  "continuous objectives, design spaces, population sizes, tolerances and numbers of generations", "it is a limit of probabilities over unboundedly long runs", "src/mfpml/optimization/evolutionary_algorithms.py:PSO.run_optimizer", "src/mfpml/optimization/evolutionary_algorithms.py:DE.run_optimizer", "src/mfpml/optimization/evolutionary_algorithms.py:EABase._loc_cons")

p("Improper training data never give proper predictions",
  "If training a surrogate on responses one of which is nan or infinite completes, whatever optimiser is used, no mean predicted afterwards at any point is a finite number: for Kriging, hierarchical and scaled Kriging all means and standard deviations are nan, for co-Kriging all means are nan or infinite (and all standard deviations nan if the improper response is of high fidelity).",
  "samples, responses with at least one improper value of either fidelity, optimisers, settings, prediction points, roundings", "one improper value among any number of responses must reach every prediction at every point, through any search and any linear algebra", "src/mfpml/models/gaussian_process.py:GaussianProcessRegression.predict", "src/mfpml/models/hierarchical_kriging.py:HierarchicalKriging.predict", "src/mfpml/models/scale_kriging.py:ScaledKriging.predict", "src/mfpml/models/co_kriging.py:CoKriging.predict")

p("Prediction errors are bounded by the predicted uncertainty",
  "If the response function is a trend plus finitely many Gaussian bumps of the trained widths, of size N, measured with any errors e, then the error of the mean that Kriging or hierarchical Kriging predicts at any point is at most sqrt(N^2 + sum e^2 / noise variance) times the epistemic standard deviation it reports there (relative to the fitted process deviation), up to 2e-5; in particular noise-free Kriging becomes exact where samples become dense.",
  "response functions, measurement errors, samples, batches, prediction points", "it bounds the error at all unseen points for all response functions of a kind", "src/mfpml/models/gaussian_process.py:GaussianProcessRegression.predict", "src/mfpml/models/hierarchical_kriging.py:HierarchicalKriging.predict")

p("Models refuse to predict before a training has returned",
  "As long as no call of train on a model has returned without an exception, predict raises, with and without return_std, whatever else the program has done (trainings that raised, trainings of other models, writes into shared arrays, set_params, change_optimizer); for a design space that is not degenerate it is AttributeError.",
  "all programs, models of the four classes, prediction points", "it concerns every history in which each training raised at whatever point", "src/mfpml/models/gaussian_process.py:GaussianProcessRegression.predict", "src/mfpml/models/hierarchical_kriging.py:HierarchicalKriging.predict", "src/mfpml/models/scale_kriging.py:ScaledKriging.predict", "src/mfpml/models/co_kriging.py:CoKriging.predict")

p("Training finds the least-squares scale factor within its bounds",
  "With rho_method='error' and the built-in solver, ScaledKriging.train chooses, for every starting point, the scale factor within rho_bound that fits the low-fidelity predictions to the high-fidelity responses best in the sense of least squares: the unconstrained solution, moved to the nearest bound if it lies outside.",
  "data sets, bounds, starting points, models", "the criterion has to have no other local minimum for any data", "src/mfpml/models/scale_kriging.py:ScaledKriging._rho_optimize", "src/mfpml/models/scale_kriging.py:ScaledKriging._eval_error")
p("kronDelta marks equal rows",
  "kronDelta(X, Y) is true at (i, j) exactly if row i of X equals row j of Y.",
  "all pairs of arrays with the same number of columns", "it concerns all pairs of rows, however close", "src/mfpml/models/kernels.py:kronDelta")

p("Reports of the constrained optimiser with nan and infinite values",
  "Whatever floats objective and constraints return (nan and infinities included) and whatever the surrogates propose: after the constructor and after every iteration that returned, also after earlier iterations that raised, BayesConsOpt reports as best the smallest objective value of the designs that satisfy all constraints and as best_x the designs with this objective value, and infinity and None while no design is feasible. A nan objective or constraint of an infeasible design has no effect; a nan objective of a feasible design makes best nan and best_x empty.",
  "problems, float values, surrogates, acquisition proposals, histories with exceptions", "the reports have to be right for every pattern of nan and infinite values and every history of crashes", "src/mfpml/optimization/sf_cons_bo.py:BayesConsOpt._initialization", "src/mfpml/optimization/sf_cons_bo.py:BayesConsOpt._update_para")

p("Test problems have a minimum on their input domain",
  "Every test problem, at every fidelity, takes a smallest value at some point of its input domain; the constrained problems take a smallest value at some feasible point, so that there is a best value for an optimiser to find.",
  "all problem classes, fidelities, dimensions and parameters, over all points of the input domain", "existence of a minimum over a continuum cannot be sampled", "src/mfpml/problems/sf_functions.py:Forrester", "src/mfpml/problems/sf_cons_functions.py:Branin_1", "src/mfpml/problems/sf_cons_functions.py:Branin_2", "src/mfpml/problems/mf_functions.py:mf_Discontinuous", "src/mfpml/problems/mf_functions.py:mf_CurrinExp", "src/mfpml/problems/mf_functions.py:mf_Park91A")

p("The order of the constraints does not matter",
  "Two constrained problems that differ only in the order in which the constraints are listed are optimised alike: if the result of training a surrogate does not depend on where its random restarts begin, BayesConsOpt with the same settings and seed finishes on one exactly if it finishes on the other, with the same samples, objective values, best value, best point and histories, and with the constraint values and surrogates in the other order. Which sample is reported as the best feasible one never depends on the order.",
  "all problems, numbers of constraints, permutations of the constraints, settings, random states and sequences of run_optimizer calls", "all permutations and whole optimisation histories", "src/mfpml/optimization/sf_cons_bo.py:BayesConsOpt", "src/mfpml/optimization/sf_cons_acqusitions.py:CEI")

p("Multi-fidelity arrays show the list given last",
  "Whatever a program does with lists and mfArray objects, an mfArray shows the present contents of the list that its constructor or its last call was given: n_levels is the length, hf the first entry, arr[i] entry i, arr[-k] the k-th entry from the end, IndexError for every other position, and size the lengths of all entries in order. Without a list every access raises TypeError. mfArray objects change no list.",
  "all programs over any number of list objects and mfArray objects", "all histories and aliasings of lists and objects", "src/mfpml/core/data.py:mfArray")

p("The stopping error in floating-point arithmetic",
  "With every operation rounded to the nearest binary floating-point number (any precision, double precision included, ties broken in any way), the error that run_optimizer compares with stopping_error is never negative, is zero exactly when the best value equals the known optimum - however close the two numbers are - and never grows when the best value gets closer to an optimum below it.  So the errors of successive iterations never increase, and a run that asks for a positive error makes no further iteration once the optimum has been observed.",
  "all best values and optima, all precisions, all rounding rules, all reachable optimiser states, budgets and stopping errors", "rounding and underflow for all pairs of numbers", "src/mfpml/optimization/sf_uncons_bo.py:BayesUnConsOpt.__update_error", "src/mfpml/optimization/mf_uncons_bo.py:mfUnConsBayesOpt.__update_error")

p("Seeded samplers give the same samples in every program",
  "In two programs, or at two places of one program, get_samples with the same number of samples and the same seed, of samplers of the same class and arguments on the same bounds, gives the same samples or raises the same exception, whatever the programs do in between: use other samplers with or without seeds, draw random numbers, write into returned arrays, save files, fail.",
  "all pairs of programs with any number of sampler objects, all histories, seeds, numbers of samples and states of the random number generators", "Quantifies over all pairs of programs and generator states.", "src/mfpml/design_of_experiment/sf_samplers.py:SingleFidelitySampler.get_samples", "src/mfpml/design_of_experiment/mf_samplers.py:MultiFidelitySampler.get_samples")

p("Seeded samples do not disturb the random numbers of the program",
  "A get_samples call with a seed leaves the random number generators of the process (numpy's global generator) as they were, so that the other random numbers of the program do not depend on it.",
  "all sampler objects, seeds, numbers of samples, program states", "The state of the generator is unbounded and invisible in the result of the call.", "src/mfpml/design_of_experiment/sf_samplers.py:RandomSampler.get_samples", "src/mfpml/design_of_experiment/sf_samplers.py:LatinHyperCube.get_samples", "src/mfpml/design_of_experiment/mf_samplers.py:MFLatinHyperCube._get_nested_samples")

p("Correlations computed in floating-point arithmetic are correlations",
  "Computed in floating-point arithmetic, the kernel value of two points of the scaled design space is the exact one up to rounding errors that are small for all admissible kernel parameters, and it never exceeds the exact value for equal points (1, plus the nugget on the diagonal).",
  "all sample arrays in the unit cube, kernel parameters, dimensions, precisions, tie rules, orders of summation and implementations of exp of the given accuracy", "Rounding errors depend on every bit of the inputs and on the order in which BLAS adds; no test sample covers them.", "src/mfpml/models/kernels.py:RBF.get_kernel_matrix", "src/mfpml/models/kernels.py:RBF.__call__")

p("Covariance matrices computed in floating-point arithmetic are positive definite",
  "The covariance matrix of the training samples, computed in floating-point arithmetic for any samples in the design space (repeated ones included) and any noise, is positive definite, so that its Cholesky factorisation exists, as long as the number of samples is below 1e-10 divided by the accuracy of the kernel values.",
  "all numbers of samples and dimensions, samples in the design space, kernel parameters, noise levels, precisions, orders of summation", "Whether the nugget outweighs the rounding errors has to be known for every data set.", "src/mfpml/models/gaussian_process.py:GaussianProcessRegression._update_kernel_matrix", "src/mfpml/models/gaussian_process.py:GaussianProcessRegression.normalize_input", "src/mfpml/models/kernels.py:RBF.get_kernel_matrix", "src/mfpml/models/hierarchical_kriging.py:HierarchicalKriging._update_parameters", "src/mfpml/models/co_kriging.py:CoKriging._update_parameters")

p("Counting a design variable from the other end does not change the models",
  "If some design variables are counted from the other end of their range (x becomes low + high - x) in the samples and in the points asked for, every surrogate model trains to the same length scales, noise and scale factor, or raises the same exception, and all its predictions and standard deviations are the same; the constant, linear and quadratic trends all allow this.",
  "all models (Kriging, hierarchical, scaled, co-Kriging), sets of mirrored variables, data sets, points and solvers", "The linear and quadratic trend columns and the regression coefficients all change; only a proof over all data shows that nothing observable does.", "src/mfpml/models/gaussian_process.py:GaussianProcessRegression.train", "src/mfpml/models/hierarchical_kriging.py:HierarchicalKriging.train", "src/mfpml/models/scale_kriging.py:ScaledKriging.train", "src/mfpml/models/co_kriging.py:CoKriging.train", "src/mfpml/models/basis_functions.py")

p("The Cholesky factorisation in floating-point arithmetic does not fail",
  "For samples in the design space (repeated ones included), admissible kernel parameters and any noise, training and likelihood evaluation do not stop because the covariance matrix is found not to be positive definite: the factorisation, with every operation rounded and in whatever order it is carried out, meets positive pivots only, and the returned factor multiplied by its transpose is the covariance matrix up to a small multiple of the unit roundoff. The number of samples n may be as large as n * (accuracy of the kernel values) + 4 (n + 4)^2 2^-53 < 1e-10.",
  "all numbers of samples and dimensions, samples in the design space, kernel parameters, noise levels, precisions, orders and blockings of the factorisation", "Whether a pivot becomes negative depends on every bit of the data and on the LAPACK in use; a test samples one of each.", "src/mfpml/models/gaussian_process.py:GaussianProcessRegression._update_kernel_matrix", "src/mfpml/models/gaussian_process.py:GaussianProcessRegression._logLikelihood", "src/mfpml/models/hierarchical_kriging.py:HierarchicalKriging._update_parameters", "src/mfpml/models/co_kriging.py:CoKriging._update_parameters")

p("Very large design spaces",
  "In floating-point arithmetic with a largest number (overflow to inf, nan from inf - inf, inf/inf and 0*inf), for every design space with finite bounds, every sample of the samplers and every point at which PSO and DE evaluate the objective has finite coordinates between the bounds.",
  "all design spaces with finite bounds, populations, settings, draws, objectives and generations, precisions and exponent ranges", "Whether an intermediate result overflows depends on the magnitude of the bounds, on the settings and on the draws of all generations; a nan point is noticed only if the objective raises on it.", "src/mfpml/optimization/evolutionary_algorithms.py:PSO", "src/mfpml/optimization/evolutionary_algorithms.py:DE", "src/mfpml/optimization/evolutionary_algorithms.py:EABase._loc_cons", "src/mfpml/design_of_experiment/sf_samplers.py:SingleFidelitySampler.scale_samples")

p("Normalisation of responses in floating-point arithmetic",
  "In floating-point arithmetic, in whatever order the sums are computed: the normalised responses of a surrogate are nan exactly when all responses are equal (so that equal responses are noticed); the computed mean and standard deviation are accurate; and transforming a normalised response back gives the response up to a few roundings.",
  "all responses, numbers of samples, precisions, tie rules and orders of summation", "Whether the computed standard deviation of equal numbers is exactly zero depends on the last bits of the responses and on the order of the additions.", "src/mfpml/models/gaussian_process.py:GaussianProcessRegression.normalize_output", "src/mfpml/models/gaussian_process.py:GaussianProcessRegression.predict", "src/mfpml/models/mf_gaussian_process.py:_mfGaussianProcess.normalize_hf_output", "src/mfpml/models/co_kriging.py:CoKriging.normalize_hf_output")

p("The joint covariance of co-Kriging can be factorised in floating-point arithmetic",
  "In floating-point arithmetic, in whatever order the operations are made: the joint covariance matrix of low- and high-fidelity samples that a co-Kriging model builds at the end of training is accurate up to rounding, and its Cholesky factorisation succeeds, also when high-fidelity samples coincide with low-fidelity ones, so that training does not end with LinAlgError.",
  "all samples in the design space, kernel parameters, scale factors, process variances, noise levels, precisions, tie rules and orders of the operations", "The matrix is singular but for a jitter of 1e-10; whether it survives rounding depends on the size of all other entries and on the order of the operations in the linear algebra library.", "src/mfpml/models/co_kriging.py:CoKriging._update_parameters", "src/mfpml/models/co_kriging.py:CoKriging.train")

p("Acquisition values are accurate in floating-point arithmetic",
  "In floating-point arithmetic, for the mean and standard deviation that the surrogate predicts: EI.eval returns minus the true expected improvement, PI.eval minus the probability of improvement, LCB.eval the weighted difference of mean and standard deviation, and the constrained acquisition minus the expected improvement times the probability that all constraints hold, each up to the accuracy of norm.cdf and norm.pdf, a fixed number of roundings (for the product: of each constraint) and, for the expected improvement, 2e-9 from the guard against division by zero; also when the standard deviation is zero. Hence a point with the smallest computed EI has nearly the largest expected improvement.",
  "all predictions and standard deviations, smallest responses, weights, numbers of constraints, precisions, tie rules, orders of the product and implementations of norm.cdf and norm.pdf", "Near a sample the standard deviation vanishes and the standardised improvement is a quotient of cancelled numbers that can be as large as 1e9 times the response; relative errors of such arguments could ruin the value.", SA+":EI.eval", SA+":PI.eval", SA+":LCB.eval", CA+":CEI.eval", CA+":CEI.ei", CA+":CEI.pof")

p("Predicted means in floating-point arithmetic",
  "In floating-point arithmetic, in whatever order sums are computed: the mean that GaussianProcessRegression.predict returns for a point of the design space is the textbook value (trend plus correlations times weights, scaled back to the responses) for the trained coefficients, up to an explicit multiple of the sum of the absolute values of the coefficients; so predictions for one point in different batches agree up to twice that; and at a training sample the mean is the response up to the residual the linear solver left, the noise level times the weight of the sample, and the same accuracy.",
  "all samples, points and batches in the design space, the three trends, kernel parameters, trained coefficients, residuals, precisions, tie rules and orders of summation", "The weights alternate in sign and can be large, so terms cancel; the order of the additions depends on the batch size through the linear algebra library.", "src/mfpml/models/gaussian_process.py:GaussianProcessRegression.predict", "src/mfpml/models/gaussian_process.py:GaussianProcessRegression._update_kernel_matrix", "src/mfpml/models/basis_functions.py:Quadratic.__call__")

p("Latin hypercubes in floating-point arithmetic",
  "In floating-point arithmetic too, cutting [lb, ub] into n equal cells puts exactly one of the n points returned by LatinHyperCube.get_samples(n) in each cell, along every axis.",
  "every n, design space with lb < ub, Latin hypercube in the unit cube, precision and tie rule", "All permutations and jitters are possible engine outputs, and the rounding errors depend on the bounds.", SF+":LatinHyperCube.get_samples", SF+":SingleFidelitySampler.scale_samples")

p("Multi-fidelity acquisition functions in floating-point arithmetic",
  "In floating-point arithmetic, for given predictions at a point: AugmentedEI.eval returns minus the expected improvement, for the low fidelity times the correlation std_lf / (|pre - pre_lf| + std) and the cost ratio; VFEI.eval returns minus the expected improvement computed with the high-fidelity prediction up to 2e-8; both are exactly zero when the standard deviation they check is below 2^-52. VFLCB.eval returns kappa[0] mean - kappa[1] std (times the cost ratio for the low fidelity). ExtendedPI.eval returns minus the probability of improvement times correlation, cost ratio and the product of correlations. All up to explicit multiples of the rounding error and the error of the normal distribution; so the fidelity AugmentedEI.query chooses is nearly the better one.",
  "all predictions with a nonnegative standard deviation, best values, cost ratios, kappas, precisions, tie rules and implementations of the normal distribution with a given accuracy", "The argument of the distribution can be arbitrarily large or badly conditioned, as the standard deviation goes down to 2^-52.", "src/mfpml/optimization/mf_acqusitions.py:AugmentedEI.eval", "src/mfpml/optimization/mf_acqusitions.py:VFEI.eval", "src/mfpml/optimization/mf_acqusitions.py:VFLCB.eval", "src/mfpml/optimization/mf_acqusitions.py:ExtendedPI.eval")

p("Predicted means of hierarchical and scaled Kriging in floating-point arithmetic",
  "In floating-point arithmetic, in whatever order sums are computed: the mean that HierarchicalKriging.predict returns for a point of the design space is the textbook value (scaled low-fidelity mean plus correlations times weights) for the trained coefficients, up to the regression coefficient times the error of the low-fidelity mean and an explicit multiple of the sizes of the parts; the mean of ScaledKriging.predict is the scale factor times the low-fidelity mean plus the mean of the discrepancy (with return_std=True; without it, the factor is on the discrepancy), up to the errors of the two models and three roundings.",
  "all samples, points and batches in the design space, kernel parameters, trained coefficients, scale factors, precisions, tie rules and orders of summation", "The errors of one level enter the next, the weights alternate in sign and can be large, and the order of the additions depends on the batch size.", HK+":HierarchicalKriging.predict", SK+":ScaledKriging.predict")

p("Multi-fidelity predictions at evaluated points in any batch",
  "After hierarchical, scaled or co-Kriging is trained, predict at a high-fidelity training point, in any row of any batch, misses its response by at most an explicit bound, and its squared standard deviation is at most an explicit bound; both are small multiples (1e-5 for the mean, 1e-10 for the variance) of the fitted process variances plus the noise. For scaled Kriging the mean is that returned with the standard deviation, and the variance of the low-fidelity model comes on top, which is small at points sampled at both fidelities.",
  "every pair of training sets, noise, batch and row number", "All data sets and batches; the nugget is added by row number, so the row of a point matters.", HK+":HierarchicalKriging.predict", SK+":ScaledKriging.predict", CK+":CoKriging.predict")

p("Hierarchical and scaled Kriging predictions vary slowly",
  "With constant bases, the predictions of a trained hierarchical or scaled Kriging model at two points differ by at most the step sqrt(2 n s2 D) + 2e-5 sqrt(n s2) (times the spread of the responses) of one process plus |factor| times that of the other, with s2 the fitted process variance and D the squared distance of the points weighted by the trained length scales of each process; the factor is the regression coefficient or the scale factor.",
  "every pair of training sets, pair of points, batches and row numbers", "All pairs of points.", HK+":HierarchicalKriging.predict", SK+":ScaledKriging.predict")

p("The predicted mean of co-Kriging in floating-point arithmetic",
  "In floating-point arithmetic, in whatever order sums are computed: the mean that CoKriging.predict returns for a point of the design space is the textbook value (trained mean plus weighted covariances with all low- and high-fidelity samples) for the trained parameters and the weights from the linear solve, up to an explicit accuracy relative to the size of the terms; predictions for one point in different batches agree to twice this; at a high-fidelity sample, wherever it is in the batch, it is the response up to the residual of the solve, the noise and jitter times the weight of the sample, and this accuracy.",
  "all samples, points and batches in the design space, kernel parameters, scale factors, non-negative process variances, weights and residuals, precisions, tie rules and orders of summation", "The weights alternate in sign and can be large, so that the sum cancels; the covariances of the batch and of the training matrix are computed by different expressions; the order of the additions depends on the batch size.", CK+":CoKriging.predict", KE+":RBF.get_kernel_matrix")

p("The standard deviation of Kriging is not below the noise level",
  "The standard deviation that GaussianProcessRegression.predict returns is that of a new observation: it includes the noise, so it is not below the noise level at any point of any batch. The squared standard deviation of ScaledKriging.predict is not below rho^2 times the squared low-fidelity noise level plus the squared noise level of the discrepancy model. The standard deviation of CoKriging.predict after training is not below the high-fidelity noise level.",
  "all trained models, noise levels, points and batches", "Near training points the predicted variance of the process is a difference of almost equal numbers; whether its sign is right depends on the row of the batch, as the kernel adds its nugget by row number.", GP+":GaussianProcessRegression.predict", KE+":RBF.get_kernel_matrix", SK+":ScaledKriging.predict", CK+":CoKriging.predict")

p("Predicted standard deviations in floating-point arithmetic",
  "In floating-point arithmetic, whatever number the linear solves give as mean squared error: the standard deviation each model returns is a non-negative number, never the root of a negative one; the total standard deviation of hierarchical and co-Kriging is not below the epistemic one nor below the noise level, exactly, and equals the epistemic one without noise; those of Kriging (mean squared error not negative), of co-Kriging's low-fidelity model and of scaled Kriging are not below the noise level and the standard deviation of the discrepancy model; all agree with their formulas up to a few units of rounding.",
  "all mean squared errors, noise levels, scale factors and standard deviations whose squares do not underflow, precisions and tie rules", "Near samples the computed mean squared error is rounding noise of either sign; whether the root of a rounded sum of rounded squares can fall below one of the numbers depends on how the roundings of square and root interact, for every pattern of bits.", GP+":GaussianProcessRegression.predict", HK+":HierarchicalKriging.predict", CK+":CoKriging.predict", SK+":ScaledKriging.predict")

p("Co-Kriging predictions vary slowly",
  "The predictions of a trained co-Kriging model at two points, in any rows of any batches, differ by at most the spread of the high-fidelity responses times |rho| sqrt(2 sl Q Dl) + sqrt(2 sd Q D) + 2e-5 (|rho| sl + v) sqrt(Q): sl and sd are the process variances of the low-fidelity process and of the difference, v = rho^2 sl + sd, Dl and D the squared distances of the points weighted by the trained length scales of the two, Q the squared Mahalanobis length of the scaled responses. The variance at a point exceeds the bound at a high-fidelity sample (C188) by at most 2 (rho^2 sl Dl + sd D) spread^2.",
  "all trained co-Kriging models, pairs of points and batches", "The bound must hold for every data set and every pair of points; the joint covariance mixes two kernels and gets its nuggets by row number, so that the quadratic forms of the parts have to be compared with that of the whole.", CK+":CoKriging.predict", KE+":RBF.get_kernel_matrix")

if __name__ == "__main__":
    here = os.path.dirname(os.path.dirname(os.path.abspath(__file__)))
    with open(os.path.join(here, "properties.jsonl"), "w") as f:
        for r in P:
            f.write(json.dumps(r) + "\n")
    print(len(P))
