#!/usr/bin/env python3
"""Writes the property table of DESIGN.md (between the two markers) from properties.jsonl, MANIFEST.json and the lines below."""
import json, os
R = os.path.dirname(os.path.dirname(os.path.abspath(__file__)))
A = {}   # property -> (model file, how proved)
def a(ids, model, how):
    for i in ids.split():
        A[i] = (A[i][0] + '; ' + model, A[i][1] + '. Also: ' + how) if i in A else (model, how)

a("C01 C02 C03 C05 C06 C07", "Evolutionary", "invariant of the generation loop, induction on generations; the log of all evaluated populations is part of the model")
a("C04 C11", "Evolutionary", "false after an early stop: run with rows of zeros as witness; runs that use all generations by the loop invariant")
a("C08 C09 C10", "Evolutionary", "loop invariant; donor and crossover lemmas per individual, both strategies")
a("C12", "Evolutionary", "false: witness for a collision after the fix-up; case analysis for what does hold")
a("C13 C14", "Evolutionary", "case analysis of the crossover mask and of every error exit")
a("C15 C16 C17 C19", "Samplers", "algebra on the affine map; permutations of strata for the Latin hypercube")
a("C18", "Samplers", "Sobol engine as a state machine with scipy's capacity; false above 30 samples, proved for every size")
a("C20 C21", "Samplers", "induction on the list of sizes")
a("C22 C23 C24 C25", "Samplers", "false as stated: witnesses or universally quantified negations; partial theorems by the same inductions")
a("C26 C27 C28", "Kernels, Basis", "entrywise formulas; positive definiteness of the Gaussian kernel by Schur products of exponential series; double-loop invariant for the quadratic basis")
a("C29 C30", "Normalize", "algebra")
a("C31", "GP, LinAlg", "existence of the Cholesky factor from positive definiteness; invertibility of the trend system from independent columns")
a("C32", "GP", "invariant of the restart loop")
a("C33", "GP", "normal equations; completing the square in the K⁻¹ norm")
a("C34 C35", "GP", "block algebra over the solved system; Schur complement")
a("C36", "GP, Kernels", "false: exact formula for the nugget position, witness")
a("C37", "GP, HierarchicalKriging, ScaledKriging, CoKriging", "unfolding both calls; false for scaled Kriging, exact difference and witness")
a("C38", "GP, HierarchicalKriging, ScaledKriging", "false: the kept noise as an invariant of trainings, witness")
a("C39 C40", "GP", "equivariance of mean, std and of every solved system; permutation matrices")
a("C41 C42", "HierarchicalKriging", "algebra over the same generalised least-squares core")
a("C43 C44 C45", "ScaledKriging", "algebra; exact condition under which predict(X) fails")
a("C46 C47", "CoKriging", "false: closed form of the k-th call by induction on calls")
a("C48", "CoKriging", "block matrix as a sum of a Gram matrix and a positive definite part")
a("C49 C50", "CoKriging", "block algebra")
a("C51 C52 C53 C57", "BayesOpt", "invariants of the loop over every sampler, surrogate and acquisition")
a("C54 C55", "BayesOpt", "loop invariants of the multi-fidelity loop")
a("C56", "BayesOpt", "false for the multi-fidelity optimiser for every reachable state; loop bound for the others")
a("C58 C59", "BayesOpt", "loop invariant; false for best_x on ties, witness")
a("C60 C61", "Acquisitions", "case analysis of query; failure with an optimiser object for every run")
a("C62", "Acquisitions, Normal", "integral of the improvement under the normal law; false by less than 1e-9, witness and bound")
a("C63 C64 C65", "Acquisitions, Normal", "monotonicity of the normal distribution function; algebra")
a("C66 C67 C82", "Acquisitions", "real analysis of each factor; false parts by witness or for all inputs")
a("C68 C71 C72", "Problems", "per-function expansion; induction on rows")
a("C69 C70", "Problems", "sums of squares and trigonometric identities where the optimum is exact; otherwise a verified interval branch-and-bound checker (section 4)")
a("C73 C74 C75", "Problems", "constructor calls as a state machine on class attributes; induction on call sequences; witnesses")
a("C76", "GP, HierarchicalKriging, ScaledKriging, CoKriging", "determinant of the Cholesky factor; comparison with the Gaussian density of the specification")
a("C77 C78", "BayesOpt", "loop invariants with exceptions; witness for the false part")
a("C79", "HierarchicalKriging, ScaledKriging, CoKriging", "invariant of the restart loops")
a("C80 C81", "Acquisitions, BayesOpt, HierarchicalKriging, ScaledKriging", "every query of a trained HK or SK model returns, because each method it calls does; every query with co-Kriging fails")
a("C83", "EvolutionaryRaise", "simulation between the run with a raising objective and the run with a total one")
a("C84", "GPOptimizers", "C01-C14 applied to the likelihood as objective")
a("C85 C86 C87 C88", "BOAssembled", "loop invariant of the assembled optimiser: samples in the domain, surrogate trained on the whole history")
a("C89 C90 C91", "BOAssembled", "the same invariants for the constrained and the multi-fidelity optimiser; sampler theorems C20-C25")
a("C92 C93 C94 C95", "GPObjects", "heap of models, kernels and arrays; frame theorem by induction on programs; refinement to the value-level model GP; witnesses for sharing and failed trainings")
a("C96", "Rounded, Evolutionary, Samplers", "the comparison-only theorems hold in every arithmetic; binary floating point with any rounding to nearest is one; the width of the box, shrunk by a factor below one and rounded, is at most the exact width (normal forms of floats, cases at powers of two and in the subnormal range)")
a("C97", "EvolutionaryHeap", "memory with addresses; a simulation between two memories through a state without addresses; histories of a run are newly allocated and no other run writes to them (induction over the program)")
a("C98", "EvolutionaryHeap", "refinement of the value model by the model with shared arrays, cases on which array is returned; invariants for the constant-array case; evaluation of a two-member run")
a("C99", "EvolutionaryHeap", "the same invariants: addresses of arguments and returned arrays, and who writes to them; evaluation of small runs")
a("C100", "GP, HierarchicalKriging", "the Kriging weights solve the constrained normal equations; completing the square; the joint covariance of samples and target is positive semidefinite")
a("C101", "GP", "C100 and leaving out the additional samples")
a("C102", "CoKriging", "the joint covariance is positive semidefinite with the jitter positive definite; ordinary Kriging weights; far points make the omitted term positive")
a("C103", "GP, HierarchicalKriging, ScaledKriging, CoKriging", "functional equations: every step of train and predict commutes with the affine map of the responses, for results and exceptions; the counterexample trains on two points in two units")
a("C104", "GP, HierarchicalKriging, ScaledKriging, CoKriging", "the normalised inputs are equal; functional equations for train and predict")
a("C105 C106", "Kernels, GP, HierarchicalKriging, ScaledKriging, CoKriging", "every column of the cross-correlation matrix is a function of the point and the row number, constant beyond the number of samples; permutation matrices")
a("C107", "GP, HierarchicalKriging, ScaledKriging, CoKriging", "equivalences from the success conditions of the single steps; concrete data sets")
a("C108 C109 C110", "MFObjects, GPObjects, ScaledKriging", "ScaledKriging objects hold references to models; a simulation relation between the objects and the value-level model (induction over the evaluations of the bumpiness objective), a frame lemma for everything the discrepancy model does not own; concrete object graphs")
a("C111", "BOAssembled, Acquisitions, HierarchicalKriging, ScaledKriging", "induction over the iterations: the query returns, so a failing iteration fails in the training; shared rows make the interpolating low-fidelity model equal to the low-fidelity responses, so the design column and the responses are independent whatever the later samples")
a("C109 C110 C112", "HKObjects, GPObjects, HierarchicalKriging", "HierarchicalKriging objects with optional attributes and a reference to the low-fidelity model; induction over the history (settings invariant), refinement of a returning training to the value-level model, case analysis of the step that raises; concrete object graphs")
a("C109 C113", "CKObjects, CoKriging", "CoKriging objects with optional attributes and a noise that can be nan; induction over the history with the account of the noise (divided by trainings, multiplied by standard deviations) as invariant, congruence of trainings of objects with equal settings, refinement of a returning training to the value-level model; an absorbing state for equal responses; concrete objects")
a("C114 C115", "GP, Kernels", "the fitted weights are bounded by the nugget and the noise on the diagonal (quadratic form of the covariance), kernel increments by Cauchy-Schwarz in the reproducing form (discriminant), the variance by comparing the best linear predictor with the one that copies a sample")
a("C116", "BOAssembled, Acquisitions", "C114 in every reachable state, bound of the expected improvement by mean and deviation; for PI an explicit two-sample optimiser with an exact search")
a("C117", "GP, HierarchicalKriging, ScaledKriging, CoKriging", "each row of a prediction as a composition of continuous functions")
a("C118", "Acquisitions, BOAssembled", "compactness of the box; for acquisitions cut off at a threshold the minimum over the closed part compared with 0; a trained model with a 0/0 at its first sample as counterexample")
a("C119", "GP, HierarchicalKriging, CoKriging", "continuity of the computed value in parameters and noise (determinant, adjugate, least-squares solution), compactness of the bounds, and the profile-likelihood theorems of C76; an optimiser that returns the smallest value in the box is a hypothesis, shown to be satisfiable")
a("C120 C121 C122", "Evolutionary", "simulation between two runs: the states after n generations are equal (C120), equal up to the transformed values (C121), or equal up to the change of units (C122), by induction on n; the stopping generation is the same because the recorded best values correspond")
a("C123 C124 C125", "NdArray SurrogatesNd ScaledKrigingNd", "arrays with shapes and numpy's broadcasting; the surrogates transcribed line by line on them; refinement: on the documented shapes every call equals the model of the other properties, errors included; elsewhere shape inversion (each successful operation determines the shape of its result), so the failing line is found for all data")
a("C126", "StoredLikelihood", "the stored expression rewritten with v = r'K^-1 r / n as a Gaussian likelihood; C119 for the maximum; log v <= v - 1 for the gap")
a("C127", "GP HierarchicalKriging ScaledKriging CoKriging", "correlations tend to zero along the filter of points with a large coordinate; predictions are continuous functions of the column of correlations (row functions of C105)")
a("C128", "HierarchicalKriging GP", "the trend column is multiplied by a: generalised least squares, likelihood and variance are invariant, so both trainings choose the same hyper-parameters; counterexample by the limits of C127")
a("C129 C130", "Samplers Evolutionary", "measures: an affine map takes the uniform distribution on [0,1] to that on [low, high], products of measures for coordinates and rows; C130 with the running minimum (C02, C10) and positive measure near the minimiser")
a("C131 C132", "BayesOpt BOAssembled Spec/BOUnits", "a change of units is a map between states which commutes with construction, with every iteration and with training (the responses are standardised, so that the surrogates see the same numbers)")
a("C133", "Basis GaussianProcess HierarchicalKriging Spec/Trend", "normalising the inputs maps polynomials to polynomials of the same degree, the scaled responses are in the column space of the basis matrix, so the residual of generalised least squares and the process variance vanish")
a("C134 C135 C136 C137", "SamplerObjects Samplers Spec/SamplerObjects", "programs are lists of operations on a state with design-space arrays, blocks of memory, files and objects; an invariant relates the objects' attributes to the trace of returned arrays and separates the blocks of different calls; induction over programs")
a("C138", "BayesOptHeap BayesOpt Spec/BayesOptHeap", "arrays as blocks of memory with row views; an invariant says which block each view belongs to; a simulation relates runs with and without writes, a second one relates the objects to the model without memory; induction over programs and iterations")
a("C139", "Acquisitions Spec/Acquisitions", "derivatives of the closed formulas: that of the expected improvement in the standard deviation is the normal density; a lower Mills-ratio bound (by a monotone auxiliary function with limit 0) gives the region in which the regularised formula is monotone")
a("C140", "StepResults EvolutionaryRaise Spec/StepResults", "runs emit the list of their external events; a crash is an initial part of it; induction over the loop with an invariant on the counts of iterations, openings and dumps, and on rows not reached being zero")
a("C141", "Evolutionary EvolutionaryRaise GP MFKriging ScaledKriging CoKriging", "simulation between a run and the run with permuted coordinates; matrices of the models are permuted by columns of the trend, and the least-squares solution follows by uniqueness")
a("C142", "MFSamplers SFSamplers", "the scrambled sequence as an oracle with a contract; each fidelity is a block of it by induction over the fidelities; concrete generator for the counterexample")
a("C143", "Problems", "batches of any number of columns; case analysis over all problems with a projection onto the first columns")
a("C144", "ScaledKriging GP", "unfolding one evaluation; induction over the candidates evaluated before; a concrete two-sample process with a dimension-dependent local optimiser for the counterexample")
a("C145", "Figures SamplerObjects", "a figure is the list of series handed to scatter; the array drawn is followed through any program of the sampler heap")
a("C146", "Figures Evolutionary", "the curve as a list of points; the running-minimum invariant of C02/C06 up to the last generation that ran")
a("C147", "UpdateModel CKObjects", "induction over the updates: stored samples, settings and noise; the trained object is a function of these")
a("C148", "EvolutionaryNaN", "values are numbers of a linear order or nan with numpy's comparisons, min and argmin; invariants of the generation loops; equality with the model without nan by simulation")
a("C149 C150 C151 C152", "SamplerArgs Samplers", "constructor arguments as lists of rows with numpy's atleast_2d and broadcasting; simulation of the models on design spaces by induction over rows and fidelities")
a("C153", "Samplers", "algebra per sample, simulation of the loop over the fidelities")
a("C154", "BOAssembled BayesOpt Acquisitions Samplers", "simulation: conversion of points commutes with sampling (C153), training and prediction (C104), each acquisition, each step of the loops; induction over runs")
a("C155", "NonFinite BayesOptNonFinite", "floats with nan and infinities and arbitrary rounding; nan spreads through normalisation and likelihood for all results of cholesky and solve; induction over completed and failed iterations; a concrete failing objective")
a("C156", "BOReports BayesOpt", "loops that return the printed lines beside the result; induction on the budget; chain of completed iterations")
a("C157", "Acquisitions BOAssembled", "the fitted surrogates of reachable states (C88, C89) and the value of CEI (C65); the expected improvement is monotone and 1-Lipschitz in the incumbent; a reachable state as witness")
a("C158", "BayesOpt BOAssembled Spec/ConsUnits", "as C131; feasibility does not change under positive factors, one change of units per constraint surrogate")
a("C159", "Constructors Spec/KernelBounds", "induction over programs of trainings and optimiser changes; each training ends with a search that stays in its bounds; trained objects as witnesses")
a("C160", "Acquisitions Spec/CostRatio", "the low-fidelity value is affine in the cost ratio with non-positive slope, the high-fidelity value does not depend on it; minimality of the choice (C60)")
a("C161", "Samplers", "characterisation of get_samples per fidelity (C20, C21); the scaled unit design is Latin (C16); a lawful engine as witness")
a("C162", "HierarchicalKriging ScaledKriging CoKriging", "the low-fidelity training does not see the high-fidelity data; for co-Kriging affine equivariance of generalised least squares; two concrete trainings as witness")
a("C163", "Evolutionary Spec/Uniform", "runs share prefixes (C120); invariants over all generations (cubes for DE, a quadratic energy for PSO) that trap a population near a local minimum; such starts have positive probability")
a("C164", "NonFinite NonFinitePredict", "the standard deviation of the responses is nan and multiplies every prediction; a bad low-fidelity response reaches the basis (hierarchical), the sum (scaled) or the process variance (co-Kriging)")
a("C165", "GP MFKriging Spec/NativeSpace", "Cauchy-Schwarz for the kernel: the reported epistemic variance is the squared norm of the error functional (C100)")
a("C166", "GPObjects HKObjects MFObjects CKObjects Spec/Untrained", "invariant of all histories in which no training returned: the last attributes assigned by a training do not exist; a bumpiness search as witness")
a("C167", "ScaledKriging", "the criterion is convex, so a local minimum within the bounds is global; closed form by completing the square")
a("C168", "Kernels", "Euclidean distance is at least every coordinate difference; three points on a line as witness")
a("C169", "BayesOptNonFinite", "one row per design is an invariant of every history with exceptions; np.min is nan or the smallest extended real number; count of satisfied constraints equals their number iff all are satisfied")
a("C170", "Problems", "continuity on a compact box; the jump of mf_Discontinuous is upwards; both factors of mf_CurrinExp separately; a lower bound proportional to x1 for mf_Park91A")
a("C171", "BOAssembled, BayesOpt, Acquisitions", "simulation between the two sessions; the product in the acquisition is commutative, every training uses the generator equally")
a("C172", "Data", "store of list objects; induction over the program")
a("C173", "BayesOpt, Rounded", "two floats that differ are apart by a power of two not small against either, so neither the difference nor the quotient rounds to zero; monotone rounding; C51")
a("C174 C175", "SamplerObjects Spec/SamplerHistory", "invariance of class, arguments and bounds of an object under all programs that do not write into its design space; seeded draws do not look at, and do not change, the state of the generators; counterexamples in the concrete world exEnv")
a("C176 C177", "RoundedKernel Spec/RoundedKernel", "every operation rounded to nearest, sums and scalar products in any order and with or without fused multiply-add (inductive relations); induction over the order of summation with accumulated relative errors and gradual underflow; positive definiteness by comparison with the exact Gaussian matrix, the nugget outweighing n times the entrywise error; the counterexample evaluates sqrt(10) in double precision for every tie rule")
a("C178", "Kriging HierarchicalKriging ScaledKriging CoKriging Basis", "the trend columns at mirrored points span the same space (linear algebra over the span of the trend functions); generalised least squares on another basis of the same column space gives the same fit, likelihood and mean squared error; the kernel depends on differences only")
a("C179", "RoundedCholesky Spec/RoundedCholesky", "the factorisation as a relation (any order of the subtractions, any blocking, fused or not, division or multiplication by the reciprocal of the pivot); induction over the columns: if the columns computed so far reproduce the matrix, a vector in the kernel of the computed rows shows that the next pivot stays positive, which bounds the entries and hence the rounding errors of the next column")
a("C180", "Overflow Spec/Overflow", "IEEE floats with infinities and nan; invariant: points in the box and velocities below a power of two, hence no intermediate result overflows and every step is the step of the model without overflow; counterexamples by following the default settings for two generations with an arbitrary objective")
a("C181", "RoundedNormalize", "mean and standard deviation as relations (any order of summation); sums of equal numbers with exact multiples are exact by induction over the order; lower bound of the computed variance by monotonicity of rounding; error analysis of the round trip; counterexample with both outcomes of the tie in 3 * 0.1")
a("C182", "RoundedCoKriging", "error analysis of every block of the joint matrix on top of C176; the exact matrix is positive semidefinite, so the computed one is bounded below by the jitter minus the errors, and C179 applies; counterexample by exact evaluation of all roundings")
a("C183", "RoundedAcquisition", "relative errors of the standardised improvement cost only an absolute error in the distribution function and density, since z*phi(z) and z^2*phi(z) are bounded; then error analysis of sums and products; induction over the ways to compute a product")
a("C184", "RoundedPredict", "error of scalar products in any order (C176) for nearby factors, then of the sum and of scaling back; at samples combined with the residual of the equations the coefficients solve")
a("C185", "RoundedLatin", "the unit samples sorted along an axis; error of the three operations of scale_samples; rounding is monotone")
a("C186", "RoundedMFAcquisition", "relative error of the argument for standard deviations of at least 2^-52, Lipschitz bounds for the normal distribution under relative errors (C183), then the chain of products")
a("C187", "RoundedMFPredict", "as C184, with the trend replaced by the normalised low-fidelity prediction, whose error enters times the regression coefficient")
a("C188 C189", "HierarchicalKriging, ScaledKriging, CoKriging", "as C114 and C115 for a fit with any trend matrix; the low-fidelity prediction of one point in two rows differs by the nuggets only; for co-Kriging the joint covariance dominates its jitter and noise, and the best linear predictor is compared with the one that copies a sample")
a("C190", "RoundedCKPredict", "errors of the covariances as in C182, a scalar product of approximate numbers of bounded size, and the last steps as in C184; at samples a row of the joint matrix against the exact covariances")
a("C191", "NoiseFloor", "the best linear unbiased weights of C100: the error without nugget is a positive semidefinite form, the nugget adds at least -1e-10; at a sample in its own row the weights that pick the sample have error -1e-10 plus the scaled noise")
a("C192", "RoundedStd", "the root of a rounded square is nearer to the number than half the distance to the next float, so rounding returns the number; the rest by monotonicity of rounding; accuracies by error propagation")
a("C193", "SlowCK", "the quadratic form of the joint covariance bounds those of its two processes (the nuggets of the blocks add up to a sum of squares); then the increments of C115 for each process")
#--more--

def main():
    props = [json.loads(l) for l in open(os.path.join(R, "properties.jsonl"))]
    stat = {c["property"]: c for c in json.load(open(os.path.join(R, "MANIFEST.json")))["claims"]}
    rows = ["| id | property | status | model files | proof |", "|----|----|----|----|----|"]
    for p in props:
        m, h = A[p["id"]]
        rows.append(f"| {p['id']} | {p['title']} | {stat[p['id']]['status']} | {m} | {h} |")
    path = os.path.join(R, "DESIGN.md")
    s = open(path).read()
    b, e = "<!-- table -->", "<!-- end table -->"
    i, j = s.index(b) + len(b), s.index(e)
    s = s[:i] + "\n" + "\n".join(rows) + "\n" + s[j:]
    fb, fe = "<!-- findings -->", "<!-- end findings -->"
    i, j = s.index(fb) + len(fb), s.index(fe)
    out = [f"* **{p['id']} {p['title']}.** {stat[p['id']]['note']}" for p in props if stat[p['id']]['status'] == "partial"]
    s = s[:i] + "\n" + "\n".join(out) + "\n" + s[j:]
    open(path, "w").write(s)

if __name__ == "__main__":
    main()
