# Formal model of mfpml in Lean 4 — design

Subject: `/repo` (JiaxiangYi96/mfpml, python). Model and proofs: `/verif/lean/Verif`.
Properties: `properties.jsonl` (C01…). Status per property: `MANIFEST.json`.

## 1. Layout

* `Verif/Model/*.lean` — the model, one file per source file or group. Every definition cites the file and lines it models.
* `Verif/Spec/*.lean` — the small vocabulary used in the property statements (boxes, running minima, Latin designs, Gaussian likelihood, expected improvement as an integral, contracts of external code).
* `Verif/Lemmas/*.lean` — helper lemmas, no property statements.
* `Verif/Props/*.lean` — the property theorems, named after the property (`C01_…`), each followed by a concrete case that meets its hypotheses.
* `tools/` — generators for `properties.jsonl`, `MANIFEST.json`, the table below, the interval certificates; and the runner for wrong programs (`mutate.py`).
* `seeded/LOG.jsonl` — the wrong programs the theorems were tried against.

| model file | source |
|----|----|
| `Prelude` | exceptions |
| `Evolutionary`, `EvolutionaryRaise` | `optimization/evolutionary_algorithms.py` (PSO, DE); the second file with an objective that may raise |
| `Samplers` | `design_of_experiment/sf_samplers.py`, `mf_samplers.py` |
| `Kernels`, `Basis`, `Normalize`, `LinAlg` | `models/kernels.py`, `basis_functions.py`, normalisation helpers, numpy's linear algebra |
| `GP`, `GPOptimizers` | `models/gaussian_process.py`; hyper-parameter search with a PSO or DE object |
| `GPObjects` | the same class as objects that share kernels and arrays, with `train` calls that raise midway |
| `MFObjects`, `HKObjects`, `CKObjects` | the multi-fidelity models as objects: shared models and arrays, trainings that raise midway, retraining |
| `HierarchicalKriging`, `ScaledKriging`, `CoKriging` | `models/hierarchical_kriging.py`, `scale_kriging.py`, `co_kriging.py`, `mf_gaussian_process.py` |
| `Normal`, `Acquisitions` | `optimization/*_acqusitions.py` |
| `EvolutionaryHeap` | `PSO` and `DE` objects whose arrays are shared with the objective function and with the returned results |
| `Rounded` | the arithmetic of `float64` arrays: binary floating point, every operation rounded to nearest |
| `RoundedKernel` | kernels.py, the covariance matrix of the training samples and normalize_input in floating-point arithmetic (sums in any order, exp of a given accuracy) |
| `RoundedCholesky` | `np.linalg.cholesky` of the covariance matrices in floating-point arithmetic (any order of the operations) |
| `RoundedNormalize` | normalisation of responses and its inverse in floating-point arithmetic (any order of summation) |
| `RoundedCoKriging` | joint covariance matrix of co-Kriging in floating-point arithmetic |
| `RoundedAcquisition` | EI, PI, LCB and CEI at one point in floating-point arithmetic (`norm.cdf`, `norm.pdf` any functions with a given accuracy) |
| `RoundedPredict` | means of `GaussianProcessRegression.predict` in floating-point arithmetic, for given coefficients |
| `RoundedMFAcquisition` | `AugmentedEI`, `VFEI`, `VFLCB`, `ExtendedPI` at one point in floating-point arithmetic, for given predictions |
| `RoundedMFPredict` | means of `HierarchicalKriging.predict` and `ScaledKriging.predict` in floating-point arithmetic, for given coefficients |
| `RoundedCKPredict` | mean of `CoKriging.predict` in floating-point arithmetic, for given weights |
| `RoundedStd` | last steps of the standard deviations of all four models in floating-point arithmetic, for given mean squared errors |
| `Overflow` | `PSO`, `DE` and the samplers with floats that overflow: infinities and `nan` as coordinates |
| `BayesOpt` | `sf_uncons_bo.py`, `sf_cons_bo.py`, `mf_uncons_bo.py`, for every sampler, surrogate and acquisition |
| `BOAssembled` | the same, with the library's own sampler, surrogates and acquisitions filled in |
| `NdArray`, `SurrogatesNd`, `ScaledKrigingNd` | numpy arrays with shapes and broadcasting; the surrogates transcribed on them (standard deviations of Kriging, hierarchical Kriging and scaled Kriging only) |
| `Problems` | `problems/functions.py`, `sf_functions.py`, `sf_cons_functions.py`, `mf_functions.py` |

## 2. Modelling decisions

1. **Numbers.** The optimisers and samplers are modelled over *any* type with `+ - * /`, `0` and a linear order, with no laws assumed. Their theorems say what they need:
   the bookkeeping, stopping, selection, nesting and reproducibility theorems (C02-C05, C07, C09-C14, C17-C21, C23-C25, C83) need no law of arithmetic at all, so they hold for rounded operations too;
   the bookkeeping of the Bayesian-optimisation loops over any sampler, surrogate and acquisition (C51-C56, C58, C59, C77, C78) needs none either, and C173 says what their stopping error means in floating point;
   confinement (C01, C08, C15, C22) needs that scaling a draw leads into the box, which is proved for exact arithmetic and for floating-point arithmetic (C96, `Rounded`);
   the remaining ones (C06, C12, C16, C84 and everything with a concrete surrogate) are about exact arithmetic: a linearly ordered field, or `ℝ` where the code uses `exp`, `log`, `sqrt` or linear algebra.
   There rounding is not modelled; overflow is modelled in `Model/Overflow.lean` only (C180). Operations that would produce `nan`/`inf`
   (division by zero, `log` of a non-positive number) are explicit errors (`PyErr.nonFinite`; `none` for an entry of a response array in `Problems`), never Lean's junk value.
   `EvolutionaryNaN` has objective values that may be `nan`, with numpy's comparisons (C148).
   `NonFinite` and `BayesOptNonFinite` have floats with `nan` and both infinities and an arbitrary rounding, for the training and the Bayesian optimisers (C155).
   In particular constant responses, whose standard deviation is zero, give `nonFinite` where the code goes on with `nan`.
   `float("inf")`/`np.inf` used as an initial value is the top of `WithTop`.
2. **Exceptions** are values: functions that can raise return `Py α = Except PyErr α`. Exception classes are kept, messages are not.
3. **Arrays.** An array with shape `(n, d)` is `Fin n → Fin d → K` (or `Matrix`); a `(n, 1)` column is a vector. Lists are used where the number of rows changes
   or where a length mismatch is an observable error. `NdArray` has arrays with 0, 1 or 2 axes whose shapes are part of the value; C123 proves that the surrogates transcribed on them agree with
   the other model on the documented shapes.
4. **Randomness** is an explicit, universally quantified argument: the arrays returned by `np.random.random`, the indices returned by `np.random.choice`
   (with "no repetition" as the contract of `replace=False`), unit-cube samples of scipy's engines. numpy's *global* generator is explicit state where its sharing matters.
5. **External solvers** (`scipy.optimize.minimize`, `differential_evolution`) are arbitrary functions subject to a written contract
   (`GoodMinimizer`, `GoodPopOptimizer`, `GoodSearch`, `ApproxSearch`, `Lawful`): the result is in the box, the reported value is the objective at the reported point.
   Contracts are hypotheses of the theorems that need them and are shown satisfiable. For PSO and DE objects the contract is a theorem (C84).
6. **Linear algebra.** `numpy.linalg.cholesky K` is *specified*: it returns the lower triangular factor with positive diagonal if there is one and raises `LinAlgError`
   otherwise. `solve A B` is `A⁻¹ B` if `A` is invertible, `LinAlgError` otherwise.
7. **Objects** are records; a method is a function from the record to the new record, so in-place mutation is visible.

Simplifications per module (also said at the definitions):

* *PSO, DE*: the objective is a function of the array and returns a new array of the right length (`EvolutionaryRaise` adds exceptions); `num_dim` is the number of rows of `design_space`; a negative velocity bound is `outOfModel`.
* *Samplers*: `Samplers` has two-dimensional design spaces; the other forms of arguments (flat lists, `num_fidelity=None` with an array, different dimensions per fidelity) are in `SamplerArgs` (C149-C152).
  Not modelled: `RandomSampler` without a seed, negative sizes, memory errors of scipy's Sobol engine.
* *Quadratic basis*: the shape check of an assignment is stricter than numpy's broadcasting; the loop never meets the difference.
* *Surrogates*: responses are columns `(n, 1)` (other shapes: `SurrogatesNd`). Training times and plots are left out; the stored log-likelihood is modelled separately (`StoredLikelihood`), since nothing reads it again. `np.log(0)` is `nonFinite` where numpy gives `-inf`.
* *Problems*: sample arrays are two-dimensional; element types are floats or integers (the latter only matters for `mf_CurrinExp`).

## 3. Properties, model, proof

<!-- table -->
| id | property | status | model files | proof |
|----|----|----|----|----|
| C01 | PSO stays in the design space | proved | Evolutionary | invariant of the generation loop, induction on generations; the log of all evaluated populations is part of the model |
| C02 | PSO best history is the running minimum | proved | Evolutionary | invariant of the generation loop, induction on generations; the log of all evaluated populations is part of the model |
| C03 | PSO best point attains the best value | proved | Evolutionary | invariant of the generation loop, induction on generations; the log of all evaluated populations is part of the model |
| C04 | PSO result dictionary agrees with the returned optimum | partial | Evolutionary | false after an early stop: run with rows of zeros as witness; runs that use all generations by the loop invariant |
| C05 | PSO stopping rule | proved | Evolutionary | invariant of the generation loop, induction on generations; the log of all evaluated populations is part of the model |
| C06 | PSO step is bounded or resampled | proved | Evolutionary | invariant of the generation loop, induction on generations; the log of all evaluated populations is part of the model |
| C07 | PSO personal bests | proved | Evolutionary | invariant of the generation loop, induction on generations; the log of all evaluated populations is part of the model |
| C08 | DE stays in the design space | proved | Evolutionary | loop invariant; donor and crossover lemmas per individual, both strategies |
| C09 | DE selection is greedy and elitist | proved | Evolutionary | loop invariant; donor and crossover lemmas per individual, both strategies |
| C10 | DE best history is the running minimum and is attained | proved | Evolutionary | loop invariant; donor and crossover lemmas per individual, both strategies |
| C11 | DE result dictionary agrees with the returned optimum | partial | Evolutionary | false after an early stop: run with rows of zeros as witness; runs that use all generations by the loop invariant |
| C12 | DE mutation partners are distinct | partial | Evolutionary | false: witness for a collision after the fix-up; case analysis for what does hold |
| C13 | DE binomial crossover | proved | Evolutionary | case analysis of the crossover mask and of every error exit |
| C14 | Evolutionary optimisers: degenerate settings | proved | Evolutionary | case analysis of the crossover mask and of every error exit |
| C15 | Single-fidelity samples fill the requested shape inside the bounds | proved | Samplers | algebra on the affine map; permutations of strata for the Latin hypercube |
| C16 | Latin hypercube stratification survives scaling | proved | Samplers | algebra on the affine map; permutations of strata for the Latin hypercube |
| C17 | RandomSampler is reproducible from its seed | proved | Samplers | algebra on the affine map; permutations of strata for the Latin hypercube |
| C18 | SobolSequence returns the requested block of the sequence | partial | Samplers | Sobol engine as a state machine with scipy's capacity; false above 30 samples, proved for every size |
| C19 | FixNumberSampler repeats the given point | proved | Samplers | algebra on the affine map; permutations of strata for the Latin hypercube |
| C20 | Multi-fidelity sampler returns the requested sizes | proved | Samplers | induction on the list of sizes |
| C21 | Nested multi-fidelity samples are nested | proved | Samplers | induction on the list of sizes |
| C22 | Multi-fidelity samples respect each fidelity's bounds | partial | Samplers | false as stated: witnesses or universally quantified negations; partial theorems by the same inductions |
| C23 | Non-nested Sobol samples differ between fidelities | partial | Samplers | false as stated: witnesses or universally quantified negations; partial theorems by the same inductions |
| C24 | Multi-fidelity samplers are reproducible from the seed | partial | Samplers | false as stated: witnesses or universally quantified negations; partial theorems by the same inductions |
| C25 | get_samples does not modify its arguments | partial | Samplers | false as stated: witnesses or universally quantified negations; partial theorems by the same inductions |
| C26 | RBF kernel values | proved | Kernels, Basis | entrywise formulas; positive definiteness of the Gaussian kernel by Schur products of exponential series; double-loop invariant for the quadratic basis |
| C27 | RBF kernel matrices are positive definite | proved | Kernels, Basis | entrywise formulas; positive definiteness of the Gaussian kernel by Schur products of exponential series; double-loop invariant for the quadratic basis |
| C28 | Basis functions | proved | Kernels, Basis | entrywise formulas; positive definiteness of the Gaussian kernel by Schur products of exponential series; double-loop invariant for the quadratic basis |
| C29 | Input normalisation | proved | Normalize | algebra |
| C30 | Output normalisation | proved | Normalize | algebra |
| C31 | GP training succeeds | proved | GP, LinAlg | existence of the Cholesky factor from positive definiteness; invertibility of the trend system from independent columns |
| C32 | GP hyper-parameter restarts keep the best | proved | GP | invariant of the restart loop |
| C33 | GP trend is the generalised least-squares solution | proved | GP | normal equations; completing the square in the K⁻¹ norm |
| C34 | Noise-free GP interpolates | proved | GP | block algebra over the solved system; Schur complement |
| C35 | GP predictive standard deviation | proved | GP | block algebra over the solved system; Schur complement |
| C36 | GP predictions do not depend on the batch | partial | GP, Kernels | false: exact formula for the nugget position, witness |
| C37 | Asking for the standard deviation does not change the mean | partial | GP, HierarchicalKriging, ScaledKriging, CoKriging | unfolding both calls; false for scaled Kriging, exact difference and witness |
| C38 | Retraining re-estimates the noise | partial | GP, HierarchicalKriging, ScaledKriging | false: the kept noise as an invariant of trainings, witness |
| C39 | GP predictions are equivariant under affine changes of the response | proved | GP | equivariance of mean, std and of every solved system; permutation matrices |
| C40 | GP likelihood does not depend on sample order | proved | GP | equivariance of mean, std and of every solved system; permutation matrices |
| C41 | Hierarchical Kriging interpolates the high-fidelity data | proved | HierarchicalKriging | algebra over the same generalised least-squares core |
| C42 | Hierarchical Kriging uncertainty is at least the noise | proved | HierarchicalKriging | algebra over the same generalised least-squares core |
| C43 | Scaled Kriging reproduces the high-fidelity data | partial | ScaledKriging | algebra; exact condition under which predict(X) fails |
| C44 | Scaled Kriging: rho options | proved | ScaledKriging | algebra; exact condition under which predict(X) fails |
| C45 | Scaled Kriging error objective | proved | ScaledKriging | algebra; exact condition under which predict(X) fails |
| C46 | CoKriging.predict is read-only | partial | CoKriging | false: closed form of the k-th call by induction on calls |
| C47 | CoKriging noise level is stable under retraining | partial | CoKriging | false: closed form of the k-th call by induction on calls |
| C48 | CoKriging covariance is positive definite | proved | CoKriging | block matrix as a sum of a Gram matrix and a positive definite part |
| C49 | CoKriging reproduces the high-fidelity data up to the jitter | proved | CoKriging | block algebra |
| C50 | Co-Kriging low-fidelity predictions are in response units | proved | CoKriging | block algebra |
| C51 | Single-fidelity BO reports the best evaluated point | proved | BayesOpt | invariants of the loop over every sampler, surrogate and acquisition |
| C52 | Single-fidelity BO evaluation budget and stopping | proved | BayesOpt | invariants of the loop over every sampler, surrogate and acquisition |
| C53 | Single-fidelity BO can be resumed | proved | BayesOpt | invariants of the loop over every sampler, surrogate and acquisition |
| C54 | Multi-fidelity BO best is a high-fidelity optimum | proved | BayesOpt | loop invariants of the multi-fidelity loop |
| C55 | Multi-fidelity BO bookkeeping | proved | BayesOpt | loop invariants of the multi-fidelity loop |
| C56 | BO with unknown optimum uses the whole budget | partial | BayesOpt | false for the multi-fidelity optimiser for every reachable state; loop bound for the others |
| C57 | Error measure | proved | BayesOpt | invariants of the loop over every sampler, surrogate and acquisition |
| C58 | Constrained BO reports the best feasible value | proved | BayesOpt | loop invariant; false for best_x on ties, witness |
| C59 | Constrained BO best_x is feasible | partial | BayesOpt | loop invariant; false for best_x on ties, witness |
| C60 | Multi-fidelity query picks the better fidelity | proved | Acquisitions | case analysis of query; failure with an optimiser object for every run |
| C61 | Acquisitions accept a custom optimizer | partial | Acquisitions | case analysis of query; failure with an optimiser object for every run |
| C62 | Expected improvement is non-negative | partial | Acquisitions, Normal | integral of the improvement under the normal law; false by less than 1e-9, witness and bound |
| C63 | Probability of improvement is a probability | proved | Acquisitions, Normal | monotonicity of the normal distribution function; algebra |
| C64 | Lower confidence bound | proved | Acquisitions, Normal | monotonicity of the normal distribution function; algebra |
| C65 | Constrained EI weighting | partial | Acquisitions, Normal | monotonicity of the normal distribution function; algebra |
| C66 | Augmented EI | partial | Acquisitions | real analysis of each factor; false parts by witness or for all inputs |
| C67 | VFEI | partial | Acquisitions | real analysis of each factor; false parts by witness or for all inputs |
| C68 | Test functions are evaluated row by row | proved | Problems | per-function expansion; induction on rows |
| C69 | Documented optima are global minima | partial | Problems | sums of squares and trigonometric identities where the optimum is exact; otherwise a verified interval branch-and-bound checker (section 4) |
| C70 | Documented optimum schemes attain the optimum | partial | Problems | sums of squares and trigonometric identities where the optimum is exact; otherwise a verified interval branch-and-bound checker (section 4) |
| C71 | Low-fidelity functions are the documented transforms of the high-fidelity ones | partial | Problems | per-function expansion; induction on rows |
| C72 | Problems are defined on their whole input domain | partial | Problems | per-function expansion; induction on rows |
| C73 | Problem instances are independent | partial | Problems | constructor calls as a state machine on class attributes; induction on call sequences; witnesses |
| C74 | Dimension checks | partial | Problems | constructor calls as a state machine on class attributes; induction on call sequences; witnesses |
| C75 | Multi-fidelity problem call | partial | Problems | constructor calls as a state machine on class attributes; induction on call sequences; witnesses |
| C76 | The number minimised in training is the negative log-likelihood | proved | GP, HierarchicalKriging, ScaledKriging, CoKriging | determinant of the Cholesky factor; comparison with the Gaussian density of the specification |
| C77 | Multi-fidelity and constrained BO: budget and resumption | proved | BayesOpt | loop invariants with exceptions; witness for the false part |
| C78 | BO recovers from exceptions | partial | BayesOpt | loop invariants with exceptions; witness for the false part |
| C79 | Multi-fidelity hyper-parameter search keeps the best restart within the bounds | proved | HierarchicalKriging, ScaledKriging, CoKriging | invariant of the restart loops |
| C80 | Multi-fidelity BO works with every surrogate it accepts | partial | Acquisitions, BayesOpt, HierarchicalKriging, ScaledKriging | every query of a trained HK or SK model returns, because each method it calls does; every query with co-Kriging fails |
| C81 | Unknown fidelities are rejected | proved | Acquisitions, BayesOpt, HierarchicalKriging, ScaledKriging | every query of a trained HK or SK model returns, because each method it calls does; every query with co-Kriging fails |
| C82 | Extended probability of improvement | partial | Acquisitions | real analysis of each factor; false parts by witness or for all inputs |
| C83 | Exceptions of the objective reach the caller of PSO and DE | proved | EvolutionaryRaise | simulation between the run with a raising objective and the run with a total one |
| C84 | Hyper-parameter searches with the library's own PSO and DE | proved | GPOptimizers | C01-C14 applied to the likelihood as objective |
| C85 | Single-fidelity BO stays in the input domain | proved | BOAssembled | loop invariant of the assembled optimiser: samples in the domain, surrogate trained on the whole history |
| C86 | When single-fidelity BO works | proved | BOAssembled | loop invariant of the assembled optimiser: samples in the domain, surrogate trained on the whole history |
| C87 | Equal seeds give equal Bayesian optimisers | proved | BOAssembled | loop invariant of the assembled optimiser: samples in the domain, surrogate trained on the whole history |
| C88 | The BO surrogate always knows the whole history | proved | BOAssembled | loop invariant of the assembled optimiser: samples in the domain, surrogate trained on the whole history |
| C89 | Constrained BO: domain and completion | proved | BOAssembled | the same invariants for the constrained and the multi-fidelity optimiser; sampler theorems C20-C25 |
| C90 | Multi-fidelity BO: domain and surrogate | proved | BOAssembled | the same invariants for the constrained and the multi-fidelity optimiser; sampler theorems C20-C25 |
| C91 | num_init of multi-fidelity BO | partial | BOAssembled | the same invariants for the constrained and the multi-fidelity optimiser; sampler theorems C20-C25 |
| C92 | A training that raises changes nothing | partial | GPObjects | heap of models, kernels and arrays; frame theorem by induction on programs; refinement to the value-level model GP; witnesses for sharing and failed trainings |
| C93 | Predictions depend on the data at training time only | partial | GPObjects | heap of models, kernels and arrays; frame theorem by induction on programs; refinement to the value-level model GP; witnesses for sharing and failed trainings |
| C94 | Models do not disturb each other | partial | GPObjects | heap of models, kernels and arrays; frame theorem by induction on programs; refinement to the value-level model GP; witnesses for sharing and failed trainings |
| C95 | Retraining forgets the past | proved | GPObjects | heap of models, kernels and arrays; frame theorem by induction on programs; refinement to the value-level model GP; witnesses for sharing and failed trainings |
| C96 | Rounding does not push points out of the design space | proved | Rounded, Evolutionary, Samplers | the comparison-only theorems hold in every arithmetic; binary floating point with any rounding to nearest is one; the width of the box, shrunk by a factor below one and rounded, is at most the exact width (normal forms of floats, cases at powers of two and in the subnormal range) |
| C97 | Optimiser objects can be used again | proved | EvolutionaryHeap | memory with addresses; a simulation between two memories through a state without addresses; histories of a run are newly allocated and no other run writes to them (induction over the program) |
| C98 | Objective functions may return the same array every time | partial | EvolutionaryHeap | refinement of the value model by the model with shared arrays, cases on which array is returned; invariants for the constant-array case; evaluation of a two-member run |
| C99 | Optimisers leave the objective's arrays alone | partial | EvolutionaryHeap | the same invariants: addresses of arguments and returned arrays, and who writes to them; evaluation of small runs |
| C100 | Predictions are best linear unbiased predictions | proved | GP, HierarchicalKriging | the Kriging weights solve the constrained normal equations; completing the square; the joint covariance of samples and target is positive semidefinite |
| C101 | More samples, less relative uncertainty | proved | GP | C100 and leaving out the additional samples |
| C102 | Co-Kriging predictions and their standard deviation | partial | CoKriging | the joint covariance is positive semidefinite with the jitter positive definite; ordinary Kriging weights; far points make the omitted term positive |
| C103 | Predictions do not depend on the units of the responses | partial | GP, HierarchicalKriging, ScaledKriging, CoKriging | functional equations: every step of train and predict commutes with the affine map of the responses, for results and exceptions; the counterexample trains on two points in two units |
| C104 | Predictions do not depend on the units of the inputs | proved | GP, HierarchicalKriging, ScaledKriging, CoKriging | the normalised inputs are equal; functional equations for train and predict |
| C105 | Multi-fidelity predictions do not depend on the batch | partial | Kernels, GP, HierarchicalKriging, ScaledKriging, CoKriging | every column of the cross-correlation matrix is a function of the point and the row number, constant beyond the number of samples; permutation matrices |
| C106 | Kriging predictions do not depend on the order of the samples | partial | Kernels, GP, HierarchicalKriging, ScaledKriging, CoKriging | every column of the cross-correlation matrix is a function of the point and the row number, constant beyond the number of samples; permutation matrices |
| C107 | Multi-fidelity models can be trained on varying responses | partial | GP, HierarchicalKriging, ScaledKriging, CoKriging | equivalences from the success conditions of the single steps; concrete data sets |
| C108 | Scaled Kriging works with the models it is given | partial | MFObjects, GPObjects, ScaledKriging | ScaledKriging objects hold references to models; a simulation relation between the objects and the value-level model (induction over the evaluations of the bumpiness objective), a frame lemma for everything the discrepancy model does not own; concrete object graphs |
| C109 | A multi-fidelity training that raises changes no predictions | partial | MFObjects, GPObjects, ScaledKriging; HKObjects, GPObjects, HierarchicalKriging; CKObjects, CoKriging | ScaledKriging objects hold references to models; a simulation relation between the objects and the value-level model (induction over the evaluations of the bumpiness objective), a frame lemma for everything the discrepancy model does not own; concrete object graphs. Also: HierarchicalKriging objects with optional attributes and a reference to the low-fidelity model; induction over the history (settings invariant), refinement of a returning training to the value-level model, case analysis of the step that raises; concrete object graphs. Also: CoKriging objects with optional attributes and a noise that can be nan; induction over the history with the account of the noise (divided by trainings, multiplied by standard deviations) as invariant, congruence of trainings of objects with equal settings, refinement of a returning training to the value-level model; an absorbing state for equal responses; concrete objects |
| C110 | Writing into the response arrays after a multi-fidelity training changes no predictions | partial | MFObjects, GPObjects, ScaledKriging; HKObjects, GPObjects, HierarchicalKriging | ScaledKriging objects hold references to models; a simulation relation between the objects and the value-level model (induction over the evaluations of the bumpiness objective), a frame lemma for everything the discrepancy model does not own; concrete object graphs. Also: HierarchicalKriging objects with optional attributes and a reference to the low-fidelity model; induction over the history (settings invariant), refinement of a returning training to the value-level model, case analysis of the step that raises; concrete object graphs |
| C111 | When multi-fidelity Bayesian optimisation raises | proved | BOAssembled, Acquisitions, HierarchicalKriging, ScaledKriging | induction over the iterations: the query returns, so a failing iteration fails in the training; shared rows make the interpolating low-fidelity model equal to the low-fidelity responses, so the design column and the responses are independent whatever the later samples |
| C112 | Retraining a hierarchical Kriging model forgets the past | proved | HKObjects, GPObjects, HierarchicalKriging | HierarchicalKriging objects with optional attributes and a reference to the low-fidelity model; induction over the history (settings invariant), refinement of a returning training to the value-level model, case analysis of the step that raises; concrete object graphs |
| C113 | Retraining a co-Kriging model forgets the past | partial | CKObjects, CoKriging | CoKriging objects with optional attributes and a noise that can be nan; induction over the history with the account of the noise (divided by trainings, multiplied by standard deviations) as invariant, congruence of trainings of objects with equal settings, refinement of a returning training to the value-level model; an absorbing state for equal responses; concrete objects |
| C114 | Predictions at evaluated points in any batch | proved | GP, Kernels | the fitted weights are bounded by the nugget and the noise on the diagonal (quadratic form of the covariance), kernel increments by Cauchy-Schwarz in the reproducing form (discriminant), the variance by comparing the best linear predictor with the one that copies a sample |
| C115 | Kriging predictions vary slowly | proved | GP, Kernels | the fitted weights are bounded by the nugget and the noise on the diagonal (quadratic form of the covariance), kernel increments by Cauchy-Schwarz in the reproducing form (discriminant), the variance by comparing the best linear predictor with the one that copies a sample |
| C116 | Acquisitions do not propose an evaluated point again | partial | BOAssembled, Acquisitions | C114 in every reachable state, bound of the expected improvement by mean and deviation; for PI an explicit two-sample optimiser with an exact search |
| C117 | Predictions are continuous | proved | GP, HierarchicalKriging, ScaledKriging, CoKriging | each row of a prediction as a composition of continuous functions |
| C118 | The search problems of the acquisitions have a solution | partial | Acquisitions, BOAssembled | compactness of the box; for acquisitions cut off at a threshold the minimum over the closed part compared with 0; a trained model with a 0/0 at its first sample as counterexample |
| C119 | Training is maximum likelihood estimation | partial | GP, HierarchicalKriging, CoKriging | continuity of the computed value in parameters and noise (determinant, adjugate, least-squares solution), compactness of the bounds, and the profile-likelihood theorems of C76; an optimiser that returns the smallest value in the box is a hypothesis, shown to be satisfiable |
| C120 | Longer optimiser runs extend shorter ones | proved | Evolutionary | simulation between two runs: the states after n generations are equal (C120), equal up to the transformed values (C121), or equal up to the change of units (C122), by induction on n; the stopping generation is the same because the recorded best values correspond |
| C121 | Only the order of the objective values matters to the optimisers | proved | Evolutionary | simulation between two runs: the states after n generations are equal (C120), equal up to the transformed values (C121), or equal up to the change of units (C122), by induction on n; the stopping generation is the same because the recorded best values correspond |
| C122 | The units of the design variables do not matter to the optimisers | proved | Evolutionary | simulation between two runs: the states after n generations are equal (C120), equal up to the transformed values (C121), or equal up to the change of units (C122), by induction on n; the stopping generation is the same because the recorded best values correspond |
| C123 | Flat and column responses give the same model | partial | NdArray SurrogatesNd ScaledKrigingNd | arrays with shapes and numpy's broadcasting; the surrogates transcribed line by line on them; refinement: on the documented shapes every call equals the model of the other properties, errors included; elsewhere shape inversion (each successful operation determines the shape of its result), so the failing line is found for all data |
| C124 | A wrong number of responses is reported | partial | NdArray SurrogatesNd ScaledKrigingNd | arrays with shapes and numpy's broadcasting; the surrogates transcribed line by line on them; refinement: on the documented shapes every call equals the model of the other properties, errors included; elsewhere shape inversion (each successful operation determines the shape of its result), so the failing line is found for all data |
| C125 | Sample arrays of a wrong shape are reported | partial | NdArray SurrogatesNd ScaledKrigingNd | arrays with shapes and numpy's broadcasting; the surrogates transcribed line by line on them; refinement: on the documented shapes every call equals the model of the other properties, errors included; elsewhere shape inversion (each successful operation determines the shape of its result), so the failing line is found for all data |
| C126 | The stored log-likelihood is the maximised one | partial | StoredLikelihood | the stored expression rewritten with v = r'K^-1 r / n as a Gaussian likelihood; C119 for the maximum; log v <= v - 1 for the gap |
| C127 | Far from the data predictions return to the trend | partial | GP HierarchicalKriging ScaledKriging CoKriging | correlations tend to zero along the filter of points with a large coordinate; predictions are continuous functions of the column of correlations (row functions of C105) |
| C128 | Units of the low-fidelity responses do not matter for hierarchical Kriging | partial | HierarchicalKriging GP | the trend column is multiplied by a: generalised least squares, likelihood and variance are invariant, so both trainings choose the same hyper-parameters; counterexample by the limits of C127 |
| C129 | Samples and initial populations are uniformly distributed over the design space | proved | Samplers Evolutionary | measures: an affine map takes the uniform distribution on [0,1] to that on [low, high], products of measures for coordinates and rows; C130 with the running minimum (C02, C10) and positive measure near the minimiser |
| C130 | Large populations find the minimum with high probability | proved | Samplers Evolutionary | measures: an affine map takes the uniform distribution on [0,1] to that on [low, high], products of measures for coordinates and rows; C130 with the running minimum (C02, C10) and positive measure near the minimiser |
| C131 | Bayesian optimisation does not depend on the units of the objective, up to the constants of the code | proved | BayesOpt BOAssembled Spec/BOUnits | a change of units is a map between states which commutes with construction, with every iteration and with training (the responses are standardised, so that the surrogates see the same numbers) |
| C132 | Multi-fidelity Bayesian optimisation does not depend on the units of the objectives, up to the constants of the code | proved | BayesOpt BOAssembled Spec/BOUnits | a change of units is a map between states which commutes with construction, with every iteration and with training (the responses are standardised, so that the surrogates see the same numbers) |
| C133 | Responses that follow the trend are reproduced everywhere | proved | Basis GaussianProcess HierarchicalKriging Spec/Trend | normalising the inputs maps polynomials to polynomials of the same degree, the scaled responses are in the column space of the basis matrix, so the residual of generalised least squares and the process variance vanish |
| C134 | save_data saves the samples returned last | proved | SamplerObjects Samplers Spec/SamplerObjects | programs are lists of operations on a state with design-space arrays, blocks of memory, files and objects; an invariant relates the objects' attributes to the trace of returned arrays and separates the blocks of different calls; induction over programs |
| C135 | Saving never destroys files | partial | SamplerObjects Samplers Spec/SamplerObjects | programs are lists of operations on a state with design-space arrays, blocks of memory, files and objects; an invariant relates the objects' attributes to the trace of returned arrays and separates the blocks of different calls; induction over programs |
| C136 | Returned sample arrays are independent | partial | SamplerObjects Samplers Spec/SamplerObjects | programs are lists of operations on a state with design-space arrays, blocks of memory, files and objects; an invariant relates the objects' attributes to the trace of returned arrays and separates the blocks of different calls; induction over programs |
| C137 | A sampler keeps the design space it was constructed with | partial | SamplerObjects Samplers Spec/SamplerObjects | programs are lists of operations on a state with design-space arrays, blocks of memory, files and objects; an invariant relates the objects' attributes to the trace of returned arrays and separates the blocks of different calls; induction over programs |
| C138 | Writing into the results of a Bayesian optimiser does not change the optimiser | partial | BayesOptHeap BayesOpt Spec/BayesOptHeap | arrays as blocks of memory with row views; an invariant says which block each view belongs to; a simulation relates runs with and without writes, a second one relates the objects to the model without memory; induction over programs and iterations |
| C139 | Acquisitions prefer better and more uncertain predictions | partial | Acquisitions Spec/Acquisitions | derivatives of the closed formulas: that of the expected improvement in the standard deviation is the normal density; a lower Mills-ratio bound (by a monotone auxiliary function with limit 0) gives the region in which the regularised formula is monotone |
| C140 | Saved step results survive crashes | partial | StepResults EvolutionaryRaise Spec/StepResults | runs emit the list of their external events; a crash is an initial part of it; induction over the loop with an invariant on the counts of iterations, openings and dumps, and on rows not reached being zero |
| C141 | Order of the design variables does not matter | proved | Evolutionary EvolutionaryRaise GP MFKriging ScaledKriging CoKriging | simulation between a run and the run with permuted coordinates; matrices of the models are permuted by columns of the trend, and the least-squares solution follows by uniqueness |
| C142 | Multi-fidelity Sobol samples are the requested block of the sequence | partial | MFSamplers SFSamplers | the scrambled sequence as an oracle with a contract; each fidelity is a block of it by induction over the fidelities; concrete generator for the counterexample |
| C143 | Test problems refuse samples with the wrong number of columns | partial | Problems | batches of any number of columns; case analysis over all problems with a projection onto the first columns |
| C144 | Bumpiness objective of scaled Kriging | partial | ScaledKriging GP | unfolding one evaluation; induction over the candidates evaluated before; a concrete two-sample process with a dimension-dependent local optimiser for the counterexample |
| C145 | Sample plots show the samples | partial | Figures SamplerObjects | a figure is the list of series handed to scatter; the array drawn is followed through any program of the sampler heap |
| C146 | The convergence plot shows the best value of every generation | partial | Figures Evolutionary | the curve as a list of points; the running-minimum invariant of C02/C06 up to the last generation that ran |
| C147 | update_model equals training on all samples | partial | UpdateModel CKObjects | induction over the updates: stored samples, settings and noise; the trained object is a function of these |
| C148 | Failed evaluations (nan) do not spoil an optimisation | partial | EvolutionaryNaN | values are numbers of a linear order or nan with numpy's comparisons, min and argmin; invariants of the generation loops; equality with the model without nan by simulation |
| C149 | Design spaces may be written as lists or arrays | partial | SamplerArgs Samplers | constructor arguments as lists of rows with numpy's atleast_2d and broadcasting; simulation of the models on design spaces by induction over rows and fidelities |
| C150 | Malformed design spaces are reported | partial | SamplerArgs Samplers | constructor arguments as lists of rows with numpy's atleast_2d and broadcasting; simulation of the models on design spaces by induction over rows and fidelities |
| C151 | Multi-fidelity samplers accept the same design spaces | partial | SamplerArgs Samplers | constructor arguments as lists of rows with numpy's atleast_2d and broadcasting; simulation of the models on design spaces by induction over rows and fidelities |
| C152 | Design spaces with different numbers of variables are refused | partial | SamplerArgs Samplers | constructor arguments as lists of rows with numpy's atleast_2d and broadcasting; simulation of the models on design spaces by induction over rows and fidelities |
| C153 | Samples do not depend on the units of the variables | proved | Samplers | algebra per sample, simulation of the loop over the fidelities |
| C154 | Bayesian optimisation does not depend on the units of the design variables | proved | BOAssembled BayesOpt Acquisitions Samplers | simulation: conversion of points commutes with sampling (C153), training and prediction (C104), each acquisition, each step of the loops; induction over runs |
| C155 | A failed evaluation is survived by Bayesian optimisation | partial | NonFinite BayesOptNonFinite | floats with nan and infinities and arbitrary rounding; nan spreads through normalisation and likelihood for all results of cholesky and solve; induction over completed and failed iterations; a concrete failing objective |
| C156 | What Bayesian optimisation prints | proved | BOReports BayesOpt | loops that return the printed lines beside the result; induction on the budget; chain of completed iterations |
| C157 | Constrained Bayesian optimisation looks for improvements of the best feasible value | partial | Acquisitions BOAssembled | the fitted surrogates of reachable states (C88, C89) and the value of CEI (C65); the expected improvement is monotone and 1-Lipschitz in the incumbent; a reachable state as witness |
| C158 | Constrained Bayesian optimisation does not depend on the units of the objective and of the constraints | proved | BayesOpt BOAssembled Spec/ConsUnits | as C131; feasibility does not change under positive factors, one change of units per constraint surrogate |
| C159 | Hyper-parameters stay within kernel_bound | partial | Constructors Spec/KernelBounds | induction over programs of trainings and optimiser changes; each training ends with a search that stays in its bounds; trained objects as witnesses |
| C160 | The cost ratio steers the choice of fidelity | partial | Acquisitions Spec/CostRatio | the low-fidelity value is affine in the cost ratio with non-positive slope, the high-fidelity value does not depend on it; minimality of the choice (C60) |
| C161 | Every fidelity of MFLatinHyperCube is a Latin hypercube | partial | Samplers | characterisation of get_samples per fidelity (C20, C21); the scaled unit design is Latin (C16); a lawful engine as witness |
| C162 | Low-fidelity predictions depend on the low-fidelity data only | partial | HierarchicalKriging ScaledKriging CoKriging | the low-fidelity training does not see the high-fidelity data; for co-Kriging affine equivariance of generalised least squares; two concrete trainings as witness |
| C163 | Longer runs find the minimum | partial | Evolutionary Spec/Uniform | runs share prefixes (C120); invariants over all generations (cubes for DE, a quadratic energy for PSO) that trap a population near a local minimum; such starts have positive probability |
| C164 | Improper training data never give proper predictions | proved | NonFinite NonFinitePredict | the standard deviation of the responses is nan and multiplies every prediction; a bad low-fidelity response reaches the basis (hierarchical), the sum (scaled) or the process variance (co-Kriging) |
| C165 | Prediction errors are bounded by the predicted uncertainty | proved | GP MFKriging Spec/NativeSpace | Cauchy-Schwarz for the kernel: the reported epistemic variance is the squared norm of the error functional (C100) |
| C166 | Models refuse to predict before a training has returned | partial | GPObjects HKObjects MFObjects CKObjects Spec/Untrained | invariant of all histories in which no training returned: the last attributes assigned by a training do not exist; a bumpiness search as witness |
| C167 | Training finds the least-squares scale factor within its bounds | proved | ScaledKriging | the criterion is convex, so a local minimum within the bounds is global; closed form by completing the square |
| C168 | kronDelta marks equal rows | partial | Kernels | Euclidean distance is at least every coordinate difference; three points on a line as witness |
| C169 | Reports of the constrained optimiser with nan and infinite values | proved | BayesOptNonFinite | one row per design is an invariant of every history with exceptions; np.min is nan or the smallest extended real number; count of satisfied constraints equals their number iff all are satisfied |
| C170 | Test problems have a minimum on their input domain | partial | Problems | continuity on a compact box; the jump of mf_Discontinuous is upwards; both factors of mf_CurrinExp separately; a lower bound proportional to x1 for mf_Park91A |
| C171 | The order of the constraints does not matter | proved | BOAssembled, BayesOpt, Acquisitions | simulation between the two sessions; the product in the acquisition is commutative, every training uses the generator equally |
| C172 | Multi-fidelity arrays show the list given last | proved | Data | store of list objects; induction over the program |
| C173 | The stopping error in floating-point arithmetic | proved | BayesOpt, Rounded | two floats that differ are apart by a power of two not small against either, so neither the difference nor the quotient rounds to zero; monotone rounding; C51 |
| C174 | Seeded samplers give the same samples in every program | partial | SamplerObjects Spec/SamplerHistory | invariance of class, arguments and bounds of an object under all programs that do not write into its design space; seeded draws do not look at, and do not change, the state of the generators; counterexamples in the concrete world exEnv |
| C175 | Seeded samples do not disturb the random numbers of the program | partial | SamplerObjects Spec/SamplerHistory | invariance of class, arguments and bounds of an object under all programs that do not write into its design space; seeded draws do not look at, and do not change, the state of the generators; counterexamples in the concrete world exEnv |
| C176 | Correlations computed in floating-point arithmetic are correlations | partial | RoundedKernel Spec/RoundedKernel | every operation rounded to nearest, sums and scalar products in any order and with or without fused multiply-add (inductive relations); induction over the order of summation with accumulated relative errors and gradual underflow; positive definiteness by comparison with the exact Gaussian matrix, the nugget outweighing n times the entrywise error; the counterexample evaluates sqrt(10) in double precision for every tie rule |
| C177 | Covariance matrices computed in floating-point arithmetic are positive definite | proved | RoundedKernel Spec/RoundedKernel | every operation rounded to nearest, sums and scalar products in any order and with or without fused multiply-add (inductive relations); induction over the order of summation with accumulated relative errors and gradual underflow; positive definiteness by comparison with the exact Gaussian matrix, the nugget outweighing n times the entrywise error; the counterexample evaluates sqrt(10) in double precision for every tie rule |
| C178 | Counting a design variable from the other end does not change the models | proved | Kriging HierarchicalKriging ScaledKriging CoKriging Basis | the trend columns at mirrored points span the same space (linear algebra over the span of the trend functions); generalised least squares on another basis of the same column space gives the same fit, likelihood and mean squared error; the kernel depends on differences only |
| C179 | The Cholesky factorisation in floating-point arithmetic does not fail | proved | RoundedCholesky Spec/RoundedCholesky | the factorisation as a relation (any order of the subtractions, any blocking, fused or not, division or multiplication by the reciprocal of the pivot); induction over the columns: if the columns computed so far reproduce the matrix, a vector in the kernel of the computed rows shows that the next pivot stays positive, which bounds the entries and hence the rounding errors of the next column |
| C180 | Very large design spaces | partial | Overflow Spec/Overflow | IEEE floats with infinities and nan; invariant: points in the box and velocities below a power of two, hence no intermediate result overflows and every step is the step of the model without overflow; counterexamples by following the default settings for two generations with an arbitrary objective |
| C181 | Normalisation of responses in floating-point arithmetic | partial | RoundedNormalize | mean and standard deviation as relations (any order of summation); sums of equal numbers with exact multiples are exact by induction over the order; lower bound of the computed variance by monotonicity of rounding; error analysis of the round trip; counterexample with both outcomes of the tie in 3 * 0.1 |
| C182 | The joint covariance of co-Kriging can be factorised in floating-point arithmetic | partial | RoundedCoKriging | error analysis of every block of the joint matrix on top of C176; the exact matrix is positive semidefinite, so the computed one is bounded below by the jitter minus the errors, and C179 applies; counterexample by exact evaluation of all roundings |
| C183 | Acquisition values are accurate in floating-point arithmetic | proved | RoundedAcquisition | relative errors of the standardised improvement cost only an absolute error in the distribution function and density, since z*phi(z) and z^2*phi(z) are bounded; then error analysis of sums and products; induction over the ways to compute a product |
| C184 | Predicted means in floating-point arithmetic | proved | RoundedPredict | error of scalar products in any order (C176) for nearby factors, then of the sum and of scaling back; at samples combined with the residual of the equations the coefficients solve |
| C185 | Latin hypercubes in floating-point arithmetic | partial | RoundedLatin | the unit samples sorted along an axis; error of the three operations of scale_samples; rounding is monotone |
| C186 | Multi-fidelity acquisition functions in floating-point arithmetic | proved | RoundedMFAcquisition | relative error of the argument for standard deviations of at least 2^-52, Lipschitz bounds for the normal distribution under relative errors (C183), then the chain of products |
| C187 | Predicted means of hierarchical and scaled Kriging in floating-point arithmetic | proved | RoundedMFPredict | as C184, with the trend replaced by the normalised low-fidelity prediction, whose error enters times the regression coefficient |
| C188 | Multi-fidelity predictions at evaluated points in any batch | proved | HierarchicalKriging, ScaledKriging, CoKriging | as C114 and C115 for a fit with any trend matrix; the low-fidelity prediction of one point in two rows differs by the nuggets only; for co-Kriging the joint covariance dominates its jitter and noise, and the best linear predictor is compared with the one that copies a sample |
| C189 | Hierarchical and scaled Kriging predictions vary slowly | proved | HierarchicalKriging, ScaledKriging, CoKriging | as C114 and C115 for a fit with any trend matrix; the low-fidelity prediction of one point in two rows differs by the nuggets only; for co-Kriging the joint covariance dominates its jitter and noise, and the best linear predictor is compared with the one that copies a sample |
| C190 | The predicted mean of co-Kriging in floating-point arithmetic | proved | RoundedCKPredict | errors of the covariances as in C182, a scalar product of approximate numbers of bounded size, and the last steps as in C184; at samples a row of the joint matrix against the exact covariances |
| C191 | The standard deviation of Kriging is not below the noise level | partial | NoiseFloor | the best linear unbiased weights of C100: the error without nugget is a positive semidefinite form, the nugget adds at least -1e-10; at a sample in its own row the weights that pick the sample have error -1e-10 plus the scaled noise |
| C192 | Predicted standard deviations in floating-point arithmetic | proved | RoundedStd | the root of a rounded square is nearer to the number than half the distance to the next float, so rounding returns the number; the rest by monotonicity of rounding; accuracies by error propagation |
| C193 | Co-Kriging predictions vary slowly | proved | SlowCK | the quadratic form of the joint covariance bounds those of its two processes (the nuggets of the blocks add up to a sum of squares); then the increments of C115 for each process |
<!-- end table -->

## 4. The interval checker behind C69 and C70

Where a documented optimum is only true up to its printed digits, the lower bound on the whole domain is proved by branch and bound inside the kernel. `Lemmas/Interval.lean` defines, on dyadic rationals, an evaluator
for expressions built from `+ * - ^ exp sin cos` and a checker that walks a list of boxes; `Lemmas/IntervalSound.lean` proves that a box accepted by the checker satisfies the bound for every real point in it.
The certificates (`Lemmas/Bounds/*.lean`, generated by `tools/bb.py` and `tools/mkbounds.py`) are lists of splits; each is accepted by `decide +kernel` on the *checker*, i.e. by the kernel evaluating a closed boolean.
The theorems quantify over all real points; the evaluation is a proof step of the kernel, not compiled code (`native_decide` is not used). The generators are not trusted.

## 5. Where the code does not do what the property says

For each of these the negation is proved with a witness (names ending in `_counterexample`, or a statement about every execution), and what does hold is proved in a theorem ending in `_partial`.

<!-- findings -->
* **C04 PSO result dictionary agrees with the returned optimum.** Holds for runs that use all generations; false after an early stop (zero rows are reported), counterexample proved.
* **C11 DE result dictionary agrees with the returned optimum.** As C04: false after an early stop.
* **C12 DE mutation partners are distinct.** The collision fix-up can create a new collision; counterexample proved, partial theorem says what holds.
* **C18 SobolSequence returns the requested block of the sequence.** Proved for n <= 30; every n > 30 raises ValueError (proved).
* **C22 Multi-fidelity samples respect each fidelity's bounds.** False for nested designs with different design spaces (counterexample); proved otherwise.
* **C23 Non-nested Sobol samples differ between fidelities.** The property is false: with an integer seed and a shared space the designs are always nested (proved for every execution).
* **C24 Multi-fidelity samplers are reproducible from the seed.** False for nested LHS, proved otherwise.
* **C25 get_samples does not modify its arguments.** The property is false for every successful call; its negation is proved.
* **C36 GP predictions do not depend on the batch.** The property is false: the kernel adds its nugget wherever the positions in the two sample arrays agree. The exact dependence is proved.
* **C37 Asking for the standard deviation does not change the mean.** Holds for the GP, hierarchical Kriging and co-Kriging; false for scaled Kriging with rho other than 1 (exact difference proved, counterexample given).
* **C38 Retraining re-estimates the noise.** The property is false; every later training keeps the first noise (proved), counterexample given.
* **C43 Scaled Kriging reproduces the high-fidelity data.** False for predict(X): it multiplies the discrepancy instead of the low-fidelity prediction by rho. Holds for return_std=True and for rho = 1; exact failure condition proved.
* **C46 CoKriging.predict is read-only.** The property is false: every call multiplies the noise by std(yh). The mean is stable; the exact standard deviations of all calls are proved.
* **C47 CoKriging noise level is stable under retraining.** The property is false: every training divides the noise by std(yh). The exact noise after k trainings is proved.
* **C56 BO with unknown optimum uses the whole budget.** Holds for the single-fidelity and constrained optimisers; false for the multi-fidelity one, which compares the error strictly and makes no iteration at all (proved).
* **C59 Constrained BO best_x is feasible.** False: infeasible designs with the same objective value are reported too. Exact content of best_x proved.
* **C61 Acquisitions accept a custom optimizer.** The property is false: with an optimiser object every query raises. Without one, the query returns the search result.
* **C62 Expected improvement is non-negative.** False by less than 1e-9: 1e-9 is added to the standard deviation in one place only. The distance to the exact expected improvement is bounded.
* **C65 Constrained EI weighting.** Proved at single points, the way query evaluates it; batches of any other size raise ValueError.
* **C66 Augmented EI.** High fidelity in full. At low fidelity the value is nan where the model is certain and both fidelities agree.
* **C67 VFEI.** At low fidelity the code uses the high-fidelity standard deviation.
* **C69 Documented optima are global minima.** Exact for Branin, GoldPrice, Ackley (every dimension), Thevenot in one dimension, mf_Bohachevsky, mf_Booth and Branin_2 (on feasible points). False exactly, but true to one unit of the last printed digit, for Forrester and its three variants, Sixhump (both), Sasena and Branin_1. Hartman3 and Hartman6 (both fidelities): proved up to 1e-5 and 1e-3. False for AckleyN2 (optimum and optimum_scheme are exchanged) and for Thevenot in two or more dimensions.
* **C70 Documented optimum schemes attain the optimum.** Proved for Branin, Forrester and variants, Sixhump (both), Sasena, Hartman6 (both), Branin_1, Ackley, Thevenot, mf_Bohachevsky, mf_Booth. False for GoldPrice (value 28611 at the listed point), Hartman3 (both), Branin_2 (infeasible, wrong by more than 0.04) and AckleyN2.
* **C71 Low-fidelity functions are the documented transforms of the high-fidelity ones.** All transforms hold; mf_CurrinExp only for arrays of floats (with an integer array the column assignments truncate, proved).
* **C72 Problems are defined on their whole input domain.** False for mf_Park91A, which divides by x1 ** 2 and has x1 = 0 in its domain; proved for all others and for mf_Park91A off x1 = 0.
* **C73 Problem instances are independent.** False: Ackley and Thevenot write class attributes. Proved: what is kept, and that instances of the same dimension do not interfere.
* **C74 Dimension checks.** False: AckleyN2(3) and Ackley(0) are accepted.
* **C75 Multi-fidelity problem call.** False for lists of three or more arrays: from the third on they are ignored.
* **C78 BO recovers from exceptions.** Holds for the single-fidelity and the constrained optimiser; false for the multi-fidelity one, which only compares new responses with best (there, best stays a response observed at best_x).
* **C80 Multi-fidelity BO works with every surrogate it accepts.** Proved for hierarchical and scaled Kriging: every query returns a point of the design space and a fidelity (AEI and EPI unless the fidelities agree somewhere with no uncertainty; VFEI refuses scaled Kriging). False for co-Kriging: the model has no attribute 'bound', so the first query raises AttributeError.
* **C82 Extended probability of improvement.** The factor never vanishes: the code multiplies correlations where the reference multiplies 1 - correlation.
* **C91 num_init of multi-fidelity BO.** Sizes hold. The list is emptied by every successful construction, so it cannot be used again.
* **C92 A training that raises changes nothing.** False: train replaces the samples and responses before it can fail, so predict then mixes the old weights with the new data, or raises ValueError. The exact effect is proved; models with other kernel objects are unaffected.
* **C93 Predictions depend on the data at training time only.** False: the model keeps views of both arrays and recomputes mean and standard deviation of the responses in every predict call. The exact effect of both kinds of writes is proved.
* **C94 Models do not disturb each other.** False for models given the same kernel object; proved for every program in which nobody trains with or writes to the objects the model holds.
* **C98 Objective functions may return the same array every time.** False in general. Proved: the optimum PSO reports is right for every pattern of reuse, and both optimisers are right if the first returned array is not returned again. With one array for all calls PSO forgets personal bests, and DE accepts nothing and reports a best_y that is not the objective at best_x.
* **C99 Optimisers leave the objective's arrays alone.** False. Proved exactly which arrays are overwritten and with what: PSO overwrites the first argument and the first returned array with the personal bests; DE overwrites them with the final population and its responses, and uses one array for all later calls.
* **C102 Co-Kriging predictions and their standard deviation.** The mean is the best linear unbiased prediction. The reported variance leaves out the contribution of the estimated mean, (1 - 1'A^-1 c)^2 / (1'A^-1 1), so for every trained model with non-zero process variance it is too small at some point.
* **C103 Predictions do not depend on the units of the responses.** Proved for Kriging, hierarchical Kriging, scaled Kriging and for co-Kriging with noise estimated or zero. False for co-Kriging with a known non-zero noise: the noise is divided by the spread of the responses twice in the likelihood (co_kriging.py:382 and 571-573), so the same data in other units give another rho and length scale.
* **C105 Multi-fidelity predictions do not depend on the batch.** False: the kernel adds its nugget wherever row numbers agree. Proved: a prediction depends on the point and its row number only, and not on the latter beyond the sizes of the training sets; the exact dependence of the means.
* **C106 Kriging predictions do not depend on the order of the samples.** False, for the same reason as C36. Proved: equal hyper-parameters, equal predictions in rows beyond the number of samples, the exact difference of the means in earlier rows.
* **C107 Multi-fidelity models can be trained on varying responses.** Exact conditions proved. False for scaled Kriging when the fidelities differ by a constant (the discrepancy is normalised by its zero spread), and for hierarchical Kriging when the low-fidelity predictions all equal the mean of the high-fidelity responses. Holds for co-Kriging.
* **C108 Scaled Kriging works with the models it is given.** Proved for two different model objects with different kernel objects, whatever their state. False when one object is passed for both: it is retrained on the differences, and predict returns rho + 1 times them.
* **C109 A multi-fidelity training that raises changes no predictions.** False: the low-fidelity model is already replaced when the high-fidelity part raises. Proved: which part is old and which is new in each case; other models keep their predictions. Hierarchical Kriging: samples, mean and spread are new and the weights old, so predictions change silently, raise, or are nan. Co-Kriging: a call with a wrong number of low-fidelity responses or with equal high-fidelity responses raises and moves all predictions to the new mean and spread.
* **C110 Writing into the response arrays after a multi-fidelity training changes no predictions.** Proved for the high-fidelity array. False for the low-fidelity array, which the low-fidelity model keeps a view of; the exact change is proved.
* **C113 Retraining a co-Kriging model forgets the past.** False: one training on equal high-fidelity responses makes the noise nan or infinite, and no later training of that object returns with finite values (proved for all histories); every training divides the noise and every standard deviation multiplies it. Proved: without such trainings the object is trained like a new one whose noise is the outcome of that account; for noise 0 like the object as created.
* **C116 Acquisitions do not propose an evaluated point again.** Proved for EI with a search that is within epsilon of the minimum. False for PI: predicted alone, the first sample has standard deviation 0, and if it is the best one PI rates it 1/2 and, with an exact search, proposes it again.
* **C118 The search problems of the acquisitions have a solution.** Proved for LCB, EI, PI, constrained EI, VFLCB, VFEI, and for AugmentedEI and ExtendedPI at the high fidelity, and at the low fidelity where nothing is divided by zero. False for those two at the low fidelity: where both fidelities agree without uncertainty they compute 0/0.
* **C119 Training is maximum likelihood estimation.** Proved for Kriging and hierarchical Kriging (noise-free data must not be fitted exactly by the trend), and for co-Kriging with unknown noise. With noise the maximised likelihood is that of process variance 1, whereas predictions use the fitted variance. Noise-free co-Kriging needs that no rho within its bounds makes the difference constant; otherwise the searched value is log 0 there (counterexample). With a known positive noise co-Kriging maximises the likelihood of another noise than the one the model then uses, because the code rescales it twice.
* **C123 Flat and column responses give the same model.** Proved for Kriging, scaled Kriging (fixed scale factor or any search for it) and hierarchical Kriging, also that these are the models of the other properties. False for co-Kriging: a flat response array of either fidelity raises an exception for all data and optimisers, because the difference of a flat array and a column is a square matrix (co_kriging.py:579-589), while the same call with columns works.
* **C124 A wrong number of responses is reported.** Proved for Kriging, hierarchical Kriging and co-Kriging (which accepts columns of the right lengths only), and for the low-fidelity responses of scaled Kriging. False for scaled Kriging (with a fixed scale factor and with a search for it) with exactly one high-fidelity response: it is silently used for every sample.
* **C125 Sample arrays of a wrong shape are reported.** Proved: (d,) equals (1, d) for points; k columns with k, d, 1 all different raise. False: one column is silently repeated d times, in training and prediction; a one-dimensional model trains on any number of columns; a one-dimensional Kriging model with estimated noise trains on a flat array of samples (ignoring them) and then raises in every prediction.
* **C126 The stored log-likelihood is the maximised one.** Proved for Kriging and hierarchical Kriging with a known non-zero or an estimated noise, and for noise-free co-Kriging. False for noise-free Kriging and hierarchical Kriging: -n/2 v is stored instead of -n/2 log v (v the process variance), too small by n/2 (v - log v) >= n/2; and for co-Kriging with estimated noise, where it is too large by the same amount.
* **C127 Far from the data predictions return to the trend.** Proved for the rows of a batch beyond the number of samples. False in earlier rows, so also for points predicted alone: the kernel adds its nugget by row number, and the limit contains 1e-10 times the weight of the sample with the same number (exact limits proved for Kriging). Hierarchical Kriging tends to its trend at the limit of the low-fidelity predictions; co-Kriging to a weighted mean of the responses of both fidelities, without the variance of that mean.
* **C128 Units of the low-fidelity responses do not matter for hierarchical Kriging.** False in general: the low-fidelity predictions are centred with the mean of the high-fidelity responses before the scale is estimated, so doubling low-fidelity responses changes the predictions (witness with two samples). Proved for changes of scale about that mean, c + a (yl - c), for every a other than 0, with equal errors.
* **C135 Saving never destroys files.** False: save_data of a multi-fidelity sampler without samples opens the file, which empties it, before it raises AttributeError. Proved: this is the only save_data call that raises, and files are changed by save_data calls with their name only.
* **C136 Returned sample arrays are independent.** False for nested Sobol designs: the samples of a higher fidelity are a view of those of the lower one (exact sharing proved). Proved for arrays of different calls and for all other designs.
* **C137 A sampler keeps the design space it was constructed with.** False for samplers constructed from an array: they keep a reference and use the bounds the array has when samples are drawn. Proved for lists, and for arrays that are not written to.
* **C138 Writing into the results of a Bayesian optimiser does not change the optimiser.** False for the unconstrained optimisers: best_x is a view of a row of the samples (single fidelity: once an iteration has been made; multi-fidelity: until the first high-fidelity evaluation), so writing into it replaces the recorded sample and the optimiser then reports the best value at a point where it was not observed. Proved in full for the constrained optimiser; for the others exactly which writes are harmless and what the others do.
* **C139 Acquisitions prefer better and more uncertain predictions.** Exact for the lower confidence bound and augmented EI, and for the expected improvement as an integral. False for EI, CEI and VFEI as coded: the constant added to the standard deviation only inside cdf and pdf makes the value negative and increasing again far above the incumbent; proved up to 5e-10 (VFEI 5e-9) everywhere and exactly in the region (fmin - mean)^2 * 1e-9 <= std * (std + 1e-9)^2. PI: exact above the incumbent, and opposite in the standard deviation below it.
* **C140 Saved step results survive crashes.** False while the file is being rewritten: it is opened with 'wb', which empties it, before the new record is dumped, so a process killed in between leaves no readable results at all. Proved: what the file holds at every crash point, and the complete claim outside that window. Also the entry best_y (best_x) of the record is the whole history with zero rows to come, not the best value; the record does not tell how many iterations were made.
* **C142 Multi-fidelity Sobol samples are the requested block of the sequence.** False without num_skip when the design spaces are given as a list: the number of skipped points is then the number of fidelities (the length of the list), not the number of variables, so the same problem written with one design space and with a list gives different samples.
* **C143 Test problems refuse samples with the wrong number of columns.** False: most problems silently ignore additional columns, the Hartman functions given a single column use it for all variables, and two one-dimensional problems return one response per entry instead of per sample. Proved: which wrong shapes do raise.
* **C144 Bumpiness objective of scaled Kriging.** False in two ways. A scale factor that reproduces the responses (up to a constant) makes the discrepancies constant and the evaluation raises. With estimated noise the first candidate fixes the noise for all later ones, so the objective depends on the history; with given noise it is proved not to.
* **C145 Sample plots show the samples.** False for six or more fidelities: there are six markers but only five colours and plotting raises IndexError. Proved for everything else.
* **C146 The convergence plot shows the best value of every generation.** False after an early stop: the history array was allocated with zeros for all generations, and the curve drops (or rises) to height 0 for the generations that did not run.
* **C147 update_model equals training on all samples.** False in two ways. The noise is estimated in the first training only; an update keeps it, where a fresh model would estimate it from all samples. A call that raises leaves its samples in the model: after one call with mismatched numbers every later call raises ValueError. Proved: a returning update equals training a fresh model with the noise of the first training on all samples, those of failed calls included.
* **C148 Failed evaluations (nan) do not spoil an optimisation.** False: one nan in the initial population makes both optimisers return nan whatever is found later (min is nan, and no comparison with nan succeeds), and PSO ignores every later generation that contains a nan, together with the numbers in it. Proved: PSO returns the best number of the generations without nan, DE the best number of all evaluations, if no initial value is nan. Without nan the model is that of the other properties.
* **C149 Design spaces may be written as lists or arrays.** False for SobolSequence with a flat [lower, upper] and without num_skip: the default is the length of the argument as written, 2, whereas [[lower, upper]] skips 1 point. Proved for all other forms and samplers, and that these are the samples of the other properties.
* **C150 Malformed design spaces are reported.** Rows of different lengths raise in the constructor, rows with fewer than two numbers when samples are drawn. False for rows with more than two numbers (the rest is ignored) and for the bounds of several variables in one flat list (taken as one variable).
* **C151 Multi-fidelity samplers accept the same design spaces.** Proved for arrays and lists of arrays. False for nested Python lists, which raise TypeError for all arguments although the single-fidelity samplers accept them; an array without num_fidelity raises TypeError in the constructor.
* **C152 Design spaces with different numbers of variables are refused.** Proved unless one of the numbers of variables is 1. With one variable at the first fidelity and several at another, the samples of the latter all lie on the diagonal of their design space; the other way round all columns get the same bounds.
* **C155 A failed evaluation is survived by Bayesian optimisation.** Proved: best, best_x and the history are never nan and remain those of proper evaluations. False: the optimisation cannot be continued. On responses that contain nan or an infinity every likelihood is nan, no restart is accepted, and train raises UnboundLocalError; the improper response stays among the data, so every later iteration raises too, and a constructor with an improper initial response raises. For co-Kriging an infinite low-fidelity response is left out; models with an optimiser object of the repository instead of L-BFGS-B are not covered.
* **C157 Constrained Bayesian optimisation looks for improvements of the best feasible value.** False: CEI.ei compares with the smallest of all observed objective values, infeasible designs included, so a certain improvement of the best feasible value counts as no improvement if an infeasible design is better still. Proved: the searched function is exact for that incumbent (up to 2e-9), it never exceeds the weighted improvement over best, and the proposal is optimal up to the difference of both incumbents, which is 0 if the smallest value was observed at a feasible design.
* **C159 Hyper-parameters stay within kernel_bound.** Holds for GaussianProcessRegression. False for the multi-fidelity models: HierarchicalKriging and CoKriging do not pass kernel_bound on to their low-fidelity model, which always uses [-2, 3]; ScaledKriging ignores it altogether: the kernel made from it is never trained, and _eval_corr(fidelity=0), the high-fidelity correlation, stays that of an untrained kernel with parameters 1 whatever the data. Proved: the kernels of HK and CK themselves are within kernel_bound, all other ones within [-2, 3] or the bounds of the given models; changing kernel_bound changes nothing in ScaledKriging.
* **C160 The cost ratio steers the choice of fidelity.** Proved for AugmentedEI, VFLCB and ExtendedPI (with searches exact up to epsilon: up to ties within epsilon). False for VFEI, which ignores cost_ratio; moreover, with an exact search it proposes the low fidelity only where the high-fidelity standard deviation is below machine epsilon, or when no point promises an improvement: elsewhere the two acquisition values are equal and ties go to the high fidelity.
* **C161 Every fidelity of MFLatinHyperCube is a Latin hypercube.** Proved for every fidelity of non-nested designs and for the lowest fidelity of nested ones; a higher fidelity of a nested design has at most one sample in each slice of the lowest fidelity. False for the higher fidelities of nested designs, which are random subsets: both of 2 samples chosen from 4 may lie in the lower half of the interval.
* **C162 Low-fidelity predictions depend on the low-fidelity data only.** Proved for HierarchicalKriging and ScaledKriging, and for CoKriging with noise 0 when both trainings find the same low-fidelity length scales. False for CoKriging with noise: its low-fidelity model is trained on data scaled with the mean and standard deviation of the high-fidelity responses, and doubling these responses changes the low-fidelity prediction at a low-fidelity sample.
* **C163 Longer runs find the minimum.** Proved: the probability does not decrease with num_gen. False: it does not tend to one. Whoever starts in the basin of a local minimum stays there for ever, for all later draws: the DE donors are differences of members and the PSO velocities contain no random numbers. There is a continuous objective on an interval for which, with the default settings and any population size, the probability stays below a bound less than one for all num_gen. (C130: it tends to one when the population grows.)
* **C166 Models refuse to predict before a training has returned.** Proved for Kriging, hierarchical Kriging (after trainings that raised the exception may be another than AttributeError) and co-Kriging, and for scaled Kriging with a fixed scale factor or the error criterion. False for scaled Kriging with the bumpiness criterion: the search for the scale factor trains the discrepancy model, so if the last training raises (for example because the high-fidelity responses are an exact multiple of the low-fidelity ones and the discrepancy model has an optimiser of the repository, see C155) the object predicts all the same, with wrong values.
* **C168 kronDelta marks equal rows.** False: rows closer than 2^-23 (absolute, whatever the scale of the data) are reported as equal, and the relation is not transitive. Proved: true for equal rows, false for rows with an entry that differs by at least 2^-23, symmetric, invariant under shifts, row by row.
* **C170 Test problems have a minimum on their input domain.** False for mf_Park91A: neither fidelity has a minimum on the input domain, since the values decrease towards the face x1 = 0, on which the function is nan. Proved for all other problems (Thevenot with beta different from 0; low fidelity of mf_CurrinExp for arrays of floats).
* **C174 Seeded samplers give the same samples in every program.** False for nested MFLatinHyperCube: the rows of the higher fidelities are drawn from numpy's global generator, so that the same sampler, sizes and seed give other samples after another sampler has been used. Proved for all single-fidelity samplers and for all other multi-fidelity samplers.
* **C175 Seeded samples do not disturb the random numbers of the program.** False for RandomSampler, which seeds numpy's global generator, and for nested MFLatinHyperCube, which draws from it although a seed is given. Proved for all other samplers.
* **C176 Correlations computed in floating-point arithmetic are correlations.** The accuracy is proved: 6 (d + 6) (1 + sum of the parameters) 2^-53 plus twice the error of exp. False that values do not exceed 1: the squared distance is computed as a difference of large numbers and may become negative; with theta = 1 the correlation of the point 1.0 with itself exceeds one in double precision.
* **C180 Very large design spaces.** False. PSO with its default settings in [-2^513, 2^513] (about 2.7e154) calls every objective with nan for suitable draws: the clipping of velocities multiplies two large numbers, an infinite velocity stays with the individual when its position is replaced, and inf/inf is nan, which no bound check replaces. If a width overflows, no sample and no initial point is finite. Proved for bounds up to 2^508 (PSO with the default settings; in general 2 k + 3 c + 4 < emax), k + c + 2 < emax (DE) and k + 1 < emax (samplers): such runs are exactly the runs without overflow.
* **C181 Normalisation of responses in floating-point arithmetic.** False: three responses equal to the double nearest to 0.1 have a computed mean that differs from them in the last bit, and all normalised responses are -1 (or 1), so that the model is trained on numbers without information instead of nan (the properties on equal responses, e.g. C86, are about exact arithmetic); the different responses 0 and 2^-600 give nan, because squares underflow. Proved: equal responses with exact multiples (e.g. integers) give nan; responses that differ by 2^-500 (for up to 2^72 samples) give numbers; accuracy of the mean, of the standard deviation and of the round trip.
* **C182 The joint covariance of co-Kriging can be factorised in floating-point arithmetic.** False: the jitter 1e-10 is absolute, while the entries grow with the process variance of the low-fidelity model (whose responses are divided by the standard deviation of the high-fidelity responses, so that it has no bound). In double precision, with one low- and one high-fidelity sample at the same point, scale factor 1, low-fidelity process variance near 2^30 and process variance of the difference 0, the factorisation fails in every order of the operations although the exact matrix is positive definite. The witness takes these variances as given; it is not a whole run of train. Proved: every entry is accurate relative to the size of the entries, and the factorisation succeeds if number of samples times size of the entries times accuracy of the correlations is below 1e-10 (e.g. 20 + 5 samples of two variables, kernel parameters 10, scale factor and variances 1, in double precision, wherever the samples lie). Overflow is left out.
* **C185 Latin hypercubes in floating-point arithmetic.** False as stated: in double precision, on [2^53, 2^53+4] the second and third of four samples are the same number. Proved: along every axis the k-th smallest sample lies in the k-th cell or at most 4 roundings of |lb| + (ub - lb) outside (below 2e-12 for bounds between -1000 and 1000); in particular the order of the unit samples is kept.
* **C191 The standard deviation of Kriging is not below the noise level.** False of the code for small noise: the kernel adds 1e-10 to the correlation of row i of a batch with sample i, so that the process variance is negative (about -1e-10 variances) at a sample in its own row, and predict clamps only after adding the noise. If the noise is below 1e-5 standard deviations of the responses, the standard deviation at every training sample in its own row is below the noise level (C191_own_row, for every trained model with positive process variance; C191_counterexample with noise 1e-6). Proved for all rows: the squared standard deviation is at least the squared noise minus 1e-10 process variances; from row n on (n samples) the property holds. C191_sk_floor_partial: the same for scaled Kriging, with rho^2 times the low-fidelity bound plus the bound of the discrepancy model. C191_ck_floor: co-Kriging clamps before it adds the noise, so the property holds of its first standard deviation after training (later ones use a rescaled noise level, as predict multiplies it by the spread on each call). For hierarchical Kriging, which clamps before it adds the noise, see C42.
<!-- end findings -->

* `visualization/models_visualization.py` and `functions_visulaization.py` (empty files), styling of figures (what the sampler plots and the convergence plot draw is modelled, C145 and C146), printing except `print_info` of the evolutionary optimisers (C140) and the reports of the Bayesian optimisers (C156), wall-clock times.

* The `lb`/`ub` properties of samplers, `update_optimizer` setters (they replace an attribute the theorems already quantify over; `change_optimizer` of the Gaussian process is a call of `GPObjects`), the derivative stubs and abstract methods of `Functions`.
* Floating-point rounding in the test problems and in the surrogates beyond the covariance matrices, their Cholesky factors and the normalisation of inputs and responses (it is modelled for the optimisers and samplers, C96, the stopping error, C173, the kernel, C176 and C177, the factorisation, C179, the normalisation of responses, C181, the joint matrix of co-Kriging, C182, the acquisition functions, C183 and C186, predicted means for given coefficients, C184, C187 and C190, standard deviations for given mean squared errors, C192, and Latin hypercubes, C185), and overflow outside the evolutionary optimisers and samplers (C180); hence claims about "to printed precision" are made with explicit rational error bounds on the exact real function.
* The internals of scipy and numpy (contracts above).

## 7. Trusted base

Lean 4.33.0's kernel; the Mathlib definitions used in statements (reals, matrices, finite sums, Gaussian measure); the axioms `propext`, `Classical.choice`, `Quot.sound`
(every theorem depends on at most these three; `vcheck` audits them). No axioms are added, no `sorry`, `native_decide` or `bv_decide` is used.
The correspondence between `/repo` and the definitions in `Verif/Model` is by reading: every definition cites its lines. The contracts of section 2.4–2.6 are assumptions about numpy and scipy and appear as hypotheses or definitions, never as axioms.
