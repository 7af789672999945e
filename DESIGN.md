# Formal model of RoDeO in Lean 4: design

## Technique and layout

* `lean/Verif/Basic.lean` - error type, bounded loops, number assumptions.
* `lean/Verif/Model/*.lean` - the code, function by function. Every definition cites file and lines in `/repo/src`.
* `lean/Verif/Spec/*.lean` - small independent specifications used in theorem statements (what "inside the box", "distribution", "is the minimum" mean). Specs do not import the models where possible.
* `lean/Verif/Lemmas/*.lean` - helper lemmas.
* `lean/Verif/Props/*.lean` - the property theorems only, each with an `example` that meets its hypotheses.

Conventions

* C++ exceptions and undefined behaviour are values: a function that can fail returns `Except Err a`. `Err.ub` marks undefined behaviour, so "never UB" is a provable statement. Mutating member functions that can throw after having mutated the object return the new object together with the outcome.
* `double` is modelled by an arbitrary linearly ordered field `K` (so every theorem holds in particular for the rationals and the reals). Where a square root, exponential or `erf` is needed the reals are used. Rounding and overflow are modelled only in `Model/Dbl*` (C112 and later); NaN is modelled only for the NaN guard property.
* `unsigned int` sizes are `Nat`; `int` positions are `Int`. Where the code relies on wrap-around (`nrows-1` for `nrows=0`) this is an explicit case.
* Random generators are an oracle: a stream of draws `u` with `0 <= u < 1`. Theorems quantify over the stream.
* User supplied objective functions, surrogate models and the file system are parameters.
* Thread schedules are lists of atomic steps; crash points are positions in a list of file writes.

When a property turns out to be false of the code, the full property is stated as a `Prop`, a theorem proves its negation by a concrete witness, and a `_partial` theorem proves the strongest version found. The disagreements are listed at the end.

## Plan per property

| id | model | proof |
|----|-------|-------|
| C01 | `Bounds` object as state machine over all calls incl. rejected ones | invariant by induction over the history; expected false for stale flags, partial for histories without them |
| C02 | `isPointWithinBounds` loop | induction over the loop |
| C03 | `generateVectorWithinBounds` with oracle draws | ordered field arithmetic per coordinate |
| C04 | the three `setBounds` overloads | counterexample for scalar and std::vector overloads, proof for the vec overload |
| C05 | normalize / denormalize | field arithmetic, all dimensions |
| C06 | `findInterval` | loop invariant; counterexample at the last knot |
| C07 | `quantile` with sorting | sorted lists, permutation invariance |
| C08 | `appendVector`, `copyVector`, `head`, `tail` | list lemmas |
| C09-C18 | evolutionary algorithm: population, individuals, optimizer, roulette, file round trip | state machine invariants, counterexample for IDs |
| C19-C21 | gradient optimizer with oracle objective | invariants; non-termination shown by induction on fuel |
| C22-C24 | outer loop of the Bayesian optimizer: counters, retraining, trust region | induction over iterations |
| C25 | trust region boxes | clamp arithmetic |
| C26 | interleavings of check and guarded assignment | counterexample schedule; sequential and corrected versions proved |
| C27 | gradient ascent with step halving | monotone invariant, bounded fuel |
| C28-C33 | history matrix, best design, improvement, feasibility flags, crowding factor | folds over rows |
| C34 | `adjustSigmaFactor` | case analysis; division by zero as explicit outcome |
| C35-C36 | discrete rounding and normalized design | folds, floor arithmetic |
| C37-C41 | C++ API: file name, box constraints, trim, expression parser, DoE with crash points | state machines, string lemmas, trace prefixes |
| C42 | LHS sampling with oracle draws and permutations | strata counting |
| C43-C45 | matrix storage as flat column-major buffer with checked accesses | loop invariants |
| C46-C48 | LU with partial pivoting, Cholesky, triangular solves | invariants over elimination steps |
| C49 | row lookup | loop invariant |
| C50 | CSV: fixed notation printing and parsing | digit round trip |
| C51-C52 | correlation functions over the reals | analysis (derivatives) |
| C53 | data split | list partition, history of reads |
| C54-C55 | Kriging algebra, ridge regression | matrix algebra |
| C56-C58 | training effort, parallel reduction, duplicate check | state machines |
| C59-C61 | design samples, NaN guard, acquisition | case analysis |
| C62 | XML driver | key to setting map |
| C63 | determinants from Cholesky factors | product over the diagonal, Mathlib determinant |
| C64 | appending a row to a CSV text | text lemmas on lines |
| C65 | vector save and read, six significant digits | digit round trip |
| C66 | the search for the next design, all schedules | composition of C25, C26, C35, C36 |
| C67 | constraint definitions | string lemmas |
| C71 | exponential correlation derivative | real analysis |
| C72 | correlation matrix and Cholesky | positive semidefinite kernels, Schur product, Schoenberg |
| C73 | surrogate data object, derivative columns | chain rule |
| C74 | trust region counters | induction over the outcomes |
| C75 | predicted variance | positive semidefiniteness of the correlations of samples and query point |
| C76 | Kriging prediction | quadratic minimization with a side condition |
| C77 | histories of `addNewSampleToData` and `train` on (model, data file) | invariant: the object is the Kriging model of all rows of the file, kept by every call, ok or throwing |
| C78 | expected improvement with the decimal constants of the source | integral of the improvement against Mathlib's `gaussianReal`, error bounds for the constants |
| C79 | constraint estimates, penalty, all numbers and orders of constraints | fold over the constraints; normal distribution function |
| C80 | probability of improvement on a design object | the stale mean as a counterexample, correct after the expected improvement |
| C81 | the same driver model | every step returns on a text that meets the specification of correct files |
| C82 | design file, program run and output file of an evaluation; programs are arbitrary functions of the files and the run number | the printed parameters are numerals within half a unit of the sixth digit; false for more digits |
| C83 | the same | inversion of a successful evaluation; false for a program that exits with 0 without writing |
| C84 | the same, with the grammar of numbers accepted by `>>` | case analysis of the evaluation |
| C85 | objective and constraint evaluations of a sequence of designs | induction over constraints and designs |
| C86 | test files: reading, normalizing, estimates, errors | invariant over earlier tests, loop induction over the rows |
| C87 | header and text of the saved report | invariant over histories of tests and saves |
| C88 | in-sample error after reading data with a validation part | loop induction; Kriging models by C54 and C77 |
| C89 | counting rows within bounds | loop induction |
| C90 | the loop with the surrogate models as Kriging models on training data files; the acquisition function from these models | invariant over iterations: models, files, history and optimum are those of the designs so far, kept by every step, ok or throwing; C77, C78, C79 at every point |
| C91 | the same | every step returns in the states of the invariant, except trainings |
| C92 | sequences of such optimizations, the files handed on | induction over the optimizations |
| C93 | the same loop with failing simulations | inversion of the steps of the iteration |
| C94 | the calls of the C++ interface on study and optimizer | induction over the history from its end: each field is the setting of the last call that makes one |
| C95 | the same calls, with dimension and bounds of the functions | fails: a constraint added after the bounds has none, an objective function set before the dimension has dimension 0; proved for the order dimension, functions, bounds by invariants over the history |
| C96 | the writer of the XML file of the global optimum and the readers of numbers, words and lists, over texts | fails exactly: six fixed decimals, 1e-7 becomes 0; proved up to 5e-7 per number by reading back the written text, composed with the search in the history |
| C97 | the three functions that save a design, as functions from the old to the new content of the file | fails for the report: nothing separates the parameters, (1, 23) and (12, 3) give the same file; the two other files are proved to be read back with ten digits |
| C98 | the functions that build headings and log messages of designs, with the unsigned arithmetic of the border length | fails for messages longer than the width (`length_error`); proved for messages that fit, and that the messages the optimizer writes about designs never throw |
| C99 | `SurrogateModelTester` with its linear and Kriging objects and the uninitialized pointer to the tested one, the set-up calls, the test with the files it reads and writes | fails when the type is set after the models are bound (the pointer may be unset: undefined behaviour); proved for every sequence of calls in terms of the type at the last effective `bindSurrogateModels`, for linear and Kriging models, and that every second test with a tester throws |
| C100 | `EAOptimizer::optimize` with all loops, the roulette wheel and the selection of the second parent (unbounded in the code: fuel) | fails for constant positive objectives; for values of at most -1e-4 an invariant (population maximum stays `DBL_MIN`, fitness between 1/100 and 1) shows that no step throws and each individual keeps a share of the wheel, so fair draws end the selection loops |
| C101 | `KrigingModel::train` with the search of all threads (C57) on top of the complete evolutionary algorithm (C100) | fails for constant values; the criterion is computed in closed form (Cholesky, log determinant, estimated variance), bounded with Hadamard's inequality and the nugget, and C100 gives completion |
| C102 | `GlobalOptimalDesign::setGradientGlobalOptimumFromTrainingData` on top of the CSV reader and the row lookup | false for one parameter without gradients; closed form of the call for any number of columns behind the value |
| C103 | `mat::fill`, `fillRandom`, `eye`, `isSymmetric`, `isEqual`, `generateRandom…` cell by cell; the draws are a stream | loop invariants over the storage; quadratic form of `T T^T` as a sum of squares; `eye` and definiteness refuted |
| C104 | `vec` arithmetic, norms, `unitVector`, extrema, mean, deviation, `sort`, `is_sorted`, tests with tolerance, random direction | each loop against the mathematical definition; norm of the scaled vector; first extremum by scan invariant |
| C105 | the gradient-based step: scaling of the gradient, the trial loop as an interleaving of threads that share the trial design, mode and window updates | invariants over the steps of one thread and of all schedules; counterexamples for the corner and the race; induction over the series of steps |
| C106 | the linear and Kriging models, their criterion and training, for two statements of the same data | the normalized inputs are equal up to a permutation of the rows; the generalized least squares equations, the determinant and the ridge minimizer are carried along the permutation; the search is a function of the criterion |
| C107 | the same for values in other units | as C106, with the affine change of the values; counterexample for another origin with a linear trend, because the regression penalizes the intercept |
| C108 | the life of `mat` and `vec` objects on one heap: blocks, pointers, constructors, copies, moves, assignments, changes of size, reading of files, destructors, failed allocations, sizes modulo 2^32 | refinement: an invariant relates the heap to a store of independent values; every call keeps it, by induction over the program; counterexamples for an assignment that runs out of memory, sizes of 2^32 elements and files with uneven rows |
| C109 | two runs of the search (`Acq`, `mostPromising`, `findDesignToSimulate`) whose objective and constraints are related by affine changes of units | both acquisition values are computed and compared; simulation between the states of the parallel searches; concrete counterexample for the gradient improvement |
| C110 | two whole optimizations (`Campaign.perform`), the second on the files the first leaves behind | what the first run leaves in the files (rows kept, rounding to 12 digits, samples dropped as too close) is followed into the initial history of the second run; concrete pair of runs as counterexample |
| C111 | saving, loading and training of a Kriging model with the warm start flags | the text of the file is the six digit rendering of the hyperparameters; a warm start gives the fitted model of the hyperparameters read; the predictions of a fitted model are determined by table and hyperparameters (as for C106); two rows and 12.34567 as counterexample |
| C112 | the search for the next design in IEEE double arithmetic (`Model/Dbl`, `Model/DblSearch`): every operation is the exact one followed by rounding to the nearest double (ties to even), overflow is an error; the same functions as for C01 and C05, the answers of the surrogates are arbitrary | rounding is monotone and fixes doubles; draws and normalized designs stay in [0, 1/n]; denormalization is bounded by the rounded width; concrete runs as counterexamples |
| C113 | the grid of a discrete parameter in double arithmetic, bounds and increment rounded from decimal numbers | relative error bounds of difference, quotient, product and sum; 0, 0.3, 0.1 as counterexample; integers are doubles |
| C114 | `normalizeVector` followed by `denormalizeVector` in double arithmetic | relative error of each of the seven operations, composed; exactness at the lower bound because 0 is exact; concrete doubles as counterexample |
| C115 | the accumulation loops of `dot`, `matVecProductNaive` and `mean` in double arithmetic (`Model/DblLin`) | induction over the loop with the invariant that the partial sum differs from the exact one by ((1+2^-53)^k - 1) times the sum of absolute terms plus underflow; no overflow by the same bound |
| C116 | `choleskyNaive`, `solveCholeskyNaive` and the `CholeskySystem` calls in double arithmetic (`Model/DblLin`); the square root is the rounded exact one | each computed entry satisfies its equation up to rounding (invariant of the loops); pivots stay positive by a perturbed Schur complement; sizes of the substitution vectors by the lower bound of the quadratic form on leading and trailing blocks; residual by composition; concrete doubles as counterexample of the full statement |
| C117 | objective functions as objects in a memory with the pointer `surrogate` (`Model/FnCopy`); the Kriging model and the other members are arbitrary | simulation of values: objects equal values, and objects connected since their last copy point to themselves; a copied pointer is a witness against the full statement |
| C118 | the loops as threads whose steps carry the shared variables they read and write, with the lock of the critical sections (`Model/Race`); a race is two threads whose next steps conflict (`Spec/Race`) | lock invariants over all schedules; explicit schedules that reach a conflict; exact conditions for each loop |
| C119 | the correlation matrix, the estimate of the mean, the weights and the variance in double arithmetic (`Model/DblCorr`); `exp` and `pow` are arbitrary functions with an error below one unit in the last place (`Spec/DblCorr`) | error of each correlation by propagation through the sum and the exponential; the exact matrix is positive semidefinite, so the number on the diagonal is a margin for C116; energy argument for the denominator of the mean; two equal samples without a number on the diagonal as counterexample |
| C120 | the prediction in double arithmetic on top of C119 | the row of the matrix and the correlation vector at a sample agree off the diagonal (rounding is symmetric in the sign); residual bound of C116; error of the scalar product (C115) |
| C121 | `setDataAddMode` and both forms of `addDesignToData` with all modes and both fidelities (`Model/AddData`) on top of the Kriging model and its file | cases of the mode; the histories of C58 for the state of the model; induction over the calls for two fidelities; a lost design as counterexample |
| C122 | both variants of every function with an `#ifdef OPENBLAS` (`Model/Blas`), the library as an arbitrary structure `Blas` restricted by `Spec.Documented` | equality of the two models entry by entry; uniqueness of Cholesky factors, inverses and solutions; counterexamples where the built-in tests on pivots differ |
| C123 | as C122 | from the documented behaviour of `dpotrf`, `dgetrf`, `dgetrs`, `dgetri`, `dgesv` and the triangular solves to the statement about positive definite or nonsingular matrices; a real library (`realBlas`) shows that the assumption can be met |
| C124 | `Model/Blas` on top of the Kriging and linear models | the Kriging and ridge matrices are positive definite, so C122 applies to every factorization |
| C125 | `interpolateWithVariance` with every operation rounded (`Model/DblVar`) on top of `Model/DblCorr` | the correlation matrix of the samples and the point is positive semidefinite, which bounds the product of the correlations and the computed solution by 1 plus rounding errors below the 1e-9 of the code; the energy of the computed weights dominates the errors of the dot product, so that the process variance is not negative |
| C126 | `calculateExpectedImprovement`, `cdf`, `pdf` and the feasibility probabilities with every operation rounded (`Model/DblAcq`) on top of `Model/DblVar` | relative errors of the arguments change the normal distribution function and the exponential by a multiple of the errors, because z times the density and b times exp(-b/2) are bounded; the remaining operations add one rounding each; a computation at -8.3125 deviations shows that the value can be negative |
| C127 | `calculateLogDeterminant` and `calculateLikelihoodFunction` with every operation rounded (`Model/DblLik`) on top of `Model/DblVar` | the computed factor is the exact factor of a nearby matrix; the squares of the pivots of two matrices are ordered like their quadratic forms, so that each pivot and hence the log determinant has a small error; the sum, the logarithms and the last operations add their roundings; two equal samples without a diagonal number show that the condition is needed |
| C128 | no new definitions: `fit` and `estimate` of `Model/DblCorr` | the computed weights solve the exact equations up to a residual; the equations of the best linear unbiased predictor turn the residual into an error of the prediction, bounded by the size of its weights; the sum of the weights comes from the computed mean; existence of the predictor from the margin of the exact matrix |
| C129 | `Model/DblLU`, `Model/DblEA`: the LU inverse, the fitness polynomial, the quantile, both probabilities and both roulette wheels with every operation rounded | false: thirteen individuals get 0/0 as death probabilities, and five individuals have a draw that selects nobody; the rest by the error of list sums, of quotients, of the interpolation between two order statistics, and counting in the sorted list |
| C130 | `Model/DblLU`: LU factorization with partial pivoting, both substitutions and the inverse with every operation rounded | induction over the columns: every entry of the permuted matrix is the sum of the products subtracted so far plus the rest, up to `gam k` times their absolute values; the same step for both substitutions; the three errors combined in the residual; growth at most 2 per column because twice a double is a double |
| C131 | `Model/DblDoE`: both fillings of a matrix with random samples and the choice between them, with every operation rounded | the computed cut points start at the lower bound, are monotone and within eight units in the last place of the exact ones; a draw stays between its two cut points (C112); the shuffle is a bijection; a sample above the upper bound refutes the exact statement |
| C132 | `Model/DblLinear`: the normal matrix, its inverse and the weights of the linear regression with every operation rounded, and the prediction | the computed normal matrix is near the exact one, whose quadratic form is at least lambda; the inverse of C130 gives the residual of the normal equations; the loss is a quadratic, so the residual bounds the distance from the least loss; the same coercivity bounds the computed inverse and excludes a failed pivot; refuted by a sample far outside the box, where the regularization is lost in the sum |
| C133 | `Model/DblGrad`: the gradient optimizer (finite differences, line search, loop) with every operation rounded | the two points and the quotient are followed through five roundings; the mean value theorem over the reals; induction over the binary exponent of the step size, which is zero after 2099 halvings; refuted by a steep parabola whose minimizer is not a double, where no double is better than the start and the loop never ends |
| C134 | `Model/DblTrust`: start, enlargement, shrinking and the two windows of the trust region with every operation rounded | rounding commutes with powers of two away from the subnormal numbers and with clipping because it is monotone, so induction over the outcomes gives equality with the rounded exact run; one window coordinate is followed through its roundings; refuted by a normalized design above the computed 1/5 |
| C135 | `Model/DblEARun`: `optimize` and everything below it that computes, with rounded operations; `Model/DblEA` for fitness and selection | the run-level simulation of C10 - C12 repeated for the rounded program: rounded random points stay between double bounds, an update of the population properties keeps IDs, genes and values and fails for a single individual, and clamping gives exact membership |
| C136 | `Model/DblEARun`: `normalDraw` | relative error of each of the six operations, combined by one algebraic lemma; refuted by the genes 0 and 2^-1074, where the standard deviation underflows to zero and is replaced by one |
| C137 | `Model/EA` and `Model/DblEARun`: `crossOver`, `applyMutation`, `normalDraw`, `clampGenes` | value of every gene after each of the three loops (invariant of the clamping loop), then interval arithmetic; the rounded version uses the bound of C136 and that clamping does not increase distances |
| C138 | `Model/DblCrowd`: `calculateCrowdingFactor`, `vec::operator-` and `vec::norm(L1)` with every operation rounded | both loops with the invariant that the partial sum of p distances has the relative error of dim + 1 + p operations; subtraction and addition of doubles have no underflow error, doubling is exact, only the last division adds the absolute term |
| C139 | `Model/DblSigma`: `adjustSigmaFactor` and the growth of the multiplier with rounded operations, where overflow gives an infinity | each operation keeps the relation "approximates the exact value, or is infinite and the exact value is huge"; limiting does not increase distances; induction over the iterations for the multiplier |
| C140 | `Model/DblSplit`: the size computed in `generateRandomIndicesForValidationData` in doubles, with the conversion to `int` | whole numbers below 2^53 are doubles and rounding is monotone, so the result lies between floor and ceiling; false for decimal ratios such as 0.29 with 100 samples, proved away from whole numbers |
| C141 | `Model/DblImp`: `calculateImprovementValue` in doubles, over the sequence of designs of a run | the differences of doubles have relative errors and are positive for distinct doubles, rounding is monotone; the marker for "no feasible sample" is recognised by a sum that is at least 1 for all other values in range; false for close designs: values 2 and 1 against 2^60 have the same improvement; proved for designs further apart than 2^-52 of the distance from the reference |
| C68-C70 | C++ API: constraint bookkeeping, rejected calls, mandatory settings | invariants over histories of calls |

## Trusted base

* Lean 4.33.0 kernel. Axioms used by the theorems: at most `propext`, `Classical.choice`, `Quot.sound`. No axioms are added, no `sorry`, no `native_decide`, no `bv_decide`.
* The reading of the C++ code: the model is hand written from the source and not extracted.

## What is modelled and what is not

Modelled (each definition cites its lines):

* `Bounds/bounds.cpp`; `LinearAlgebra/vector.cpp` (access, bounds, normalisation, intervals, quantile, splicing, CSV); `LinearAlgebra/matrix.cpp` (storage, row and column editing, reading, products, lookup, CSV); `LinearAlgebra/linear_solver.cpp` (LU and Cholesky, the variants without OpenBLAS).
* `InternalOptimizers/ea_individual.cpp`, `ea_population.cpp`, `ea_optimizer.cpp` including the warm start file.
* Number printing and parsing as used by the files (`std::fixed`, `std::scientific`, default float format, `std::stod`, `std::stoi`, `std::getline`).
* `InternalOptimizers/gradient_optimizer.cpp` (differences, line search, multistart), `Optimizers/optimization_history.cpp`, `Optimizers/globalOptimalDesign.cpp` (selection of the optimum, without gradient reading and XML), `Design/design.cpp` (sizes, samples, NaN test).
* `Optimizers/optimization.cpp`, `optimization_constraint_functions.cpp`, `efficient_global_optimization.cpp`: initial history, improvement values, trust region, discrete parameters, the two parallel searches as interleavings of atomic steps, the local ascent, and the whole loop for objectives without gradients. Simulations, surrogate answers, training and random draws are arbitrary functions of the iteration. The step for objectives with gradients (`changeSettingsForAGradientBasedStep` is modelled) is not part of the loop.
* `API/cppAPI.cpp`: all setters with what they write to the optimizer, the initial sampling as a list of evaluations and file writes (one character per write), `run` up to the start of the optimization. `chdir` is modelled as a test; relative file names are not resolved.
* `CorrelationFunctions/*.cpp` and the correlation functions of `vector.cpp`/`matrix.cpp`: all, over the reals (`exp` and `pow` are the real functions; `pow(0, negative)` is an error). `print` is not modelled; the OpenBLAS variants are in `Model/Blas`.
* `Model/SurrogateData`: reading of training, validation and test data, the random split (shuffle as a permutation), normalization of inputs, gradients and directional derivatives, return to the full data (surrogate_model_data.cpp). Printing and the accessors are not modelled.
* `Model/Linear`: the linear regression model: reading, normalization, initialization, training, prediction (linear_regression.cpp). The uninitialized regularization parameter is an absent value whose use is undefined behaviour. Printing is not modelled.
* Kriging (`kriging_training.cpp`): settings, reading, normalization, initialization, auxiliary fields, prediction and variance, hyperparameter file, the two training objectives, the parallel search, the return to the full data, adding a sample. Over the reals with the real `exp`, `pow`, `sqrt`, `log`; rounding is not modelled. Not modelled: printing, logging, the SVD variant, derivative-enhanced prediction.
* Kriging training (`Model/Kriging`, second half): `train` with its per-thread evolutionary search on
  a copy of the model, both objective functions, the critical section (a schedule is the order in which
  the threads enter it), the hyperparameter file and the return to the full data.  The objective
  writes to the thread's copy of the model; `Kriging.score_stateless` shows that no later value depends
  on that.
* Acquisition function (`Model/Acquisition`): expected improvement, probability of improvement, constraint
  estimates (surrogate model or user defined function), feasibility probabilities, penalty.  Over the
  reals, with `erf` as its integral; the constants `SQRT2`, `INVSQRT2PI`, `EPSILON` are the decimal numbers of the source.
  A surrogate model is the function that `interpolateWithVariance` computes; `answers_of_built`
  connects it with the Kriging model.  Not modelled: the variants with derivatives and gradients.
* Configuration files (`Model/Driver`): the XML functions on texts (`find`, elements between tags, integers,
  numbers), the keyword tables, general settings, parameters, objective function, constraints (line by line)
  and what `Driver::run` hands to the optimizer.  Not modelled: log messages, the values of vector valued
  keywords (read but not used by the code), and the run of the optimization itself (see `Model/EGO`).
* Evaluation of designs by external programs (`Model/Evaluate`): the design file, the command, the exit code, the output file, constraints in files, in memory and user defined. Not modelled: programs that never end, files changed by somebody else while no program runs, how the command line is split into words.
* Testing of surrogate models (`Model/ModelTest.lean`): test files, estimates with or without derivatives and variances, report rows, generalization and in-sample error, header and text of the report, counting of samples within bounds. The model under test is any predictor; Kriging and linear models are instances. Not modelled: printing, plots.
* Whole optimizations with surrogate models and training data files (`Model/Surrogates.lean`, `Model/Campaign.lean`): initialisation, training and growth of the Kriging models of objective and constraints, the files they use, the acquisition function computed from them, inside the loop of `Model/EGO`. Simplified: one fidelity, values without derivatives, models of the two Kriging kinds, simulations that do not touch the training data files. Every value is a real number except those the predicate `isNan` marks.
* `OptimumFile`: the XML file of the global optimum (`GlobalOptimalDesign::saveToXMLFile` and the functions it calls) and the readers of lists in xml_functions.cpp. The stream that writes is a function from the old to the new content; a file that cannot be opened is the flag `true`/`false` of `saveToXMLFile`.
* `DesignFile`: the functions that save a design to a file and build the log messages about it. The tag of a design is an argument; writing to the log itself is not modelled.
* `Tester`: the class `SurrogateModelTester` (surrogate_model_tester.cpp): set-up calls, checks, the test of a linear or Kriging model with all files. The three classes of models are a record of functions (`ModelClass`), as in the C++ virtual functions; log messages are not modelled except the training error.
* the gradient of the global optimum (`Model/OptimumGradient`): `setGradientGlobalOptimumFromTrainingData`
* Special matrices (`Model/Special`) and the numerical functions of vectors (`Model/VecStat`).
* The gradient-based search step (`optimization.cpp` 457-663): its threads share the trial design without a critical section; the model interleaves whole statements, which are the most benign outcomes of this data race.  The surrogate models of the library throw when they are asked for a prediction with derivatives.
* `Model/Heap`: `mat` and `vec` objects that share one heap; every call may run out of memory. Blocks are never reused after they are freed; overloads with `std::vector` and files are not part of it, and `push_back` on a vector of 2^32 - 1 elements is left out.
* A restart is the model of a campaign applied to the files another campaign has left behind; the first campaign may also have ended early because a simulation or a training failed. Files are read back through the modelled printing and parsing of numbers.
* The warm start of the Kriging model: the file with the hyperparameters is text, written and read through the modelled printing and parsing of numbers.
* `Model/Dbl`, `Model/DblSearch`: IEEE double arithmetic with subnormal numbers: the result of each addition, subtraction, multiplication and division is the nearest double, ties to even; a result of 2^1024 or more is reported as an error of the model. It is used for the search for the next design and for the values of discrete parameters (C112, C113 and later properties that mention doubles). The CMake files of the project ask for `-O2` without `-march` or `-ffast-math`, so the compiler neither contracts nor reorders these operations on x86-64.
* `Model/DblLin`: `vec::dot`, `vec::mean`, `mat::matVecProduct`, `mat::cholesky`, `mat::solveCholesky` and the `CholeskySystem` calls with every operation rounded to the nearest double (C115, C116); only the paths without OpenBLAS, whose order of summation is not fixed.
* `Model/FnCopy`: the copy constructor, assignment and destructor of `ObjectiveFunction`/`ConstraintFunction` given by the compiler, `bindSurrogateModel`, `initializeSurrogate` and the calls through the pointer `surrogate` (C117); what the Kriging model does is arbitrary, and an address is not used again for another object of another name.
* `Model/Race`: the five OpenMP loops with the shared variables that each step of a thread reads and writes and the lock of the critical sections (C118); the word-level steps of libstdc++'s `mt19937` and of `vec::operator=` when several threads make them, under sequential consistency. The model of the training (C57) gives every thread its own random numbers; in the code the generator of the populations is one static object, and C118 says what that can lead to.
* `Model/DblCorr`: `vec::computeExponentialCorrelationNaive`, `mat::computeCorrelationMatrixExponentialNaive`, `mat::addEpsilonToDiagonal`, `ExponentialCorrelationFunction::computeCorrelationMatrix` and `computeCorrelationVector`, the numerical part of `KrigingModel::updateAuxilliaryFields` and `KrigingModel::interpolate` without the linear part, with every operation rounded (C119, C120). `exp` and `pow` of the C library are a parameter.
* `Model/AddData`: `ObjectiveFunction::setDataAddMode`, `validateDataAddMode` and both `addDesignToData`, with all modes and two fidelities (C121).
* `Model/Blas`: the OpenBLAS variants of `vec::dot`, `vec::scaleAndAdd`, the correlations, `mat::matVecProduct`, `mat::matmatProduct`, `mat::cholesky`, `mat::solveCholesky`, `mat::lu`, `mat::solveLU`, `mat::invert`, `mat::solve`, the solver objects, and the linear regression and Kriging model built on them. The library is a structure of arbitrary functions; the theorems assume `Spec.Documented`, and `realBlas_documented` shows that the assumption is consistent. Found while reading: the pinned sources compile only with OpenBLAS, since vector.cpp 1091-1106 calls `cblas_ddot` outside of the `#ifdef`.
* `Model/DblVar`: the variance and standard deviation of a Kriging prediction in doubles, with the two limits of 1e-9 in the code; the root of a negative number is the error `nonFinite`.
* `Model/DblAcq`: the expected improvement and the feasibility probabilities in doubles; an infinite quotient or exponent is the error `nonFinite`, which the theorems exclude in their range.
* `Model/DblLik`: the log determinant and the likelihood in doubles, for the fields that `Model/DblVar` computes; `log` of the C library is a parameter, the logarithm of a number that is not positive is the error `nonFinite`.
* The selections of the evolutionary algorithm in double arithmetic (`Model/DblLU`, `Model/DblEA`): the LU
  factorization, solves and inverse without OpenBLAS, `vec::quantile`, the fitness polynomial, the two updates of
  the probabilities and the two roulette wheels. A NaN death probability ends the run of the model, where the code
  stores it and fails at the next death selection.
* `Model/DblDoE`: `mat::fillRandom` and `mat::fillRandomLHS` for bounds and `generateDoESamplesInput` in doubles, for arbitrary draws in [0,1) and shuffles (C131).
* `Model/DblCrowd`: the crowding factor of the history in doubles; the number of pairs is computed modulo 2^32 as in the code.
* `Model/DblSigma`: the exploration factor in doubles with infinities and NaN, for a finite multiplier.
* `Model/DblSplit`: the number of validation samples in doubles; a conversion to `int` out of range is `Err.ub`.
* `Model/DblImp`: the improvement values in doubles; an infinite difference is `Err.nonFinite`, an infinite sum in the comparison with the tolerance is not below it.
* NaN: where a property is about NaN the model uses a type with infinities and NaN (`Ext`), or an arbitrary predicate `isNan` on the numbers; elsewhere numbers are finite.
* Further parts as listed in the table of properties below.

Not modelled:

* IEEE rounding, overflow, infinities, signed zero, except in `Model/Dbl*`; elsewhere numbers are elements of an ordered field. Decimal printing rounds ties upwards in magnitude; `glibc` rounds exactly representable ties to even. No theorem depends on the direction.
* `stod`/`stoi` on `inf`, `nan`, hexadecimal input and on values outside the range of `double`.
* The implementation of OpenBLAS and LAPACK and their rounding. C122-C124 assume what their documentation says, in exact arithmetic; the theorems on doubles (C115, C116, C119, C120) are about the built-in loops, since the order of operations in the library is not fixed.
* `unsigned int` and `size_t` wrap-around of sizes and IDs beyond 2^32; small wrap-arounds that the code meets (`nrows-1` for zero rows) are modelled, and so is the product of counts in the crowding factor (C33) and in the size of a matrix (C108).
* Console output and logging, process execution of user simulations, `assert` in release builds, file system failures other than a missing file.
* Termination of loops whose end depends on random draws: such loops take fuel and return `Err.outOfFuel`, which is not an outcome of the code; theorems about completed runs hold for every amount of fuel.

<!-- disagreements -->
## Status and disagreements between properties and code

Generated from the manifest. "partial" means that the English property is false of the code or not fully proved; the note says what is missing.

| id | title | status | note |
|----|-------|--------|------|
| C01 | A Bounds object that says it is set holds a valid box | partial | The full property is false of the code (rejected setBounds, setDimension on a set object, surplus or missing upper bounds). C01_partial proves it for all histories of harmless calls; C01_step_iff shows the restriction is exact. |
| C02 | Point-in-box test is exact | proved |  |
| C03 | Random designs stay inside the box | proved | uniform_real_distribution modelled as a+u(b-a) with 0<=u<1, no rounding |
| C04 | Inner optimizers reject inverted bounds | partial | False for the scalar and std::vector overloads (counterexamples); the vec overload is characterised exactly. |
| C05 | Normalization and denormalization of designs are inverse and map the box to [0,1/d] | proved | exact arithmetic |
| C06 | findInterval covers the whole line | partial | False at the last entry (C06_gap shows it for every sorted vector); proved for all other values. |
| C07 | Quantile lies between order statistics | proved |  |
| C08 | Vector splicing keeps every element | proved |  |
| C09 | Individuals in the evolutionary population have distinct IDs | partial | False: the first child reuses the ID N of the last initial individual. Proved: every other ID is unique at every point, N occurs at most twice. |
| C10 | The evolutionary optimizer returns the best individual it holds | partial | False when the best individual has the doubly used ID. Proved: otherwise the solution is a best member, and its value is the objective value of its design. |
| C100 | A search with the evolutionary algorithm completes | partial | False in full: a search on a constant positive objective always fails, because the fitness cannot be scaled (C100_constant, C100_false). C100_partial: for objectives with values of at most -1e-4 everywhere in the box the search completes for every fair sequence of draws, and for any sequence of draws the only obstacle is the endless selection of a second parent. |
| C101 | Training of a Kriging model completes | partial | False in full: if all samples have the same value (after subtraction of the trend) every call of train fails (C101_constant, C101_false), because the search cannot scale a constant criterion. C101_criterion: the criterion is the negative log likelihood with the estimated process variance. C101_partial: training returns for every fair sequence of draws and every schedule if the criterion is at most -1e-4 for all hyperparameters; C101_small: this is so if the values differ and their mean square deviation is smaller than the nugget. |
| C102 | The gradient attached to the optimum is that of its training sample | partial | False in full: for one parameter and training data with values only, the value of the sample is taken as the gradient (C102_false). Proved: with gradients in the file the optimum gets the gradient of the first row whose parameters agree up to 1e-5 in every entry and the call throws if there is none (C102_partial); a file without gradients is refused for two or more parameters (C102_values); nothing but the gradient changes (C102_only_gradient). |
| C103 | Special matrices are what their names say | partial | False in full: eye() only writes the diagonal, so a matrix with other entries does not become the identity (C103_false), and equal draws give a singular matrix (C103_false_definite). Proved: eye() gives the identity exactly if the entries off the diagonal were zero; the matrix called positive definite is always symmetric and semidefinite, and definite exactly for draws with independent rows; all other parts in full. |
| C104 | Vector functions compute what they are named after | proved | Exact arithmetic with a square root function; the random direction exists for every draw except the one that hits the middle of the interval in all components, which throws. |
| C105 | A gradient-based search step proposes the best downhill design of its window | partial | False in full: if no trial is downhill (best design in a corner) the proposal is a design without parameters (or, with constraints, the lower bounds), and a second thread can overwrite the shared trial design before it is stored, so an uphill design is proposed. Proved: one thread and a downhill trial give the best downhill trial of the window; for every schedule the proposal is a trial of the window or the start design; the series of at most five halving steps; fallback to the global search. Also proved: with the surrogate models of the library no gradient-based search ever finds a design (it throws at the first downhill trial), and a run of the optimizer never makes such a step because nothing switches it on. Objectives without gradients are searched globally and locally only (C105_plain). |
| C106 | Surrogate models do not depend on the order of the samples and the units of the parameters | proved | Predictions and variances of Kriging models after any history, the likelihood criterion, the whole training and linear regression, for any reordering of the rows and any units of the parameters. |
| C107 | Surrogate models follow the units of the values | partial | False in full: with a linear trend a shift of the values does not carry over to the predictions, because the regression penalizes the intercept (C107_false). Proved: other units for all models, another origin for Kriging without trend, and the criterion changes by a constant. |
| C108 | Matrices and vectors are values | partial | False in full: an assignment that runs out of memory leaves an object that is released twice (C108_false), matrices of 2^32 or more elements have too little memory (C108_size), and a file with uneven rows destroys the matrix it is read into (C108_file). Proved for all other programs, with lack of memory in any other call. |
| C109 | The choice of the next design does not depend on the units | partial | False in full: the gradient-based improvement goes a fixed multiple of a gradient that is measured in the unit of the objective function, so the proposed design changes with the unit (C109_false). Proved: the acquisition value changes by the unit of the objective only, for all units of the constraints, including reversed inequalities, at points where the deviations are zero or above the fixed thresholds of the code (C109_partial); the order of the designs stays the same (C109_order); the random search finds the same design for every schedule (C109_search); in a unit that is too small every value is zero (C109_small_units). |
| C11 | Evolutionary designs never leave the box | proved | For every box, objective, stream and number of generations, including runs that fail. |
| C110 | A second optimization begins where the first one ended | partial | False in full: a sample closer than 1e-4 to a stored one is not stored, but constraint values are looked up with the tolerance 1e-8, so a feasible best design can count as infeasible in the second optimization, which then begins without a feasible design (C110_false). Proved for every pair of optimizations, also when the first one ended early: without constraints the second begins with a feasible design whose value is at most 1e-4 worse and at most 5e-13 better (C110_partial), and the loss can be 1e-5 (C110_tolerance); a best design that came from the initial data survives exactly (C110_initial); every simulated design that stays feasible under rounding to twelve digits and is 2e-4 apart from all others survives up to 5e-13 (C110_separate); rounding keeps designs in a box whose bounds have at most twelve digits (C110_rounding). |
| C111 | A model started from saved hyperparameters is the saved model | partial | False in full: hyperparameters are saved with six significant digits, so a model trained with 12.34567 comes back with 12.3457 and predicts other values (C111_false). Proved: every trained model can be saved, every warm start from such a file returns for all random numbers and schedules, leaves the file unchanged, and gives the hyperparameters rounded to six digits; with at most six digits the predictions and variances are the same (C111_partial); saving and loading once more changes nothing (C111_again). Training without warm start leaves in the file exactly what the trained model saves (C111_written). A file with another number of entries is ignored without a report and the model predicts as before (C111_ignored). A missing or unreadable file is reported and nothing changes (C111_unreadable). |
| C112 | Rounding errors do not push a proposed design out of the box | partial | False in full, in exact IEEE double arithmetic: with one parameter between -3 and 0.1 the search proposes 0.10000000000000009 (C112_false); with discrete values from 0 to 1.7 in steps of 0.1 it proposes 1.7000000000000002 (C112_false_discrete). Proved for every surrogate, draw and schedule: no value is below its lower bound and none exceeds its upper bound by more than 2^-50 of the size of the bounds (C112_partial); a continuous parameter leaves its interval only at the greatest normalized value and only if the computed (upper-lower)+lower exceeds the upper bound (C112_safe, C112_box), never if the width is a double (C112_test). Consequence: the search around a best design at such an upper bound is skipped (C112_skipped). The rounding of the model is characterized as round to nearest, ties to even (C112_rounding), and uniform draws stay in their interval (C112_draw). |
| C113 | A discrete parameter can take every value of its grid | partial | False in full: between 0 and 0.3 in steps of 0.1 there are only the values 0, 0.1, 0.2 (C113_false), so a design at 0.3 is simulated at 0.2 (C113_lost). Proved for all decimal inputs up to 2^47 steps from zero: the values are computed, there are m or m+1 of them, and value k is within 2^-50 of the size of the bounds of lower bound + k steps (C113_partial). For integer bounds and steps all m+1 values are exact (C113_integers). |
| C114 | Normalizing and denormalizing a design gives it back | partial | False in full, in exact IEEE double arithmetic: between -3 and 0.1 the value 0.1 comes back as 0.10000000000000009 (C114_false), and a normalized value can exceed 1/n (C114_above). Proved for every number of parameters and every box neither extremely narrow nor extremely large: both calls return, each value comes back up to 14/2^53 of the size of its bounds, and lower bounds come back exactly (C114_partial). |
| C115 | Sums, means and products of vectors and matrices are accurate in doubles | proved | In exact IEEE double arithmetic, the versions without OpenBLAS. Proved for all lengths below 2^32 and all entries whose absolute terms sum to at most 2^1000: no overflow, and the stated error bounds. |
| C116 | The Cholesky solver solves every positive definite system in doubles | partial | False in full: for the positive definite matrix with rows (1, 1+50331648*2^-52) and (1+50331648*2^-52, 1+100663297*2^-52) the factorization reports success with a last pivot of 0, and the solution divides by zero (exNear_cholesky, C116_false). Proved in exact IEEE double arithmetic for all symmetric matrices of doubles whose least eigenvalue is at least 17/16 (n+5) (n+2) 2^-53 times their largest entry, and right-hand sides up to 2^100: the factorization succeeds and its product is the matrix up to rounding errors (C116_factor); the solve returns, its residual is at most 25/8 (n+2) 2^-53 times the largest entry times the sum of the absolute values of the solution, and the distance to the exact solution is that residual over the least eigenvalue (C116_partial). Whatever the matrix, every finite result has this residual (C116_residual). |
| C117 | Copies of objective and constraint functions are independent | partial | False in full: the compiler's copy keeps the pointer to the surrogate model of the original, so a sample given to a copy goes to the original (C117_false, in general C117_alias) and a call to a copy whose original is gone is undefined behaviour (C117_dangling; this is what the growth of the optimizer's vector of constraints does after initialization). Proved for all programs in which every function that is used has been connected itself since it was created, copied or overwritten: all answers and final states are those of independent values, without undefined behaviour (C117_partial, C117_safe), in particular for an optimizer whose functions are all added before initialization (C117_optimizer). A definition with another model type than the two Kriging models leaves the pointer uninitialized (C117_other_kind). |
| C118 | The parallel loops have no data races | partial | False in full (C118_false). Proved for every loop with one thread (C118_partial), and for each loop the exact condition under which no schedule has a race: the search is free of races iff no two threads have work where one has a candidate better than the start (C118_search; the comparison is outside of the critical section, two assignments never overlap: C118_search_assignments), the gradient-based search iff only one thread has trials (C118_gradient: the trial design is shared), the training iff at most one thread draws random numbers (C118_training: the generator is static; the best result itself is protected: C118_training_result). What the races can lead to: a word read from outside the table of the generator (C118_generator, never with one thread: C118_generator_single) and memory deleted twice (C118_assignment). C118_search_refines: every execution of this model is one of the model used in C26. |
| C119 | Every Kriging model can be fitted in doubles | partial | False in full: setEpsilon accepts 0, and then two equal samples give the matrix of ones, whose factorization reports success with a last pivot of 0, so that the fit divides by zero (exTwin_fit, C119_false). Proved for all samples and hyper-parameters in doubles and all libraries with errors below one unit in the last place: each entry of the matrix has an error of at most (m+10) 2^-54 (C119_matrix); it is factorized and every system is solved if epsilon is at least 17/16 (n+5)(n+2) 2^-53 (1+2 epsilon) + n (m+10) 2^-54 (C119_factor); the whole fit returns if epsilon is at least 10/3 (n+1)(n+2) 2^-53 (1+2 epsilon) + n (m+10) 2^-54 (C119_partial), which for the default 1e-12 covers all models with at most 45 samples of at most 45 variables (C119_default). For more samples with the default value nothing is claimed. Not modelled: the paths with OpenBLAS. |
| C12 | The evolutionary evaluation budget is honoured | proved | Exact number of evaluations of a completed run. |
| C120 | In doubles the prediction at a training sample is the training output up to a known error | proved | In exact IEEE double arithmetic: for every fit that returns and positive exponents, /prediction - output/ at sample i is at most epsilon /w_i/ + (9(n+2)+m+10) 2^-53 sum /w_j/ + 3 (/y_i/+/beta0/) 2^-53 + 2^-399 (C120_sample); under the condition of C119 the fit returns and the prediction is finite at every point (C120_total). Normalized inputs and outputs, without the linear regression part and the paths with OpenBLAS. |
| C121 | A design is added to the training data in every mode that can be chosen | partial | False in full. With two fidelities (definition.ifMultiLevel) no call ever changes the file: the modes that can be chosen return without a word (C121_multi_silent, C121_false) and the two modes meant for it cannot be chosen (C121_mode) and would throw; this includes the call of the optimizer (C121_multi). With one fidelity the modes adjoint and tangent always throw and add nothing, because the Kriging model takes only values (C121_derivatives). Proved for one fidelity and the mode primal, the one of the optimizer: after every history of trainings and samples the design is added, or a row within 1e-4 in all entries is there already (C121_partial). |
| C122 | Builds with and without OpenBLAS give the same results | partial | False in full. The library refuses positive semidefinite matrices, which the built-in Cholesky accepts (C122_false), the built-in inverse refuses matrices with a pivot below 1e-9 (C122_false_inverse), and solve works only with the library. Proved: scalar products, products of nonempty matrices and correlations are equal; positive definite matrices have the same factor and solutions; the inverse and the LU solutions are equal wherever the built-in code returns one (C122_partial). Exact arithmetic, any library with the documented behaviour. |
| C123 | With OpenBLAS, linear systems are solved exactly when they are solvable | proved | Exact arithmetic, any library with the documented behaviour (Spec.Documented; realBlas_documented gives one). |
| C124 | Surrogate models do not depend on OpenBLAS | proved | Exact arithmetic, any library with the documented behaviour. Kriging with a positive nugget and at least one training sample, with a linear trend for up to 99 variables (the range in which the built-in inverse is known to succeed). |
| C125 | In double arithmetic every prediction of a Kriging model has a standard deviation that is a number | partial | False in general: with two equal samples and no number on the diagonal a pivot is 0 and everything is infinite or NaN. Proved when the number on the diagonal is above the rounding errors, for up to a million samples and a thousand variables, outputs 0 or at least 2^-200 in size, points up to 2^100. |
| C126 | In double arithmetic the acquisition value of every candidate is a number and is the expected improvement up to rounding | proved | The value and the probabilities as the code computes them in doubles; C126_kriging composes with C125, whose condition on the diagonal number it shares. C126_negative: with correctly rounded library functions the value is below zero at an estimate 8.3125 deviations above the minimum, so non-negativity (C61, exact arithmetic) does not carry over to doubles. |
| C127 | In double arithmetic every likelihood that the training compares is a number and is the likelihood up to rounding | partial | Full statement false of the code: without a number on the diagonal the likelihood of two equal samples is not finite. Proved: above the rounding errors every likelihood is a finite double, equal to that of the exact correlation matrix with the computed variance up to an explicit rounding error; positive variance whenever two outputs differ. Modelled without OpenBLAS and without the linear part. |
| C128 | In double arithmetic the estimate at every point is the best linear unbiased prediction up to rounding | proved | The constants are explicit; with the average as mean the comparison is with the exact prediction for the computed mean. |
| C129 | In double arithmetic the roulette selections of the evolutionary algorithm pick every individual with its probability, up to rounding | partial | The full statement is false: C129_no_parent (a draw that selects nobody) and C129_no_death (0/0 death probabilities for thirteen individuals). C129_partial covers all draws below 1 - n/2^49 and all populations in which about a tenth is fitter than some individual, with fitness between 1/256 and 4. |
| C13 | Accepted evolutionary settings can run to completion | partial | False when there are more deaths than births. Proved for deaths <= births. C13_refused: a run with incomplete settings, or with at least as many deaths as individuals and births together, is refused with an error. |
| C130 | The LU solver and the matrix inverse are accurate in double arithmetic | proved | Double arithmetic with overflow as an error; solutions and inverses whenever they are returned without an infinite intermediate value. |
| C131 | In double arithmetic the initial samples are stratified and in the box, up to rounding | partial | Proved: one sample per part up to (/l/+/h/)/2^50, ordered as the parts, never below the lower bound; random samples exactly in the box; no overflow for bounds up to 2^1018. Missing because false: exactness. With bounds -1 and 0.1 and three samples the last one can be above 0.1 (C131_false), and a part can stay without a sample (C131_false_stratum). |
| C132 | In double arithmetic, training the linear regression model finds the best fit up to rounding | partial | The last sentence is false of the code: with one sample at (2^14, 2^14), far outside the box, 2^28 + 1e-8 is rounded to 2^28, the matrix is singular and training throws (C132_false). Proved: the residual of the normal equations of any weights returned for samples in the box (C132_partial), what it means for the loss and for the distance from the minimizer (C132_near), success and an a-priori error when the regularization exceeds the rounding errors (C132_total), that the program's value does for up to 6 parameters and 400 samples (C132_room), and the accuracy of predictions (C132_predict). |
| C133 | In double arithmetic, finite differences give slopes of the function and the line search ends | partial | The last sentence is false of the code: on 2^80 (x - 1/3)^2, with values and derivatives rounded correctly, at the double nearest to 1/3 the gradient exceeds the tolerance but no double is better, so the loop never ends (C133_false); C133_stuck and C133_stuck_optimize say so in general. Relative steps below 2^-53 are accepted and make every gradient zero (C133_false_step). Proved: a search that returns does so within 2100 evaluations (C133_partial) at a better point on the ray (C133_descends); the accuracy of central differences for steps of at least 2^-40 (C133_central, C133_derivative). |
| C134 | In double arithmetic the trust region does not drift and its window is never empty | partial | The length never drifts and the window is total, inside the normalized box and wide enough for every incumbent between 0 and the computed 1/dim. The full claim is false: a design at the upper corner of the box can be normalized above the computed 1/dim and then lies outside its own window (C134_false). |
| C135 | An evolutionary run in double arithmetic stays in its box and its budget and reports what it evaluated | proved | rounded run: exact membership in the box, budget, and consistency of the reported solution; warm start and files are not part of the rounded run |
| C136 | In double arithmetic the gene of a child is the mean of its parents plus a sixth of their distance times the normal draw, up to rounding | partial | the error bound holds for genes at least 2^-1000 apart and for equal genes; C136_false shows that for genes one denormal apart the standard deviation underflows and is replaced by one |
| C137 | The genes of a child are mutated or drawn around the mean of its parents, and then clamped | proved | exact arithmetic: the value of every gene; double arithmetic: the same up to the bound of C136 |
| C138 | In double arithmetic the crowding factor is the mean distance of the recent designs, up to rounding | proved | Double arithmetic with overflow as an error; histories with at least as many designs as initial samples, as in C33_partial, up to 65536 of these. |
| C139 | In double arithmetic the exploration factor stays within its limits and is accurate | proved | Double arithmetic with infinities and NaN. Two vanishing distances give NaN (C139_nan, as in C34). |
| C14 | Fitness is a decreasing score between 0.01 and 1 | partial | False for all-negative values, for nearby values; proved for populations with a positive value. |
| C140 | The validation data are the share of the samples the user asked for | partial | False for decimal ratios whose share is a whole number: 0.29 of 100 samples gives 28 (C140_false). Proved: at most one off, exact unless the share is within 2^-20 of a whole number, and exact whole shares for ratios that are doubles. |
| C141 | In double arithmetic improvement values tell every better design from every worse one | partial | False as stated: against a reference of 2^60 the objective values 2 and 1 have the same improvement value, so the better design is counted as no improvement (C141_false). C141_partial proves for every history and every sequence of designs with feasible objective values up to 2^1022 in size: signs, monotone order, relative error 2^-53 and the strict order of designs that differ by more than 2^-52 of their distance from the reference. Missing: closer designs, and values so large that a difference overflows. |
| C15 | Selection probabilities form a distribution and roulette selection never fails | proved |  |
| C16 | The best individual is never selected to die | partial | First half proved. Second half false when IDs repeat; proved when the best ID is unique. |
| C17 | Parent selection terminates | partial | False: a reachable population with all IDs equal makes parent selection loop for ever. Proved when two IDs differ. |
| C18 | Warm start restores the population and keeps IDs distinct | partial | False twice: numbers needing more than ten digits change, and the ID counter restarts at 0 so children collide with restored IDs. Proved: order, IDs and ten significant digits survive; exact condition for no collision. |
| C19 | Gradient descent never accepts a worse point | partial | False: a run that stops before its first line search reports FLT_MAX, and with central differences the line search compares with, and reports, the value at a shifted point. Proved for user supplied gradients. |
| C20 | Line search stops after the configured number of iterations | partial | False: the configured line search limit is never read; the search loops for ever when no halved step improves. Exact condition for returning, and a bound for objectives that decrease within m halvings. |
| C21 | Finite difference gradients reach the optimizer | partial | False: forward differences are discarded, central ones overwrite the objective value, zero coordinates divide 0/0. Quotients and point proved for central differences at points without zero coordinates. |
| C22 | The optimization loop spends exactly the configured number of simulations | proved | For every environment: a run that returns has simulated exactly M times and appended M rows; a run that throws has not simulated more; the loop ends after M rounds. For well-posed problems when nothing outside throws the run returns, with every design recorded once. |
| C23 | Surrogates are retrained every k-th iteration | partial | Holds for k >= 2. With k = 1 the surrogates are never trained (n % 1 is never 1); k = 0 is not refused and is a division by zero. |
| C24 | The trust region length stays in its band and enlarging enlarges | partial | The full statement is false: the initial length 0.8 is above the maximum 1.6/d for d >= 3 and the first enlargement then shrinks it. Proved: lower limit, no growth on failures, upper limit max(0.8, maximum), monotone growth while within the band. |
| C25 | The inner search box is valid and contains the incumbent | proved | For every dimension, incumbent and non-negative length or accepted factor; wrong dimensions and factors are rejected; along every run the length is admissible. |
| C26 | Parallel acquisition search returns the best candidate | partial | The full statement is false: the comparison is outside the critical section. Proved: maximum for uninterrupted executions and one thread; in every execution the recorded design beats the start if any candidate does. |
| C27 | Local improvement of the acquisition function is monotone and terminates | proved | Box, no decrease, at most 1 + iterations * (2 dim + 27) evaluations; the direction is the central difference quotient. The value stored in the returned design can be that of a difference quotient (C27_stored_value_stale); the theorem is about the acquisition function at the design. |
| C28 | The reported global optimum is the best feasible design | partial | Proved for histories whose feasible objective values are below the largest double; with a feasible objective equal to it the optimum is flagged infeasible. |
| C29 | The reported optimum never gets worse as samples are added | proved | For any two history matrices that agree on the rows of the first. |
| C30 | Improvement values rank designs by objective | partial | Proved when no feasible objective is within 1e-5 of the lowest double (the marker value) and no initial feasible objective equals the largest. |
| C31 | Feasibility flags in the initial history are exact | partial | Proved with at least one constraint or with all training designs inside the box; without constraints the box is not checked. |
| C32 | The history is append-only and every row has the documented layout | proved | One update, sequences of updates, and the history file after an update. |
| C33 | The crowding factor is the mean pairwise distance of recent designs | partial | Proved when there are at least as many rows as initial samples and at most 65536 initial samples. With fewer rows the call throws or returns 0; with 65537 samples the 32-bit number of pairs overflows and the value is 65537 times too large (C33_overflow). |
| C34 | The exploration factor stays within its limits | partial | Holds unless coefficient and crowding factor both vanish, where the factor is NaN; in whole runs it holds whenever the initial samples are not all the same, and a single initial sample always gives NaN. |
| C35 | Discrete parameters are rounded to the nearest grid value inside the box | partial | Missing: 2^32 or more grid values, where the conversion to unsigned int is undefined (C35_false). |
| C36 | The evaluated design and its normalized form agree | partial | The full statement is false: the normalized parameters are not updated after rounding. Proved: they agree exactly when rounding changes nothing. |
| C37 | Training data is written where it will be read | partial | setNameOfTrainingDataFile stores the name of the study instead of its argument (C37_false). C37_partial: the samples go to the file named like the study. C37_objective: a file named in setObjectiveFunction is the one written by the sampling and read by the model, for all histories without a later call naming the file. |
| C38 | Box constraints can be set again after a mistake | partial | Bounds accumulate over calls, so every second call is rejected, also after a call that was itself rejected. C38_exact: a valid call is accepted exactly if no bounds were collected before, and then sets exactly the given bounds everywhere. |
| C39 | Trimming a constraint expression removes surrounding whitespace only | partial | trim uses the end position as a length: with blanks on both sides blanks stay at the end (C39_false: "  a  " becomes "a  "). C39_trim gives the exact result for every string; C39_partial proves the property for strings that have no blank at one of the two ends. |
| C40 | Constraint expressions parse to what was written | proved | C40_accepts characterises the accepted texts and what is returned for each; C40_roundtrip reads back every rendering of a name, inequality and decimal numeral exactly; everything else is invalid_argument. |
| C41 | The initial sampling evaluates each sample once and survives a crash | partial | The file is truncated and rewritten after each sample: a stop in between loses saved samples (C41_false). C41_partial: at every other point the file holds exactly the saved samples. C41_torn: within a write it holds a beginning of the table. C41_complete: on completion all samples, also of all constraints, each with its own value and within the bounds. C41_total: the sampling completes if functions and files work. |
| C42 | Latin hypercube sampling puts one sample in every stratum | proved | Draws and shuffles are quantified over; every column has exactly one sample per stratum. |
| C43 | Row and column editing of matrices is exact and memory safe | partial | Full statement C43_full is refuted (positions below -1, degenerate shapes). deleteRows, setRow and setCol hold without restriction; addRow, addColumn and deleteRow hold for positions from -1 on and non-degenerate shapes. |
| C44 | Reading parts of matrices is exact | partial | Full statement refuted for getCol(-1)/getRow(-1) on matrices without columns/rows; everything else holds without restriction. |
| C45 | Matrix products are the mathematical products | proved | Products are the mathematical products and size mismatches are rejected. |
| C46 | LU factorization and solve are correct | proved | Exact arithmetic, non-OpenBLAS path. C46_stale_flag documents that setDimension after factorize keeps the done flag. |
| C47 | LU factorization accepts every invertible matrix | partial | False as stated: absolute pivot tolerance 1e-9 (C47_false). Proved when the inverse has absolute row sums at most 1e9. |
| C48 | Cholesky factorization and solve are correct | partial | False as stated for semidefinite matrices: zero pivots are accepted or divide by zero. Everything else proved. |
| C49 | Row lookup finds the first matching row | proved | First matching row or -1. |
| C50 | Saving a matrix as CSV and reading it back keeps shape, order and values to the written precision | proved | Matrix saved with p digits after the point and read back: entries within half a unit of the last digit, exact when p digits suffice; header and no header. |
| C51 | Correlation matrices are symmetric with unit diagonal and entries in (0,1] | proved | All sample matrices; decreasing across any two sample matrices. Exact reals with the real exponential and power. |
| C52 | Correlation derivatives are the true derivatives | proved | HasDerivAt over the reals; both directions act on the second point. |
| C53 | Validation samples are never used for training | partial | The first read of an object (no validation rows collected before) is a split of the requested size, for every file, ratio and shuffle; when every row is chosen for validation this is reported. The return to the full data makes all rows of the file training samples again, in the order of the file (C53_revert). False for later reads: validation rows of earlier reads stay and are used instead of the new ones (C53_false). |
| C54 | The Kriging predictor interpolates the training data | proved | C54_file starts from the file on disk, for every file, box, trend option and nugget in [0,1); without a nugget the correlation matrix must be positive definite (as the property says). |
| C55 | Ridge regression weights minimize the regularized least squares error | proved | Every train() either fails with a reported error or yields the unique ridge minimizer and the affine prediction; it never fails for dim+1 <= (1e9 lambda)^2 (lambda = 1e-8: up to 99 parameters). C55_model starts from the file on disk. C55_unread: if the data cannot be read, nothing is built on them. |
| C56 | Repeated Kriging training keeps the training effort | partial | False in full: train() divides the stored number of iterations by the number of threads at every call, so with more than one thread the effort decays until train() throws (C56_iterations gives the exact value after any history, C56_ends that it ends, C56_false a counterexample). C56_partial: with one thread the effort is kept over every history of calls. |
| C57 | Hyperparameter search keeps the best result of all threads | partial | Proved for every schedule, number of threads and random numbers: the kept hyperparameters have the best score of all threads, and the score found does not depend on the schedule. The second half is false: with validation samples a failed factorization scores -DBL_MAX in a minimization, so it always wins (C57_always_violated, C57_failure_wins, C57_false) and the model then predicts its trend only (C57_failed_model). C57_partial: with the likelihood as objective a failed factorization never wins. |
| C58 | New samples are never duplicates of existing training data | partial | C58_partial: for every history of added samples and trainings the file only grows, old rows stay, each new row is a submitted sample (to the digits of the file), differs from each earlier row in a parameter or the value, and every sample of the right size is close to a row; C58_rejected: a rejected sample changes neither model nor file. Missing and false (C58_false): the comparison covers the value too, so a sample with the same inputs and another value is stored. |
| C59 | Samples written for training have the documented layout | partial | Every sample builder puts parameters, value, and the requested tangent/gradient block in the documented order, except that the tangent sample of a constraint takes the direction of the design's own ID (C59_false, C59_wrong_direction). |
| C60 | A design with a NaN is never recorded | partial | Holds for NaN among the simulated values (and gradients), in every iteration of every run; parameters and the improvement value are not checked by the code. |
| C61 | Expected improvement is non-negative and constraint probabilities combine correctly | proved | For all surrogate models that answer with a nonnegative variance, in particular (C61_kriging) the Kriging models after any history of samples and trainings, and every number and order of constraints; erf is the real error function. C61_search: the acquisition functions quantified over in C26, C27, C66 include the one the code computes. |
| C62 | Driver configuration values reach the optimizer | partial | Every accepted file has all mandatory keywords and its settings are those of the study (C62_partial), except: the name of the study is replaced by a constant (C62_false, C62_name_lost), the training iterations of a constraint are those of the objective function (C62_iterations_false, C62_iterations_shared), missing bounds are read as 1e-13 (C62_bounds_false), negative counts wrap around (C62_counts_false), a constraint on one line disappears (C62_one_line). |
| C63 | Determinants reported after a Cholesky factorization are exact | proved | Exact arithmetic; log determinant over the reals. |
| C64 | Appending a sample to a data file keeps the earlier rows | partial | False when the file does not end with a line break (C64_false); proved for files ending with one, and for mismatched lengths. |
| C65 | Saved hyperparameters and weights are read back | proved | Six significant digits. |
| C66 | Every design sent to the simulator lies in the box | proved | Objectives without gradients (EGO step). |
| C67 | Constraint definitions are read as they are written | proved | Texts with white space anywhere; failures leave the object unchanged. |
| C68 | Constraints of a study are stored completely and in order | proved | All histories, including rejected and malformed calls. |
| C69 | A rejected interface call changes nothing | partial | False for addConstraint without a dimension, setDimension(0) and setBoxConstraints. C69_partial: every other rejected call changes nothing. |
| C70 | Nothing is evaluated before the mandatory settings are present | proved | All histories; accepted means returned without an exception. |
| C71 | The derivative of the exponential correlation is the true derivative | partial | Coincident coordinates with exponent below one give 0 times infinity (C71_false). C71_partial: correct wherever no coordinates coincide or the coincident ones have exponents above one. |
| C72 | The correlation matrix can always be factorised | proved | Schoenberg's theorem for exponents in [0,2]; exact reals, so rounding near singular matrices is not covered. |
| C73 | Derivative data follow the normalization of the inputs | partial | Gradients: full. Directional derivatives: only when all bounds have the same length; the code scales by the first parameter's interval only (C73_false). |
| C74 | The trust region reacts to streaks only | proved | Every dimension and sequence of outcomes. |
| C75 | The predicted variance is never negative | proved | Every data file with a readable table, every proper box, nugget in (0,1), trend on (at most 99 parameters) or off, every query point. Reals; rounding not modelled. |
| C76 | The Kriging prediction is the best linear unbiased one | proved | The code replaces /r'R^-1 r - 1/ < 1e-9 and /1'R^-1 r - 1/ < 1e-9 by zero, so the variance agrees up to 2e-9 of the process variance. |
| C77 | A Kriging model never lags behind its data file | proved | For every history of added samples and likelihood trainings (ok or throwing) on a model built from a file with a positive nugget: the model predicts by the best linear unbiased predictor of exactly the rows of the current file, with nonnegative variance. Without validation samples, file ending in a line break. |
| C78 | The expected improvement is the expected improvement | partial | Value = integral of max(m - Y, 0) for Y normal, within 1e-12 + 1e-15 sigma, if the scaled deviation exceeds 1e-13 or the estimate is not below the minimum. False otherwise: without deviation the value is 0 although the improvement is positive (C78_false). |
| C79 | Feasibility probabilities are the probabilities that the constraints hold | partial | Everything except a value without deviation that lies exactly on the bound of a constraint with <: the probability is then 1 although the constraint counts as infeasible (C79_false). |
| C80 | The probability of improvement belongs to the design | partial | The code uses the value stored in the design before the call as the mean (C80_false); right if the design carries its estimate already, e.g. after the expected improvement (C80_after_improvement). |
| C81 | Correct configuration files are accepted | proved | For every text that meets Spec.CorrectFile; the example file with two parameters and a constraint meets it (Driver.example_correct). |
| C82 | A design is recorded with the simulator's value at this design | partial | The design file is written with six significant digits: the value recorded is that of the rounded design (C82_partial), the exact one when six digits suffice (C82_six_digits). False in general (C82_false): 1.0000001 is recorded with the value at 1. |
| C83 | A recorded value was produced by the run for this design | partial | The output file is not removed before the run: a program that exits with 0 without writing, or a missing executable name, records the value of an earlier design (C83_stale, C83_false). Everything else of the claim holds (C83_partial). |
| C84 | A failed simulation is reported and not recorded | proved | For all programs and texts; failing to open the design file ends the program instead of throwing. |
| C85 | Objective and constraints do not disturb each other | proved | For programs, functions in memory and user defined functions, and for one program that serves all; the values are those at the design as handed over (six digits, see C82). |
| C86 | A test on a file reports the model's errors on this file | partial | False in full: after a test with true values a file without them is rejected, because the flag for true values is never reset (C86_false); proved for all other histories. A missing second normalization goes unnoticed (C86_unnormalized). For Kriging models the estimates and nonnegative variances exist (C86_kriging). |
| C87 | The saved test report is the report | partial | False in full: the header accumulates, so that every save after the first fails and leaves an empty file (C87_again, C87_false); proved for the first save after any tests. |
| C88 | The in-sample error is the error on the training samples | partial | False in full: with a validation part the estimate at training sample i is compared with the value of row i of the file (C88_rows says exactly what is computed, C88_false); proved without validation, and for Kriging models after every history. |
| C89 | The number of samples within bounds is the number of such samples | partial | False in full: with a validation part only the first rows of the file are counted (C89_rows, C89_false); proved without validation. |
| C90 | Every simulated design was found with models of all data so far | proved | For every properly set up problem, simulations and random numbers. The expected improvement is exact up to rounding where C78_partial is. |
| C91 | An optimization with delivering simulations completes unless a training throws | proved |  |
| C92 | Training data files accumulate all simulated designs over any number of runs | proved | Runs end by returning or throwing; a process killed between two writes is the state of a prefix of the designs (C90_found). |
| C93 | A simulation that fails leaves history, optimum and files as they were | proved | Exactly the designs before the iteration when the models are not trained again; otherwise a training that throws may end the run earlier. |
| C94 | The settings made through the C++ interface are the ones the run uses | proved | Dimension 0 is rejected but stored (C69). |
| C95 | Accepted settings prepare all functions, whatever the order of the calls | partial | False as stated: a constraint added after setBoxConstraints has no bounds and an objective function set before setDimension has dimension 0, although all calls are accepted and the check passes; initializeSurrogate then throws. Proved when the dimension is set first and the bounds after all functions. |
| C96 | The file of the global optimum tells the best design | partial | Exactly false: numbers are written with six fixed decimals, so an objective value of 1e-7 is read back as 0. Proved: the file gives back number, parameters, objective, constraint values and feasibility of the best row, each number up to six decimals (error at most 5e-7). C96_success: if the call reports success the file tells the optimum; a file that cannot be opened is as before. |
| C97 | A design saved to a file can be read back | partial | False for the report of saveToAFile: nothing separates the numbers, so (1, 23) and (12, 3) have the same report. Proved for the line and the list of values: read back with ten significant digits. A design without parameters throws out_of_range and leaves an empty file. C97_report: what the report says; C97_unwritten: when the file cannot be opened. |
| C98 | Log messages never end a run and tell the design | partial | False for messages longer than the width minus two: the unsigned subtraction wraps and the string constructor throws length_error (proved for all such messages). Proved for all messages that fit in an even width (the code always uses 100), and that messages about designs with a tag of at most 98 characters never throw and tell the design to six decimals. |
| C99 | A test of a surrogate model tests the type that was asked for | partial | False if the type is set after bindSurrogateModels: the type set last is ignored, and if the type at the binding could not be tested the pointer is uninitialized (C99_false). C99_linear and C99_kriging describe the test after every accepted sequence of calls (without validation samples and warm start) in terms of the types at the calls of bindSurrogateModels; C99_partial is the property when no type is set after the last binding. C99_variances: a linear model with variances always throws. C99_again, C99_kriging_again: every second test with the same tester throws, with an empty results file for linear models. C99_names: exactly which file names are accepted. |

<!-- end disagreements -->
