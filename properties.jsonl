{"id": "C01", "title": "A Bounds object that says it is set holds a valid box", "statement": "After any history of calls on a Bounds object (constructors, the three setBounds overloads, setDimension, reset; exceptions caught by the caller), whenever areBoundsSet() is true the lower and upper bound vectors both have getDimension() entries, the dimension is positive, and every lower bound is strictly below its upper bound; and no call in the history has undefined behaviour.", "quantifier": "every finite history of Bounds calls with every argument, including rejected calls", "why_tests_cant": "The object is mutated before it is validated, so the claim is about all interleavings of accepted and rejected calls, not about single calls.", "anchors": ["src/Bounds/bounds.cpp:Bounds::setBounds", "src/Bounds/bounds.cpp:Bounds::checkBounds", "src/Bounds/bounds.cpp:Bounds::setDimension", "src/Bounds/bounds.cpp:Bounds::areBoundsSet"]}
{"id": "C02", "title": "Point-in-box test is exact", "statement": "For valid bounds, isPointWithinBounds(x) throws exactly when the size of x differs from the dimension, and otherwise returns true exactly when lb(i) <= x(i) <= ub(i) for every i.", "quantifier": "every dimension, every valid box and every point of any size", "why_tests_cant": "Unbounded dimension and a continuum of points, including faces and corners.", "anchors": ["src/Bounds/bounds.cpp:Bounds::isPointWithinBounds"]}
{"id": "C03", "title": "Random designs stay inside the box", "statement": "Whatever the random generator returns, generateVectorWithinBounds() on valid bounds succeeds and gives a vector that isPointWithinBounds accepts.", "quantifier": "every valid box, every dimension, every stream of random draws in [0,1)", "why_tests_cant": "A test samples a few random streams; the claim is about all of them.", "anchors": ["src/Bounds/bounds.cpp:Bounds::generateVectorWithinBounds", "src/LinearAlgebra/vector.cpp:vec::fillRandom"]}
{"id": "C04", "title": "Inner optimizers reject inverted bounds", "statement": "Every overload of GeneralPurposeOptimizer::setBounds that returns normally leaves the optimizer with lower bounds strictly below upper bounds and both of the optimizer's dimension.", "quantifier": "every overload, dimension and argument", "why_tests_cant": "The guard has to hold for all argument values of each overload.", "anchors": ["src/InternalOptimizers/general_purpose_optimizer.cpp:GeneralPurposeOptimizer::setBounds"]}
{"id": "C05", "title": "Normalization and denormalization of designs are inverse and map the box to [0,1/d]", "statement": "For a box with lb < ub and a vector x of the box dimension d > 0, normalizing and then denormalizing x gives x back (and the other way round), x is inside the box exactly when every normalized entry lies in [0,1/d], and the scalar and precomputed-range variants agree with the vector variant.", "quantifier": "every dimension, box and vector", "why_tests_cant": "A continuum of inputs and every dimension.", "anchors": ["src/LinearAlgebra/vector.cpp:vec::normalizeVector", "src/LinearAlgebra/vector.cpp:vec::denormalizeVector", "src/LinearAlgebra/vector.cpp:vec::normalizeVectorFast", "src/LinearAlgebra/vector.cpp:vec::denormalizeVectorFast"]}
{"id": "C06", "title": "findInterval covers the whole line", "statement": "On a non-empty ascending vector, findInterval(v) returns i when v lies in the half-open interval [x(i), x(i+1)), returns the last index when v is at or beyond the last entry, and returns -1 only when v is below the first entry.", "quantifier": "every sorted vector of every size and every value", "why_tests_cant": "Boundary behaviour at repeated knots and at the last knot for all vectors.", "anchors": ["src/LinearAlgebra/vector.cpp:vec::findInterval"]}
{"id": "C07", "title": "Quantile lies between order statistics", "statement": "For a non-empty vector and p in [0,1], quantile(p) depends only on the multiset of entries, lies between the entries of rank floor(p(n-1)) and ceil(p(n-1)) in sorted order, equals the minimum at p=0 and the maximum at p=1, and is monotone in p.", "quantifier": "every vector, every p", "why_tests_cant": "All vectors, all permutations and a continuum of p.", "anchors": ["src/LinearAlgebra/vector.cpp:vec::quantile"]}
{"id": "C08", "title": "Vector splicing keeps every element", "statement": "appendVector(other, pos) produces exactly the first pos entries, then other, then the rest; head/tail/push_back/copyVector agree with list take/drop/append; and out-of-range positions are rejected with the vector unchanged.", "quantifier": "every pair of vectors and every int position, including negative ones", "why_tests_cant": "Pointer arithmetic over all sizes and positions.", "anchors": ["src/LinearAlgebra/vector.cpp:vec::appendVector", "src/LinearAlgebra/vector.cpp:vec::copyVector", "src/LinearAlgebra/vector.cpp:vec::push_back", "src/LinearAlgebra/vector.cpp:vec::head", "src/LinearAlgebra/vector.cpp:vec::tail"]}
{"id": "C09", "title": "Individuals in the evolutionary population have distinct IDs", "statement": "At every point of an evolutionary optimization no two individuals in the population carry the same ID.", "quantifier": "every configuration accepted by the settings check, every objective, every random stream and every number of generations", "why_tests_cant": "The repeated-ID check runs only once on the initial population; later generations are never checked.", "anchors": ["src/InternalOptimizers/ea_optimizer.cpp:EAOptimizer::generateRandomIndividual", "src/InternalOptimizers/ea_optimizer.cpp:EAOptimizer::generateIndividualByReproduction", "src/InternalOptimizers/ea_population.cpp:EAPopulation::hasRepeatedIDs"]}
{"id": "C10", "title": "The evolutionary optimizer returns the best individual it holds", "statement": "After optimize(), getSolution() returns an individual of the final population whose objective value is the minimum over that population.", "quantifier": "every population history, objective and random stream", "why_tests_cant": "The best individual is stored as an ID and looked up again; whether the lookup finds the same individual depends on the whole history.", "anchors": ["src/InternalOptimizers/ea_population.cpp:EAPopulation::getTheBestIndividual", "src/InternalOptimizers/ea_population.cpp:EAPopulation::updatePopulationMinAndMax", "src/InternalOptimizers/ea_population.cpp:EAPopulation::removeIndividual"]}
{"id": "C11", "title": "Evolutionary designs never leave the box", "statement": "Every individual that is ever created (initial, crossed over, mutated) has genes inside the bounds given to the optimizer, for every generation.", "quantifier": "every valid box, parents, random normal and uniform draws, and number of generations", "why_tests_cant": "The normal distribution is unbounded, so only clamping for all draws protects the user's simulation.", "anchors": ["src/InternalOptimizers/ea_optimizer.cpp:EAOptimizer::crossOver", "src/InternalOptimizers/ea_optimizer.cpp:EAOptimizer::applyMutation", "src/InternalOptimizers/ea_optimizer.cpp:EAOptimizer::generateRandomIndividual"]}
{"id": "C12", "title": "The evolutionary evaluation budget is honoured", "statement": "With N initial individuals, b births per generation, G generations and budget M, a completed optimize() makes exactly N + k*b objective evaluations where k is the least number of generations in 1..G with N + k*b >= M (or G if there is none); in particular never more than max(N+b, M+b-1).", "quantifier": "every N, b, G, M and every random stream", "why_tests_cant": "Needs induction on the number of generations.", "anchors": ["src/InternalOptimizers/ea_optimizer.cpp:EAOptimizer::optimize", "src/InternalOptimizers/ea_optimizer.cpp:EAOptimizer::generateANewGeneration"]}
{"id": "C13", "title": "Accepted evolutionary settings can run to completion", "statement": "If the settings check accepts the configuration, every generation can pick its deaths without running out of individuals.", "quantifier": "every accepted configuration (initial size, births, deaths, generations)", "why_tests_cant": "The check looks at one generation; the population size drifts over many.", "anchors": ["src/InternalOptimizers/ea_optimizer.cpp:EAOptimizer::checkIfSettingsAreOk", "src/InternalOptimizers/ea_optimizer.cpp:EAOptimizer::removeIndividualsFromPopulation"]}
{"id": "C14", "title": "Fitness is a decreasing score between 0.01 and 1", "statement": "When the smallest and largest objective values differ, the quadratic fitness assigned to an individual is 1 at the minimum, 0.01 at the maximum, strictly decreasing in the objective value, and always positive, so the invalid-fitness error is never raised; when they coincide the update throws.", "quantifier": "every population of every size and every set of objective values", "why_tests_cant": "A 3x3 system is solved at run time with data dependent entries; positivity must hold for all data.", "anchors": ["src/InternalOptimizers/ea_population.cpp:EAPopulation::findPolynomialCoefficientsForQuadraticFitnessDistribution", "src/InternalOptimizers/ea_population.cpp:EAPopulation::updateFitnessValuesQuadratic"]}
{"id": "C15", "title": "Selection probabilities form a distribution and roulette selection never fails", "statement": "After updatePopulationProperties() on at least two individuals with positive fitness, reproduction probabilities are in (0,1) and sum to one, death probabilities are in [0,1] and sum to one, and for every draw u in [0,1) both roulette selections return a member of the population.", "quantifier": "every population of size >= 2 with positive fitness and every draw", "why_tests_cant": "Sums over arbitrary populations; the failing branch is reached only for particular draws.", "anchors": ["src/InternalOptimizers/ea_population.cpp:EAPopulation::updateReproductionProbabilities", "src/InternalOptimizers/ea_population.cpp:EAPopulation::updateDeathProbabilities", "src/InternalOptimizers/ea_population.cpp:EAPopulation::pickUpAnIndividualThatWillDie", "src/InternalOptimizers/ea_population.cpp:EAPopulation::pickUpARandomIndividualForReproduction"]}
{"id": "C16", "title": "The best individual is never selected to die", "statement": "In a population of at least two with a unique fittest individual, the fittest individual has death probability zero and is not selected by any draw; consequently a death never raises the population minimum.", "quantifier": "every population of size >= 2 and every draw in [0,1)", "why_tests_cant": "Relies on the interpolated 90% quantile being below the maximum for every size and every data set.", "anchors": ["src/InternalOptimizers/ea_population.cpp:EAPopulation::updateDeathProbabilities", "src/LinearAlgebra/vector.cpp:vec::quantile"]}
{"id": "C17", "title": "Parent selection terminates", "statement": "generateRandomParents() on an initialized population of at least two individuals terminates for some continuation of the random stream and returns two parents that crossOver accepts.", "quantifier": "every reachable population of size >= 2 and every random stream", "why_tests_cant": "Non-termination cannot be observed by a finite test.", "anchors": ["src/InternalOptimizers/ea_population.cpp:EAPopulation::generateRandomParents", "src/InternalOptimizers/ea_optimizer.cpp:EAOptimizer::crossOver"]}
{"id": "C18", "title": "Warm start restores the population and keeps IDs distinct", "statement": "Reading a warm start file written from a population restores the same individuals in the same order, and children generated afterwards get IDs not used by a restored individual.", "quantifier": "every population, every file it can write, every continuation", "why_tests_cant": "Needs a round trip for all populations and a history across two program runs.", "anchors": ["src/InternalOptimizers/ea_population.cpp:EAPopulation::writeToCSV", "src/InternalOptimizers/ea_population.cpp:EAPopulation::readFromCSV", "src/InternalOptimizers/ea_optimizer.cpp:EAOptimizer::optimize"]}
{"id": "C19", "title": "Gradient descent never accepts a worse point", "statement": "Every line search that returns has strictly decreased the objective, so the sequence of accepted objective values is strictly decreasing and the reported optimum is not above the value at the initial point.", "quantifier": "every objective, gradient, step size and number of iterations", "why_tests_cant": "Invariant over unboundedly many iterations.", "anchors": ["src/InternalOptimizers/gradient_optimizer.cpp:GradientOptimizer::performBacktrackingLineSearch", "src/InternalOptimizers/gradient_optimizer.cpp:GradientOptimizer::optimize"]}
{"id": "C20", "title": "Line search stops after the configured number of iterations", "statement": "The backtracking line search makes at most maximumNumberOfIterationsInLineSearch objective evaluations, and optimize() makes at most the configured maximum number of evaluations.", "quantifier": "every objective, gradient, initial point and limit", "why_tests_cant": "The failure is an infinite loop, which a finite test cannot witness.", "anchors": ["src/InternalOptimizers/gradient_optimizer.cpp:GradientOptimizer::performBacktrackingLineSearch", "src/InternalOptimizers/gradient_optimizer.cpp:GradientOptimizer::setMaximumNumberOfIterationsInLineSearch"]}
{"id": "C21", "title": "Finite difference gradients reach the optimizer", "statement": "After evaluateGradientFunction with finite differences switched on (central or forward), the design point holds the finite difference quotients of the objective at that point, and the point itself and its objective value are unchanged.", "quantifier": "every objective, point, step and method", "why_tests_cant": "All objectives and all points, including points with zero coordinates.", "anchors": ["src/InternalOptimizers/gradient_optimizer.cpp:GradientOptimizer::approximateGradientUsingFiniteDifferences", "src/InternalOptimizers/gradient_optimizer.cpp:GradientOptimizer::calculateForwardFiniteDifferences", "src/InternalOptimizers/gradient_optimizer.cpp:GradientOptimizer::calculateCentralFiniteDifferences"]}
{"id": "C22", "title": "The optimization loop spends exactly the configured number of simulations", "statement": "A fresh optimizer with maximum number of samples M >= 1 evaluates the objective exactly M times if nothing throws, appends exactly M rows to the history and then stops.", "quantifier": "every M and every objective", "why_tests_cant": "Induction over the loop for all M.", "anchors": ["src/Optimizers/efficient_global_optimization.cpp:Optimizer::performEfficientGlobalOptimizationOnlyWithFunctionalValues"]}
{"id": "C23", "title": "Surrogates are retrained every k-th iteration", "statement": "With setHowOftenTrainModels(k), the surrogates are retrained at iterations 1, k+1, 2k+1, ... for every k >= 1, and a value the loop cannot handle is rejected.", "quantifier": "every k (any unsigned int) and every iteration number", "why_tests_cant": "Modular arithmetic for all k; k=0 is undefined behaviour in the loop.", "anchors": ["src/Optimizers/efficient_global_optimization.cpp:Optimizer::performEfficientGlobalOptimizationOnlyWithFunctionalValues", "src/Optimizers/optimization_setter_getters.cpp:Optimizer::setHowOftenTrainModels"]}
{"id": "C24", "title": "The trust region length stays in its band and enlarging enlarges", "statement": "Through the whole run the trust region length lies between its configured minimum and maximum, an enlargement step never makes it smaller and a shrinking step never makes it larger.", "quantifier": "every dimension, every sequence of successes and failures", "why_tests_cant": "Invariant over all success/failure sequences and all dimensions.", "anchors": ["src/Optimizers/efficient_global_optimization.cpp:Optimizer::performEfficientGlobalOptimizationOnlyWithFunctionalValues", "src/Optimizers/optimization.cpp:Optimizer::initializeOptimizerSettings", "src/Optimizers/INCLUDE/optimization.hpp:trLength"]}
{"id": "C25", "title": "The inner search box is valid and contains the incumbent", "statement": "defineTrustRegion (and the gradient step window) always yields lower <= upper in every coordinate, both inside [0,1/d], and containing the incumbent normalized design whenever that design is itself inside the box.", "quantifier": "every dimension, incumbent and non-negative trust region length", "why_tests_cant": "All designs and dimensions, including incumbents on the boundary.", "anchors": ["src/Optimizers/optimization.cpp:Optimizer::defineTrustRegion", "src/Optimizers/optimization.cpp:Optimizer::changeSettingsForAGradientBasedStep", "src/Optimizers/optimization.cpp:Optimizer::trimVectorSoThatItStaysWithinTheBounds"]}
{"id": "C26", "title": "Parallel acquisition search returns the best candidate", "statement": "Whatever the thread schedule, after the search over the design space the recorded design has the largest acquisition value among all candidates evaluated.", "quantifier": "every set of candidates, number of threads and interleaving of the check and the guarded assignment", "why_tests_cant": "Depends on the thread schedule; tests see a handful of schedules.", "anchors": ["src/Optimizers/optimization.cpp:Optimizer::searchCompleteDesignSpace", "src/Optimizers/optimization.cpp:Optimizer::searchAroundGlobalOptima"]}
{"id": "C27", "title": "Local improvement of the acquisition function is monotone and terminates", "statement": "maximizeAcqusitionFunctionGradientBased returns after boundedly many evaluations a design inside the search box whose acquisition value is at least that of the starting design.", "quantifier": "every acquisition function, starting design in the box and iteration limit", "why_tests_cant": "Termination and monotonicity for all functions.", "anchors": ["src/Optimizers/optimization.cpp:Optimizer::maximizeAcqusitionFunctionGradientBased", "src/Design/design_bo.cpp:DesignForBayesianOptimization::gradientUpdateDesignVector"]}
{"id": "C28", "title": "The reported global optimum is the best feasible design", "statement": "When some history row is feasible the global optimum is a feasible row with the least objective value among feasible rows (first one on ties) and is flagged feasible; otherwise it is a row with least objective value and is flagged infeasible.", "quantifier": "every history with at least one row", "why_tests_cant": "All histories, with ties and with no feasible row.", "anchors": ["src/Optimizers/globalOptimalDesign.cpp:GlobalOptimalDesign::findBestDesignIndex", "src/Optimizers/globalOptimalDesign.cpp:GlobalOptimalDesign::setGlobalOptimalDesignFromHistoryFile"]}
{"id": "C29", "title": "The reported optimum never gets worse as samples are added", "statement": "Appending rows to the history never turns a feasible global optimum infeasible and never increases its objective value.", "quantifier": "every history and every sequence of appended rows", "why_tests_cant": "Monotonicity over all histories.", "anchors": ["src/Optimizers/globalOptimalDesign.cpp:GlobalOptimalDesign::findBestDesignIndex", "src/Optimizers/optimization_history.cpp:OptimizationHistory::updateOptimizationHistory"]}
{"id": "C30", "title": "Improvement values rank designs by objective", "statement": "The improvement value of a design is zero for infeasible designs, non-negative always, positive exactly when the design is feasible and strictly better than the best feasible initial sample (or is the first feasible design found), and for two later feasible designs the one with the smaller objective never has the smaller improvement.", "quantifier": "every sequence of designs and every initial history", "why_tests_cant": "The reference value is set at a data dependent moment (first feasible design).", "anchors": ["src/Optimizers/optimization.cpp:Optimizer::calculateImprovementValue", "src/Optimizers/optimization_history.cpp:OptimizationHistory::calculateInitialImprovementValue"]}
{"id": "C31", "title": "Feasibility flags in the initial history are exact", "statement": "Every row of the initial history is flagged 1 exactly when its design lies in the box and all constraints are satisfied, and 0 otherwise.", "quantifier": "every training data set, box and set of constraints, including none", "why_tests_cant": "All data sets; the unconstrained branch takes a different path.", "anchors": ["src/Optimizers/optimization.cpp:Optimizer::setOptimizationHistoryDataFeasibilityValues", "src/Optimizers/optimization_constraint_functions.cpp:Optimizer::checkConstraintFeasibility", "src/Optimizers/optimization.cpp:Optimizer::checkIfBoxConstraintsAreSatisfied"]}
{"id": "C32", "title": "The history is append-only and every row has the documented layout", "statement": "updateOptimizationHistory adds exactly one row at the end, leaves earlier rows unchanged, and the row is design parameters, objective, constraint values, improvement, feasibility in that order; a design of the wrong size is rejected with the history unchanged.", "quantifier": "every history and every design", "why_tests_cant": "All dimensions, numbers of constraints and histories.", "anchors": ["src/Optimizers/optimization_history.cpp:OptimizationHistory::updateOptimizationHistory", "src/Optimizers/optimization_history.cpp:OptimizationHistory::setHeader", "src/LinearAlgebra/matrix.cpp:mat::addRow"]}
{"id": "C33", "title": "The crowding factor is the mean pairwise distance of recent designs", "statement": "calculateCrowdingFactor yields the mean L1 distance over unordered pairs of the most recent designs (as many as there were initial samples, or all designs if there are fewer), is non-negative, does not depend on the order of the rows and does not throw on non-empty data.", "quantifier": "every history, dimension and number of initial samples", "why_tests_cant": "All sizes; the short-history branch needs a history shorter than the sample count.", "anchors": ["src/Optimizers/optimization_history.cpp:OptimizationHistory::calculateCrowdingFactor", "src/LinearAlgebra/matrix.cpp:mat::submat"]}
{"id": "C34", "title": "The exploration factor stays within its limits", "statement": "adjustSigmaFactor leaves the sigma factor between its minimum and maximum for every crowding factor and random draw.", "quantifier": "every crowding factor (including zero), multiplier and random draw", "why_tests_cant": "Division by a data dependent quantity that can be zero.", "anchors": ["src/Optimizers/optimization.cpp:Optimizer::adjustSigmaFactor"]}
{"id": "C35", "title": "Discrete parameters are rounded to the nearest grid value inside the box", "statement": "For increment dx > 0, rounding replaces each discrete parameter by the closest value of the form lb + k*dx not above ub (the lowest on ties), leaves all other parameters unchanged, keeps the design in the box, and rounding twice equals rounding once.", "quantifier": "every box, increment and design", "why_tests_cant": "A continuum of values and increments that do not divide the range.", "anchors": ["src/Optimizers/optimization.cpp:Optimizer::roundDiscreteParameters", "src/Optimizers/optimization.cpp:Optimizer::generateDiscreteValues", "src/Optimizers/optimization.cpp:Optimizer::findClosestDiscreteValue"]}
{"id": "C36", "title": "The evaluated design and its normalized form agree", "statement": "After findTheMostPromisingDesignToBeSimulated the normalized parameters recorded for the current design are the normalization of the parameters that will be simulated.", "quantifier": "every design, box and set of discrete parameters", "why_tests_cant": "Must hold for all designs, also when rounding applies.", "anchors": ["src/Optimizers/optimization.cpp:Optimizer::findTheMostPromisingDesignToBeSimulated"]}
{"id": "C37", "title": "Training data is written where it will be read", "statement": "After any history of API calls that ends with setNameOfTrainingDataFile(f) with non-empty f, the initial sampling writes the objective training data to f.", "quantifier": "every history of API calls and every file name", "why_tests_cant": "All call orders and names.", "anchors": ["src/API/cppAPI.cpp:RobustDesignOptimizer::setNameOfTrainingDataFile", "src/API/cppAPI.cpp:RobustDesignOptimizer::performDoE"]}
{"id": "C38", "title": "Box constraints can be set again after a mistake", "statement": "A call setBoxConstraints(lb,ub) with lb < ub and the right dimension succeeds and sets exactly these bounds, whatever setBoxConstraints calls (accepted or rejected) came before.", "quantifier": "every history of setBoxConstraints calls", "why_tests_cant": "The stored bounds accumulate over the history.", "anchors": ["src/API/cppAPI.cpp:RobustDesignOptimizer::setBoxConstraints", "src/Bounds/bounds.cpp:Bounds::setBounds", "src/Optimizers/globalOptimalDesign.cpp:GlobalOptimalDesign::setBoxConstraints"]}
{"id": "C39", "title": "Trimming a constraint expression removes surrounding whitespace only", "statement": "trim(s) is the longest substring of s that neither starts nor ends with a blank, tab, newline or carriage return.", "quantifier": "every string", "why_tests_cant": "All strings.", "anchors": ["src/API/cppAPI.cpp:trim"]}
{"id": "C40", "title": "Constraint expressions parse to what was written", "statement": "Parsing the rendering of a name, an inequality and a number separated by whitespace yields that name, inequality and number, and expressions without a valid inequality are rejected.", "quantifier": "every whitespace free name, both inequalities, every amount of whitespace", "why_tests_cant": "All strings.", "anchors": ["src/API/cppAPI.cpp:parseExpression"]}
{"id": "C41", "title": "The initial sampling evaluates each sample once and survives a crash", "statement": "If the process stops at any point during the initial sampling, the objective training file on disk holds exactly the samples evaluated and saved so far (each sample with its own function value, in order), and on completion it holds all of them.", "quantifier": "every number of samples, objective and crash point", "why_tests_cant": "Crash points and file states are not enumerable by tests.", "anchors": ["src/API/cppAPI.cpp:RobustDesignOptimizer::performDoE", "src/API/cppAPI.cpp:RobustDesignOptimizer::performDoEForConstraints", "src/LinearAlgebra/matrix.cpp:mat::saveAsCSV"]}
{"id": "C42", "title": "Latin hypercube sampling puts one sample in every stratum", "statement": "For n samples in a valid box and every outcome of the random shuffles and draws, each parameter has exactly one sample in each of the n equal subintervals of its range, so all samples lie in the box.", "quantifier": "every n, dimension, box, permutation and draw", "why_tests_cant": "All permutations and random draws.", "anchors": ["src/LinearAlgebra/matrix.cpp:mat::fillRandomLHS", "src/API/cppAPI.cpp:RobustDesignOptimizer::generateDoESamplesInput"]}
{"id": "C43", "title": "Row and column editing of matrices is exact and memory safe", "statement": "addRow, addColumn, deleteRow, deleteRows, setRow, setCol either throw or produce exactly the matrix with that row/column inserted, removed or replaced and all other entries unchanged; no call reads or writes outside the matrix storage, whatever int position is given.", "quantifier": "every matrix shape (including empty shapes), every int position and every vector", "why_tests_cant": "Raw pointer arithmetic over all shapes and positions.", "anchors": ["src/LinearAlgebra/matrix.cpp:mat::addRow", "src/LinearAlgebra/matrix.cpp:mat::addColumn", "src/LinearAlgebra/matrix.cpp:mat::deleteRow", "src/LinearAlgebra/matrix.cpp:mat::deleteRows", "src/LinearAlgebra/matrix.cpp:mat::setRow", "src/LinearAlgebra/matrix.cpp:mat::setCol"]}
{"id": "C44", "title": "Reading parts of matrices is exact", "statement": "submat, getRow, getCol, resize, transpose, concatenateRowWise and concatenateColumnWise return matrices whose entries are exactly the mathematically expected entries of their arguments; out-of-range requests throw and never read outside the storage; transposing twice is the identity.", "quantifier": "every matrix shape and every argument", "why_tests_cant": "All shapes; column-major index arithmetic.", "anchors": ["src/LinearAlgebra/matrix.cpp:mat::submat", "src/LinearAlgebra/matrix.cpp:mat::getRow", "src/LinearAlgebra/matrix.cpp:mat::getCol", "src/LinearAlgebra/matrix.cpp:mat::resize", "src/LinearAlgebra/matrix.cpp:mat::transposeNaive", "src/LinearAlgebra/matrix.cpp:mat::concatenateRowWise", "src/LinearAlgebra/matrix.cpp:mat::concatenateColumnWise"]}
{"id": "C45", "title": "Matrix products are the mathematical products", "statement": "For matching shapes the matrix-matrix and matrix-vector products have entries sum_k a(i,k) b(k,j); mismatching shapes are rejected; product with a transpose, associativity and distributivity follow.", "quantifier": "every shape and entries", "why_tests_cant": "All sizes.", "anchors": ["src/LinearAlgebra/matrix.cpp:mat::matMatProductNaive", "src/LinearAlgebra/matrix.cpp:mat::matVecProductNaive", "src/LinearAlgebra/matrix.cpp:mat::operator*"]}
{"id": "C46", "title": "LU factorization and solve are correct", "statement": "If LU factorization of a square matrix A reports success then for every right-hand side b of matching size the LU solve returns x with A x = b, and the inverse built from it satisfies A * inverse = I; a singular matrix is always reported as failed.", "quantifier": "every size n, matrix and right-hand side", "why_tests_cant": "All sizes and all pivot orders.", "anchors": ["src/LinearAlgebra/matrix.cpp:mat::lu_decomposition", "src/LinearAlgebra/matrix.cpp:mat::forward_substitution", "src/LinearAlgebra/matrix.cpp:mat::backward_substitution", "src/LinearAlgebra/matrix.cpp:mat::invertNaive", "src/LinearAlgebra/linear_solver.cpp:LUSystem::solveLinearSystem"]}
{"id": "C47", "title": "LU factorization accepts every invertible matrix", "statement": "If A is invertible then LU factorization of A reports success.", "quantifier": "every invertible matrix", "why_tests_cant": "A continuum of matrices, the failing ones being badly scaled.", "anchors": ["src/LinearAlgebra/matrix.cpp:mat::lu_decomposition"]}
{"id": "C48", "title": "Cholesky factorization and solve are correct", "statement": "If Cholesky factorization of a symmetric A reports success then the factor L is lower triangular with L L^T = A and the Cholesky solve returns x with A x = b for every b; a matrix that is not positive definite is reported as failed; a positive definite one succeeds.", "quantifier": "every size n, symmetric matrix and right-hand side", "why_tests_cant": "All sizes, including matrices that hit a zero pivot.", "anchors": ["src/LinearAlgebra/matrix.cpp:mat::choleskyNaive", "src/LinearAlgebra/matrix.cpp:mat::solveCholeskyNaive", "src/LinearAlgebra/linear_solver.cpp:CholeskySystem::factorize", "src/LinearAlgebra/linear_solver.cpp:CholeskySystem::solveLinearSystem"]}
{"id": "C49", "title": "Row lookup finds the first matching row", "statement": "findRowIndex(v,tol) returns the least index whose row agrees with v within tol in every entry and -1 when there is none; isRowInMatrix agrees with it; with a row of the matrix itself and tol >= 0 a match is always found.", "quantifier": "every matrix, vector and tolerance", "why_tests_cant": "All shapes and values.", "anchors": ["src/LinearAlgebra/matrix.cpp:mat::findRowIndex", "src/LinearAlgebra/matrix.cpp:mat::isRowInMatrix"]}
{"id": "C50", "title": "Saving a matrix as CSV and reading it back keeps shape, order and values to the written precision", "statement": "Saving an n x m matrix (n,m >= 1) with p digits and an optional header and reading it back gives an n x m matrix each entry of which differs from the original by at most half a unit in the p-th decimal.", "quantifier": "every matrix, precision and header", "why_tests_cant": "All matrices and digit expansions.", "anchors": ["src/LinearAlgebra/matrix.cpp:mat::saveAsCSV", "src/LinearAlgebra/matrix.cpp:mat::readFromCSV"]}
{"id": "C51", "title": "Correlation matrices are symmetric with unit diagonal and entries in (0,1]", "statement": "For non-negative weights theta the Gaussian and exponential correlation matrices of any sample matrix are symmetric, have ones on the diagonal and entries in (0,1], and the entry of two samples decreases when a coordinate distance grows.", "quantifier": "every sample matrix, every non-negative theta and non-negative exponents gamma", "why_tests_cant": "All sizes and values.", "anchors": ["src/LinearAlgebra/matrix.cpp:mat::computeCorrelationMatrixGaussianNaive", "src/LinearAlgebra/matrix.cpp:mat::computeCorrelationMatrixExponentialNaive", "src/LinearAlgebra/vector.cpp:vec::computeGaussianCorrelationNaive", "src/LinearAlgebra/vector.cpp:vec::computeExponentialCorrelationNaive"]}
{"id": "C52", "title": "Correlation derivatives are the true derivatives", "statement": "The directional derivative functions for the Gaussian correlation (first and mixed second) equal the derivatives of the correlation function with respect to the second point along the given directions, at every pair of points.", "quantifier": "every pair of points, directions, weights and dimension", "why_tests_cant": "A finite-difference test samples points only.", "anchors": ["src/LinearAlgebra/vector.cpp:vec::computeGaussianCorrelationDot", "src/LinearAlgebra/vector.cpp:vec::computeGaussianCorrelationDotDot"]}
{"id": "C53", "title": "Validation samples are never used for training", "statement": "After reading training data with a validation ratio, every data row is in exactly one of the training and validation parts, and the validation part has exactly the requested number of rows, also when the data is read again.", "quantifier": "every data file, ratio, shuffle and history of reads", "why_tests_cant": "All shuffles and histories of reads.", "anchors": ["src/SurrogateModels/surrogate_model_data.cpp:SurrogateModelData::readData", "src/SurrogateModels/surrogate_model_data.cpp:SurrogateModelData::getOutputVectorValidation"]}
{"id": "C54", "title": "The Kriging predictor interpolates the training data", "statement": "With an exact correlation matrix (no nugget) the predicted value at a training sample equals its training value and the predicted variance there is zero; with nugget e the prediction error at sample i is e times the i-th weight.", "quantifier": "every number of samples, positive definite correlation and output vector", "why_tests_cant": "All sizes and data.", "anchors": ["src/SurrogateModels/kriging_training.cpp:KrigingModel::interpolate", "src/SurrogateModels/kriging_training.cpp:KrigingModel::updateModelWithNewData"]}
{"id": "C55", "title": "Ridge regression weights minimize the regularized least squares error", "statement": "The weights computed for the linear model are the unique minimizer of the sum of squared residuals plus lambda times the squared weight norm, and prediction is the affine function with these weights.", "quantifier": "every data set and lambda > 0", "why_tests_cant": "Optimality over a continuum of alternatives.", "anchors": ["src/SurrogateModels/linear_regression.cpp:LinearModel::train", "src/SurrogateModels/linear_regression.cpp:LinearModel::interpolate"]}
{"id": "C56", "title": "Repeated Kriging training keeps the training effort", "statement": "Calling train() repeatedly on the same model uses the configured number of training iterations each time.", "quantifier": "every number of calls, threads and configured iterations", "why_tests_cant": "History of calls.", "anchors": ["src/SurrogateModels/kriging_training.cpp:KrigingModel::train"]}
{"id": "C57", "title": "Hyperparameter search keeps the best result of all threads", "statement": "Under every thread schedule the hyperparameters kept after parallel training are those with the best score among the threads, and hyperparameters whose factorization failed are never preferred to ones that succeeded.", "quantifier": "every schedule, number of threads and score function", "why_tests_cant": "Schedules and failing factorizations.", "anchors": ["src/SurrogateModels/kriging_training.cpp:KrigingModel::train", "src/SurrogateModels/kriging_training.cpp:KrigingHyperParameterOptimizer::calculateObjectiveFunctionInternal"]}
{"id": "C58", "title": "New samples are never duplicates of existing training data", "statement": "Adding samples one after another to the training data never leaves two rows whose inputs agree within the duplicate tolerance, keeps all earlier rows, and a rejected sample changes nothing.", "quantifier": "every history of added samples", "why_tests_cant": "Histories of additions.", "anchors": ["src/SurrogateModels/kriging_training.cpp:KrigingModel::addNewSampleToData"]}
{"id": "C59", "title": "Samples written for training have the documented layout", "statement": "For every kind of data (value, gradient, tangent; high and low fidelity; objective and each constraint) the sample built from a design is its parameters followed by the matching value and derivative data of that same function.", "quantifier": "every design, constraint index and data kind", "why_tests_cant": "All designs and indices.", "anchors": ["src/Design/design.cpp:Design::constructSampleConstraintWithTangent", "src/Design/design.cpp:Design::constructSampleConstraint", "src/Design/design.cpp:Design::constructSampleObjectiveFunctionWithGradient"]}
{"id": "C60", "title": "A design with a NaN is never recorded", "statement": "If any number that would be written to the history or training data for the current design is NaN, the optimizer aborts before recording it.", "quantifier": "every design and every position of a NaN", "why_tests_cant": "All positions and data kinds.", "anchors": ["src/Design/design.cpp:Design::checkIfHasNan", "src/Optimizers/optimization.cpp:Optimizer::abortIfCurrentDesignHasANaN"]}
{"id": "C61", "title": "Expected improvement is non-negative and constraint probabilities combine correctly", "statement": "The acquisition value is non-negative, feasibility probabilities lie in [0,1], and the constrained acquisition value is the product of the acquisition value and all feasibility probabilities.", "quantifier": "every mean, deviation, threshold and number of constraints", "why_tests_cant": "Continuum of inputs.", "anchors": ["src/Design/design_bo.cpp:DesignForBayesianOptimization::updateAcqusitionFunctionAccordingToConstraints", "src/Design/design_bo.cpp:DesignForBayesianOptimization::cdf"]}
{"id": "C62", "title": "Driver configuration values reach the optimizer", "statement": "Every keyword accepted in the XML configuration ends up in the corresponding setting of the object it configures, and a missing mandatory keyword is reported.", "quantifier": "every configuration file", "why_tests_cant": "All combinations of present and absent keywords.", "anchors": ["src/Driver/driver_xml.cpp:Driver::run", "src/Driver/driver_xml.cpp:Driver::readConfigurationFile", "src/Driver/configkey.cpp:Keyword::getValueFromXMLString"]}
{"id": "C63", "title": "Determinants reported after a Cholesky factorization are exact", "statement": "After a successful factorization of a non-empty symmetric matrix the Cholesky system returns the determinant of that matrix, and for a positive definite matrix the log determinant it returns is the logarithm of the determinant.", "quantifier": "every symmetric matrix of every size", "why_tests_cant": "Matrices of all sizes.", "anchors": ["src/LinearAlgebra/linear_solver.cpp:CholeskySystem::calculateDeterminant", "src/LinearAlgebra/linear_solver.cpp:CholeskySystem::calculateLogDeterminant"]}
{"id": "C64", "title": "Appending a sample to a data file keeps the earlier rows", "statement": "Appending a vector to a CSV file adds exactly one row with its numbers after the rows already in the file, and reading the file back gives the old rows followed by the new one.", "quantifier": "every file content, every vector and every precision", "why_tests_cant": "All file contents, also hand-written ones without a final line break.", "anchors": ["src/LinearAlgebra/vector.cpp:vec::appendToCSV", "src/SurrogateModels/kriging_training.cpp:KrigingModel::addNewSampleToData"]}
{"id": "C65", "title": "Saved hyperparameters and weights are read back", "statement": "Saving a vector of hyperparameters or weights to a file and reading it back gives a vector of the same length whose entries agree to the six significant digits that are printed.", "quantifier": "every vector of every length", "why_tests_cant": "All lengths and magnitudes of the entries.", "anchors": ["src/LinearAlgebra/vector.cpp:vec::saveToCSV", "src/LinearAlgebra/vector.cpp:vec::readFromCSV"]}
{"id": "C66", "title": "Every design sent to the simulator lies in the box", "statement": "Whatever the surrogate models answer, whatever the random draws and however the threads of the parallel searches are interleaved, the search for the next design returns, and the design handed to the simulator lies within the box constraints with every discrete parameter on its grid.", "quantifier": "every surrogate answer, draw, thread schedule, trust region length and incumbent", "why_tests_cant": "Continuum of surrogate answers and unboundedly many schedules.", "anchors": ["src/Optimizers/optimization.cpp:Optimizer::findTheMostPromisingDesignToBeSimulated", "src/Optimizers/optimization.cpp:Optimizer::findTheMostPromisingDesignEGO"]}
{"id": "C67", "title": "Constraint definitions are read as they are written", "statement": "A constraint definition that consists of a name, < or >, and a number, with any white space between or within them, sets exactly this name, inequality and bound; a definition without an inequality or without a number after it is rejected, and a rejected definition leaves the constraint as it was.", "quantifier": "every definition text and every previous definition", "why_tests_cant": "All texts with all placements of white space.", "anchors": ["src/ObjectiveFunctions/constraint_functions.cpp:ConstraintDefinition::setDefinition"]}
{"id": "C68", "title": "Constraints of a study are stored completely and in order", "statement": "After any history of interface calls the functions, training data files, names, inequalities and bounds of the constraints are those of the well-formed addConstraint calls, in the order of the calls; constraint number j has the ID j, and its function, file and expression belong to the same call.", "quantifier": "every history of interface calls, including rejected ones", "why_tests_cant": "Unboundedly many histories.", "anchors": ["src/API/cppAPI.cpp:RobustDesignOptimizer::addConstraint", "src/Optimizers/optimization_constraint_functions.cpp:Optimizer::addConstraint"]}
{"id": "C69", "title": "A rejected interface call changes nothing", "statement": "An interface call that throws leaves the study exactly as it was before the call, so that the caller can catch the exception and repeat the call with corrected arguments.", "quantifier": "every history of interface calls and every rejected call", "why_tests_cant": "Unboundedly many histories.", "anchors": ["src/API/cppAPI.cpp:RobustDesignOptimizer"]}
{"id": "C70", "title": "Nothing is evaluated before the mandatory settings are present", "statement": "run() evaluates no user function and touches no file unless a dimension, bounds and an objective function have been accepted before and the maximum number of evaluations is positive.", "quantifier": "every history of interface calls", "why_tests_cant": "Unboundedly many histories.", "anchors": ["src/API/cppAPI.cpp:RobustDesignOptimizer::run", "src/API/cppAPI.cpp:RobustDesignOptimizer::checkOptimizationSettings"]}
{"id": "C71", "title": "The derivative of the exponential correlation is the true derivative", "statement": "Wherever the exponential correlation of two points has a derivative along a direction (with respect to the second point), computeCorrelationDot returns that derivative.", "quantifier": "every pair of points, direction, non-negative weights and exponents in (0,2]", "why_tests_cant": "A finite-difference test samples points only; the exceptional points form a null set.", "anchors": ["src/LinearAlgebra/vector.cpp:vec::computeExponentialCorrelationDot", "src/CorrelationFunctions/exponential_correlation_function.cpp:ExponentialCorrelationFunction::computeCorrelationDot"]}
{"id": "C72", "title": "The correlation matrix can always be factorised", "statement": "For any samples (also repeated ones), non-negative weights, exponents between zero and two and a positive epsilon the correlation matrix is symmetric positive definite; the Cholesky solver reports success for it and solves every system with it exactly.", "quantifier": "every sample matrix and all hyperparameters in range", "why_tests_cant": "Positive definiteness for all point sets is a theorem about all matrices of that form.", "anchors": ["src/CorrelationFunctions/exponential_correlation_function.cpp:ExponentialCorrelationFunction::computeCorrelationMatrix", "src/LinearAlgebra/linear_solver.cpp:CholeskySystem::factorize"]}
{"id": "C73", "title": "Derivative data follow the normalization of the inputs", "statement": "If the derivative columns of a training data file are derivatives of some function of the parameters, then after reading and normalizing, the stored derivatives are derivatives of the same function of the normalized parameters (for directional derivatives: along the stored directions).", "quantifier": "every function, data file, box, ratio and shuffle", "why_tests_cant": "A chain rule for all functions and boxes.", "anchors": ["src/SurrogateModels/surrogate_model_data.cpp:SurrogateModelData::normalizeGradientMatrix", "src/SurrogateModels/surrogate_model_data.cpp:SurrogateModelData::normalizeDerivativesMatrix"]}
{"id": "C74", "title": "The trust region reacts to streaks only", "statement": "The trust region length changes exactly at every third improvement in a row, when it is doubled up to the maximum, and at every fifteenth iteration without improvement in a row, when it is halved down to the minimum.", "quantifier": "every dimension and every sequence of outcomes", "why_tests_cant": "Unbounded sequences of outcomes.", "anchors": ["src/Optimizers/efficient_global_optimization.cpp:Optimizer::performEfficientGlobalOptimizationOnlyWithFunctionalValues"]}
{"id": "C75", "title": "The predicted variance is never negative", "statement": "For every training data file and every point, the Kriging model delivers a prediction and a variance that is not negative, so the standard deviation taken by the acquisition function is defined.", "quantifier": "every data file, box, nugget between 0 and 1, trend option and query point", "why_tests_cant": "A continuum of query points and all data sets.", "anchors": ["src/SurrogateModels/kriging_training.cpp:KrigingModel::interpolateWithVariance"]}
{"id": "C76", "title": "The Kriging prediction is the best linear unbiased one", "statement": "At every point the prediction is the trend plus the linear combination of the differences to the trend that has the least mean squared error among all combinations with weights summing to one, under the model's own correlation function; the reported variance is the process variance times this error.", "quantifier": "every data file, box, nugget, trend option and query point", "why_tests_cant": "Optimality over all competing weights.", "anchors": ["src/SurrogateModels/kriging_training.cpp:KrigingModel::interpolate", "src/SurrogateModels/kriging_training.cpp:KrigingModel::interpolateWithVariance", "src/SurrogateModels/kriging_training.cpp:KrigingModel::updateAuxilliaryFields"]}
{"id": "C77", "title": "A Kriging model never lags behind its data file", "statement": "After any sequence of added samples and likelihood trainings, including calls that throw, the model's predictions and variances are those of the Kriging model of exactly the rows that are in the training data file at that moment.", "quantifier": "every data file, box and trend option and every history of added samples and trainings, with all random numbers and thread schedules", "why_tests_cant": "Histories, schedules and random numbers; tests check one addition or one training.", "anchors": ["src/SurrogateModels/kriging_training.cpp:KrigingModel::addNewSampleToData", "src/SurrogateModels/kriging_training.cpp:KrigingModel::updateModelWithNewData", "src/SurrogateModels/kriging_training.cpp:KrigingModel::train", "src/SurrogateModels/kriging_training.cpp:KrigingModel::updateAuxilliaryFields"]}
{"id": "C78", "title": "The expected improvement is the expected improvement", "statement": "For every estimate, deviation, exploration factor and best value so far, the acquisition value without constraints is the expectation of the improvement over the best value for a normal variable with the estimated mean and the scaled deviation, up to rounding of the constants.", "quantifier": "every estimate, variance, positive factor and minimum", "why_tests_cant": "A continuum of inputs; the reference is an integral.", "anchors": ["src/ObjectiveFunctions/objective_function.cpp:ObjectiveFunction::calculateExpectedImprovement"]}
{"id": "C79", "title": "Feasibility probabilities are the probabilities that the constraints hold", "statement": "For a constraint with a surrogate model the stored probability is the probability that a normal variable with the estimated mean and deviation satisfies the inequality; for a user-defined function it is 1 or 0 according to whether the constraint is feasible at the point.", "quantifier": "every number and order of constraints, every estimate, deviation, bound and inequality", "why_tests_cant": "A continuum of inputs and every number of constraints.", "anchors": ["src/Optimizers/optimization_constraint_functions.cpp:Optimizer::calculateFeasibilityProbabilities", "src/Optimizers/optimization_constraint_functions.cpp:Optimizer::estimateConstraints", "src/Optimizers/optimization.cpp:Optimizer::normalCdf", "src/ObjectiveFunctions/constraint_functions.cpp:ConstraintFunction::interpolateWithVariance"]}
{"id": "C80", "title": "The probability of improvement belongs to the design", "statement": "The probability of improvement of a design is the probability that a normal variable with the surrogate model's estimate and deviation at this design is below the best value so far.", "quantifier": "every design, also one whose stored value is outdated, every estimate and positive variance", "why_tests_cant": "A continuum of inputs and all previous states of the design object.", "anchors": ["src/ObjectiveFunctions/objective_function.cpp:ObjectiveFunction::calculateProbabilityOfImprovement", "src/Design/design_bo.cpp:DesignForBayesianOptimization::calculateProbalityThatTheEstimateIsLessThanAValue"]}
{"id": "C81", "title": "Correct configuration files are accepted", "statement": "Every configuration file that has the three sections, gives every mandatory keyword a value of its type, names known types and models, gives as many parameters with distinct names and ordered bounds as its dimension says and puts constraints on lines of their own is accepted, and the study gets the settings of the file.", "quantifier": "every text that is such a file: any number of parameters and constraints, any order and layout of the keywords inside the sections", "why_tests_cant": "All texts of any length.", "anchors": ["src/Driver/driver_xml.cpp:Driver::run", "src/Driver/driver_xml.cpp:Driver::readConfigurationFile", "src/Driver/driver_xml.cpp:Driver::readOptimizationParameters", "src/Driver/driver_xml.cpp:Driver::readConstraintFunctions"]}
{"id": "C82", "title": "A design is recorded with the simulator's value at this design", "statement": "When the external program computes some function of the parameters it is given in the design file, evaluating a design succeeds and records the value of this function at the design.", "quantifier": "every function, program, design and content of the working directory", "why_tests_cant": "A continuum of designs, all programs and all previous contents of the directory; tests use designs with few digits.", "anchors": ["src/ObjectiveFunctions/objective_function.cpp:ObjectiveFunction::evaluateDesign", "src/ObjectiveFunctions/objective_function.cpp:ObjectiveFunction::writeDesignVariablesToFile"]}
{"id": "C83", "title": "A recorded value was produced by the run for this design", "statement": "Whenever an evaluation by an external program succeeds, the configured program has been run for this design, has ended with exit code 0 and has written the output file in this run, and the recorded value is the number it wrote.", "quantifier": "every program behaviour, every history of earlier runs and every design", "why_tests_cant": "All programs and all histories of the working directory; the failure needs an earlier run.", "anchors": ["src/ObjectiveFunctions/objective_function.cpp:ObjectiveFunction::evaluateDesign", "src/ObjectiveFunctions/objective_function.cpp:ObjectiveFunction::evaluateObjectiveFunction", "src/ObjectiveFunctions/objective_function.cpp:ObjectiveFunction::readOutput", "src/ObjectiveFunctions/objective_function.cpp:ObjectiveFunction::getExecutionCommand"]}
{"id": "C84", "title": "A failed simulation is reported and not recorded", "statement": "A program that cannot be started or ends with an exit code other than 0, and an output file that is missing or does not start with a number (for instance nan), make the evaluation throw a runtime error; an evaluation that throws leaves the design as it was.", "quantifier": "every program behaviour, directory content and design", "why_tests_cant": "All programs and all output texts.", "anchors": ["src/ObjectiveFunctions/objective_function.cpp:ObjectiveFunction::evaluateDesign", "src/ObjectiveFunctions/objective_function.cpp:ObjectiveFunction::evaluateObjectiveFunction", "src/ObjectiveFunctions/objective_function.cpp:ObjectiveFunction::readOutput"]}
{"id": "C85", "title": "Objective and constraints do not disturb each other", "statement": "Through a whole study, every design gets the value of the objective and, at the place of each constraint's number, the value of this constraint, also when the functions share executables and files, when one program computes everything, and when some constraints are functions in memory; a constraint that throws leaves the design as it was.", "quantifier": "every sequence of designs, number of constraints, mixture of kinds, sharing of file names and initial directory", "why_tests_cant": "Histories of any length and all ways of sharing files.", "anchors": ["src/Optimizers/optimization_constraint_functions.cpp:Optimizer::evaluateConstraints", "src/ObjectiveFunctions/constraint_functions.cpp:ConstraintFunction::evaluateDesign", "src/ObjectiveFunctions/constraint_functions.cpp:ConstraintFunction::evaluateObjectiveUsingExternalExecutable"]}
{"id": "C86", "title": "A test on a file reports the model's errors on this file", "statement": "Reading a test file, normalizing it and trying the model on it reports, row by row, the parameters of the file, the model's estimate at them, the true value, the squared error and, if asked for, the variance; the reported error is the mean of the squared errors. This holds whatever has been tested before, with files with or without true values.", "quantifier": "every model, box, test file and mode, and every sequence of earlier tests, including those that throw", "why_tests_cant": "All files and histories of tests; tests use a fresh model and one file.", "anchors": ["src/SurrogateModels/surrogate_model.cpp:SurrogateModel::readDataTest", "src/SurrogateModels/surrogate_model.cpp:SurrogateModel::normalizeDataTest", "src/SurrogateModels/surrogate_model.cpp:SurrogateModel::tryOnTestData", "src/SurrogateModels/surrogate_model_data.cpp:SurrogateModelData::readDataTest"]}
{"id": "C87", "title": "The saved test report is the report", "statement": "Saving the results of a test writes a file with one line naming the columns and the rows of the report, which can be read back up to rounding; also when earlier tests or saves have happened.", "quantifier": "every model and test file, and every history of tests and saves", "why_tests_cant": "Histories of calls on one object; the failure needs a second save.", "anchors": ["src/SurrogateModels/surrogate_model.cpp:SurrogateModel::saveTestResults", "src/SurrogateModels/surrogate_model.cpp:SurrogateModel::saveTestResultsWithVariance", "src/SurrogateModels/surrogate_model.cpp:SurrogateModel::calculateOutSampleError"]}
{"id": "C88", "title": "The in-sample error is the error on the training samples", "statement": "The in-sample error is the mean of the squared differences between the model's estimates at the training samples and the values of the same samples; for a Kriging model it is the nugget's effect alone.", "quantifier": "every data file, validation ratio, shuffle and model", "why_tests_cant": "All data files and shuffles; with a validation part the failure depends on the shuffle.", "anchors": ["src/SurrogateModels/surrogate_model.cpp:SurrogateModel::calculateInSampleError"]}
{"id": "C89", "title": "The number of samples within bounds is the number of such samples", "statement": "Counting the samples within given bounds gives the number of rows of the training data file for which every parameter is within the bounds.", "quantifier": "every data file, validation ratio, shuffle and pair of bounds", "why_tests_cant": "All tables and bounds.", "anchors": ["src/SurrogateModels/surrogate_model.cpp:SurrogateModel::countHowManySamplesAreWithinBounds"]}
{"id": "C90", "title": "Every simulated design was found with models of all data so far", "statement": "Each design that an optimization simulates was found by a search with the acquisition function of surrogate models that predict from exactly the rows of the training data files at that time; these are the initial rows and the rows of all designs simulated before. The acquisition function is the expected improvement over the best feasible value times the probabilities that the constraints hold.", "quantifier": "every problem, training data files, random numbers, training results, simulations and numbers of samples, including runs that end early", "why_tests_cant": "A statement about all runs of the whole loop with its models and files; a test sees one run and cannot see from which rows a model predicts.", "anchors": ["src/Optimizers/efficient_global_optimization.cpp:Optimizer::performEfficientGlobalOptimization", "src/Optimizers/optimization.cpp:Optimizer::findTheMostPromisingDesignToBeSimulated", "src/ObjectiveFunctions/objective_function.cpp:ObjectiveFunction::addDesignToData", "src/SurrogateModels/kriging_training.cpp:KrigingModel::addNewSampleToData"]}
{"id": "C91", "title": "An optimization with delivering simulations completes unless a training throws", "statement": "If all simulations deliver numbers, an optimization that is set up properly returns after exactly the configured number of simulations, with each design recorded once in history and training data and the best row as optimum; the only other end is an exception of the training of the surrogate models, which is passed on, and then everything is recorded for the designs before.", "quantifier": "every properly set up problem, files, random numbers and simulations", "why_tests_cant": "Nothing may throw in any iteration for any data; tests run a few problems.", "anchors": ["src/Optimizers/efficient_global_optimization.cpp:Optimizer::performEfficientGlobalOptimization", "src/Optimizers/optimization.cpp:Optimizer::trainSurrogates", "src/Optimizers/optimization.cpp:Optimizer::initializeSurrogates"]}
{"id": "C92", "title": "Training data files accumulate all simulated designs over any number of runs", "statement": "After any sequence of optimizations of the same problem with the same training data files, completed or ended early, the files have the initial text as prefix and the rows of all designs simulated in all runs, up to the digits written and except for designs that differ by less than 1e-4 from a row; no other file is changed.", "quantifier": "every number of runs, each with its own settings, random numbers, simulations and failures", "why_tests_cant": "Histories of several runs, with failures at any point.", "anchors": ["src/Optimizers/efficient_global_optimization.cpp:Optimizer::performEfficientGlobalOptimization", "src/ObjectiveFunctions/objective_function.cpp:ObjectiveFunction::addDesignToData", "src/ObjectiveFunctions/constraint_functions.cpp:ConstraintFunction::addDesignToData", "src/ObjectiveFunctions/objective_function.cpp:ObjectiveFunction::initializeSurrogate"]}
{"id": "C93", "title": "A simulation that fails leaves history, optimum and files as they were", "statement": "If a simulation of the objective function or of a constraint throws or delivers NaN in some iteration, the optimization ends with an error, and history, optimum and training data files are those of the designs before this iteration.", "quantifier": "every iteration in which a simulation fails, every problem, files and random numbers", "why_tests_cant": "All crash points of a run.", "anchors": ["src/Optimizers/efficient_global_optimization.cpp:Optimizer::performEfficientGlobalOptimization", "src/Optimizers/optimization.cpp:Optimizer::abortIfCurrentDesignHasANaN"]}
{"id": "C94", "title": "The settings made through the C++ interface are the ones the run uses", "statement": "After any history of calls the optimizer and the initial sampling have the name, number of evaluations, dimension, objective function with its name and file, number of initial samples, sampling method and working directory of the last well-formed calls, and the documented defaults where there was none; rejected and malformed calls change none of them.", "quantifier": "every history of calls of the interface, with rejected, repeated and malformed calls in any order", "why_tests_cant": "All call sequences; tests exercise single setters.", "anchors": ["src/API/cppAPI.cpp:RobustDesignOptimizer::setName", "src/API/cppAPI.cpp:RobustDesignOptimizer::setDimension", "src/API/cppAPI.cpp:RobustDesignOptimizer::setObjectiveFunction", "src/API/cppAPI.cpp:RobustDesignOptimizer::setMaxNumberOfFunctionEvaluations", "src/API/cppAPI.cpp:RobustDesignOptimizer::setDoEStrategy", "src/API/cppAPI.cpp:RobustDesignOptimizer::setCurrentWorkingDirectory"]}
{"id": "C95", "title": "Accepted settings prepare all functions, whatever the order of the calls", "statement": "If every call has been accepted and the check before the run finds nothing missing, the objective function and all constraints have the dimension and the bounds of the study, so that their surrogate models can be initialized.", "quantifier": "every order of the calls of the interface", "why_tests_cant": "All orders of calls; tests use one order.", "anchors": ["src/API/cppAPI.cpp:RobustDesignOptimizer::addConstraint", "src/API/cppAPI.cpp:RobustDesignOptimizer::setBoxConstraints", "src/API/cppAPI.cpp:RobustDesignOptimizer::setObjectiveFunction", "src/API/cppAPI.cpp:RobustDesignOptimizer::checkOptimizationSettings", "src/Optimizers/optimization_setter_getters.cpp:Optimizer::setBoxConstraints"]}
{"id": "C96", "title": "The file of the global optimum tells the best design", "statement": "Whenever the optimizer has determined the best design of a history, the XML file it writes gives back, read with the readers of the program, the number, the parameters, the objective value, the constraint values and the feasibility of this design.", "quantifier": "every history, every best design, whatever the file contained before", "why_tests_cant": "All values and sizes; a test reads one file.", "anchors": ["src/Optimizers/globalOptimalDesign.cpp:GlobalOptimalDesign::saveToXMLFile", "src/Optimizers/globalOptimalDesign.cpp:GlobalOptimalDesign::generateXmlString", "src/Driver/xml_functions.cpp:getDoubleVectorValuesFromXML", "src/Driver/xml_functions.cpp:getDoubleValueFromXML"]}
{"id": "C97", "title": "A design saved to a file can be read back", "statement": "The files in which a design is saved tell its parameters: the line of comma separated values and the list with one value per line are read back with ten significant digits, and two designs with the same report have the same parameters up to the digits written.", "quantifier": "every design, every number of parameters, whatever the file contained before", "why_tests_cant": "All values and sizes; tests look at one file.", "anchors": ["src/Design/design.cpp:Design::saveDesignVectorAsCSVFile", "src/Design/design.cpp:Design::saveDesignVector", "src/Design/design.cpp:Design::saveToAFile"]}
{"id": "C98", "title": "Log messages never end a run and tell the design", "statement": "The heading of a log message has the given width with the message in the middle, for every message, and the log message about a design never throws and gives parameters, objective value and constraint values to six decimals.", "quantifier": "every message, width and design", "why_tests_cant": "All lengths and values; a wrong length only shows for long messages.", "anchors": ["src/Optimizers/aux.cpp:generateFormattedString", "src/Design/design.cpp:Design::generateOutputString", "src/Design/design.cpp:Design::generateFormattedString"]}
{"id": "C99", "title": "A test of a surrogate model tests the type that was asked for", "statement": "Whatever the order of the calls that set up a test: if the model type set last is the linear model, the test writes the predictions of the ridge regression of the training file for all test samples to the results file, changes no other file and logs its training error; correspondingly for Kriging models. A tester can be used again.", "quantifier": "every accepted sequence of set-up calls, every training and test file, every draw of random numbers", "why_tests_cant": "All orders of calls and all files; tests use one order and one test per object.", "anchors": ["src/SurrogateModels/surrogate_model_tester.cpp:SurrogateModelTester::performSurrogateModelTest", "src/SurrogateModels/surrogate_model_tester.cpp:SurrogateModelTester::bindSurrogateModels", "src/SurrogateModels/surrogate_model_tester.cpp:SurrogateModelTester::setSurrogateModel", "src/SurrogateModels/surrogate_model.cpp:SurrogateModel::saveTestResults"]}
{"id": "C100", "title": "A search with the evolutionary algorithm completes", "statement": "With accepted settings and an objective function that has a value everywhere in the box, the search with the evolutionary algorithm returns a result, unless the random generator avoids some part of the unit interval.", "quantifier": "every objective function, every box, all settings, every fair sequence of random draws", "why_tests_cant": "Infinitely many draws and objectives; a test runs one search on one function.", "anchors": ["src/InternalOptimizers/ea_optimizer.cpp:EAOptimizer::optimize", "src/InternalOptimizers/ea_population.cpp:EAPopulation::updateFitnessValues", "src/InternalOptimizers/ea_population.cpp:EAPopulation::generateRandomParents"]}
{"id": "C101", "title": "Training of a Kriging model completes", "statement": "A Kriging model built from a training data file, with a positive nugget and at least one iteration per thread, can be trained by maximum likelihood: the call returns, unless the random generators avoid some part of the unit interval. The criterion it minimizes is the negative log likelihood of the samples.", "quantifier": "every training data file, every number of inputs, samples and threads, every schedule of the threads, every fair sequence of random draws", "why_tests_cant": "Infinitely many data sets, draws and schedules; a test trains on one data set.", "anchors": ["src/SurrogateModels/kriging_training.cpp:KrigingModel::train", "src/SurrogateModels/kriging_training.cpp:KrigingModel::calculateLikelihoodFunction", "src/SurrogateModels/kriging_training.cpp:KrigingHyperParameterOptimizer::calculateObjectiveFunctionInternal", "src/InternalOptimizers/ea_optimizer.cpp:EAOptimizer::optimize"]}
{"id": "C102", "title": "The gradient attached to the optimum is that of its training sample", "statement": "When the gradient of the best design is taken from the training data file, it is the gradient stored in the first row with the parameters of this design, nothing else of the design changes, and a file without such a row or without gradients is refused.", "quantifier": "every training data file with any number of rows and inputs, every best design", "why_tests_cant": "All files and designs; a test uses one file with gradients.", "anchors": ["src/Optimizers/globalOptimalDesign.cpp:GlobalOptimalDesign::setGradientGlobalOptimumFromTrainingData", "src/LinearAlgebra/matrix.cpp:mat::findRowIndex"]}
{"id": "C103", "title": "Special matrices are what their names say", "statement": "eye() makes a square matrix the identity, a random positive definite matrix is symmetric and positive definite, a random symmetric matrix is symmetric, a random correlation matrix is symmetric with ones on the diagonal and entries in (0,1]; filling reaches every entry and random values stay in the requested interval; isSymmetric and isEqual are exact; wrong shapes are rejected.", "quantifier": "every matrix size, every previous content, every sequence of random draws", "why_tests_cant": "All sizes, contents and draws; tests use small zero-initialised matrices and one draw.", "anchors": ["src/LinearAlgebra/matrix.cpp:mat::eye", "src/LinearAlgebra/matrix.cpp:mat::fillRandom", "src/LinearAlgebra/matrix.cpp:mat::isSymmetric", "src/LinearAlgebra/matrix.cpp:mat::isEqual", "src/LinearAlgebra/matrix.cpp:mat::generateRandomPositiveDefinite", "src/LinearAlgebra/matrix.cpp:mat::generateRandomSymmetric", "src/LinearAlgebra/matrix.cpp:mat::generateRandomCorrelationMatrix"]}
{"id": "C104", "title": "Vector functions compute what they are named after", "statement": "norm gives the L1, L2 or maximum norm; unitVector gives a vector of the same direction with norm one and refuses exactly the zero vector; minimum and maximum bound all entries and the index is the first where they occur; the mean lies between them; the standard deviation is zero exactly for constant vectors; sort gives an ordered permutation and is_sorted decides; the tests with a tolerance are exact; a random direction of differentiation has length one.", "quantifier": "every vector of every length, every tolerance, every random draw", "why_tests_cant": "All lengths and values, including empty, constant and negative vectors.", "anchors": ["src/LinearAlgebra/vector.cpp:vec::norm", "src/LinearAlgebra/vector.cpp:vec::unitVector", "src/LinearAlgebra/vector.cpp:vec::findMax", "src/LinearAlgebra/vector.cpp:vec::standardDeviation", "src/LinearAlgebra/vector.cpp:vec::sort", "src/LinearAlgebra/vector.cpp:vec::is_sorted", "src/LinearAlgebra/vector.cpp:vec::is_equal", "src/Design/design.cpp:Design::generateRandomDifferentiationDirection"]}
{"id": "C105", "title": "A gradient-based search step proposes the best downhill design of its window", "statement": "When the optimizer makes a gradient-based step, the design it proposes lies in the window around the best design, points downhill with respect to the gradient there and has the largest acquisition value of the downhill trials. The window is halved after each step, at most five steps are made in a row, and without a usable gradient the global search is made instead.", "quantifier": "every problem, gradient, best design, sequence of random draws, number of threads and schedule of the threads; every sequence of steps", "why_tests_cant": "All schedules and draws; a test runs one search and only looks at the size of the result.", "anchors": ["src/Optimizers/optimization.cpp:Optimizer::findPromisingDesignUnconstrainedGradientStep", "src/Optimizers/optimization.cpp:Optimizer::findPromisingDesignConstrainedGradientStep", "src/Optimizers/optimization.cpp:Optimizer::findTheMostPromisingDesignGradientStep", "src/Optimizers/optimization.cpp:Optimizer::decideIfNextStepWouldBeAGradientStep", "src/Optimizers/optimization.cpp:Optimizer::findTheMostPromisingDesignToBeSimulated"]}
{"id": "C106", "title": "Surrogate models do not depend on the order of the samples and the units of the parameters", "statement": "Two training data files that hold the same samples, in any order of the rows and with the parameters and their bounds in any units, give the same models: the predictions and variances at the same points, the criterion for every choice of the hyperparameters, and the outcome of a training with the same random numbers are the same.", "quantifier": "every data file and number of samples and parameters, every reordering, every change of units, every history of the models, every random draw and schedule of the threads of the training", "why_tests_cant": "Infinitely many data sets, reorderings and units; a relation between two runs.", "anchors": ["src/SurrogateModels/kriging_training.cpp:KrigingModel::interpolateWithVariance", "src/SurrogateModels/kriging_training.cpp:KrigingModel::calculateLikelihoodFunction", "src/SurrogateModels/kriging_training.cpp:KrigingModel::train", "src/SurrogateModels/linear_regression.cpp:LinearModel::interpolate", "src/SurrogateModels/surrogate_model_data.cpp:SurrogateModelData::normalizeSampleInputMatrix"]}
{"id": "C107", "title": "Surrogate models follow the units of the values", "statement": "If the values of the samples are given in other units or from another origin (a v + c instead of v), with the same hyperparameters the predictions change in the same way (a f + c), the variances by the factor a squared, and the best hyperparameters stay the same.", "quantifier": "every data file, every a other than zero and every c, every history of the models", "why_tests_cant": "Infinitely many data sets and units; a relation between two runs.", "anchors": ["src/SurrogateModels/kriging_training.cpp:KrigingModel::interpolateWithVariance", "src/SurrogateModels/kriging_training.cpp:KrigingModel::calculateLikelihoodFunction", "src/SurrogateModels/linear_regression.cpp:LinearModel::interpolate"]}
{"id": "C108", "title": "Matrices and vectors are values", "statement": "In every program that constructs, copies, moves, assigns, resizes, fills, reads and destroys matrices and vectors, each object behaves as an independent value: a copy has the value of the original at that moment, changing one object changes no other, and a call that fails leaves all objects as they were. No call touches memory it does not own, and no memory is lost.", "quantifier": "every sequence of calls on any number of objects, all sizes, and every choice of the calls that run out of memory", "why_tests_cant": "Infinitely many histories of calls, aliasings and allocation failures; a test runs one history.", "anchors": ["src/LinearAlgebra/matrix.cpp:mat::operator=", "src/LinearAlgebra/matrix.cpp:mat::resize", "src/LinearAlgebra/matrix.cpp:mat::reset", "src/LinearAlgebra/matrix.cpp:mat::readFromCSV", "src/LinearAlgebra/vector.cpp:vec::operator=", "src/LinearAlgebra/vector.cpp:vec::resize", "src/LinearAlgebra/vector.cpp:vec::push_back"]}
{"id": "C109", "title": "The choice of the next design does not depend on the units", "statement": "If the objective function and the constraints are given in other units or from another origin (a f + b instead of f, with the bounds of the constraints in the same units), the optimizer ranks all designs in the same order and, with the same random numbers, proposes the same design for the next simulation.", "quantifier": "every problem, number of constraints, all units, every model that follows the units, every sequence of random draws, number of threads and schedule of the threads", "why_tests_cant": "Infinitely many units and models; a relation between two runs.", "anchors": ["src/ObjectiveFunctions/objective_function.cpp:ObjectiveFunction::calculateExpectedImprovement", "src/Optimizers/optimization.cpp:Optimizer::findTheMostPromisingDesignEGO", "src/Optimizers/optimization_constraint_functions.cpp:Optimizer::calculateFeasibilityProbabilities", "src/Optimizers/optimization.cpp:Optimizer::maximizeAcqusitionFunctionGradientBased"]}
{"id": "C110", "title": "A second optimization begins where the first one ended", "statement": "If an optimization ends with a feasible best design, a second optimization of the same problem, started from the files the first one left behind, begins with a feasible best design of the same value.", "quantifier": "every problem with any number of constraints, every objective and constraint function, every history of the first optimization (all random draws, schedules, numbers of samples), also when a simulation or a training fails midway and the first optimization ends early", "why_tests_cant": "Needs two whole optimizations in a row and every history of the first; a test sees one pair of runs.", "anchors": ["src/Optimizers/efficient_global_optimization.cpp:Optimizer::performEfficientGlobalOptimization", "src/Optimizers/optimization.cpp:Optimizer::initializeOptimizationHistory", "src/ObjectiveFunctions/objective_function.cpp:ObjectiveFunction::addDesignToData", "src/Optimizers/optimization.cpp:Optimizer::setOptimizationHistoryConstraintsData", "src/ObjectiveFunctions/constraint_functions.cpp:ConstraintFunction::addDesignToData", "src/SurrogateModels/kriging_training.cpp:KrigingModel::addNewSampleToData", "src/LinearAlgebra/matrix.cpp:mat::saveAsCSV"]}
{"id": "C111", "title": "A model started from saved hyperparameters is the saved model", "statement": "If a trained Kriging model saves its hyperparameters and another model of the same data file is trained with the warm start flag set, the second model makes the same predictions and the same variances as the first one, whatever the random numbers and the threads. The file is not changed by reading it; training without warm start and with the write flag leaves exactly the hyperparameters of the trained model in the file; a missing or unreadable file is reported and changes nothing; a file with another number of entries leaves the hyperparameters as they are.", "quantifier": "all data files, boxes, histories of the two models, hyperparameters, random numbers, thread schedules and files with saved hyperparameters", "why_tests_cant": "A test compares one pair of models; the claim is about every model that training can produce, and fails only for hyperparameters with more digits than are written.", "anchors": ["src/SurrogateModels/kriging_training.cpp:KrigingModel::saveHyperParameters", "src/SurrogateModels/kriging_training.cpp:KrigingModel::loadHyperParameters", "src/SurrogateModels/kriging_training.cpp:KrigingModel::train", "src/SurrogateModels/surrogate_model.cpp:SurrogateModel::setReadWarmStartFileFlag", "src/SurrogateModels/surrogate_model.cpp:SurrogateModel::setWriteWarmStartFileFlag"]}
{"id": "C112", "title": "Rounding errors do not push a proposed design out of the box", "statement": "With the arithmetic of doubles (every operation rounded to the nearest double), each design that the optimizer proposes for simulation lies between the lower and upper bounds of the parameters, and its discrete parameters are values of their grid.", "quantifier": "every box and every set of discrete parameters given in doubles, every surrogate model (as a function with double values), best design, trust region, sequence of random draws, number of threads and schedule", "why_tests_cant": "The violation is in the last digits and only for some bounds; a test with round numbers as bounds does not meet it.", "anchors": ["src/Optimizers/optimization.cpp:Optimizer::findTheMostPromisingDesignEGO", "src/Optimizers/optimization.cpp:Optimizer::maximizeAcqusitionFunctionGradientBased", "src/Design/design_bo.cpp", "src/LinearAlgebra/vector.cpp:vec::fillRandom", "src/LinearAlgebra/vector.cpp:vec::normalizeVector", "src/LinearAlgebra/vector.cpp:vec::denormalizeVector", "src/Optimizers/optimization.cpp:Optimizer::roundDiscreteParameters"]}
{"id": "C113", "title": "A discrete parameter can take every value of its grid", "statement": "If the upper bound of a discrete parameter is the lower bound plus a whole number m of increments, all written as decimal numbers, the parameter can take m + 1 values: lower bound + k increments for k = 0 to m, up to the last digits of a double. The upper bound is one of them.", "quantifier": "all decimal bounds and increments, read into doubles", "why_tests_cant": "Depends on the rounding of the three numbers to doubles; 0 to 0.5 in steps of 0.1 is right, 0 to 0.3 is not.", "anchors": ["src/Optimizers/optimization.cpp:Optimizer::generateDiscreteValues", "src/Optimizers/optimization.cpp:Optimizer::roundDiscreteParameters", "src/Optimizers/optimization.cpp:Optimizer::findClosestDiscreteValue"]}
{"id": "C114", "title": "Normalizing and denormalizing a design gives it back", "statement": "With the arithmetic of doubles, a design of the box that is normalized (as every sample and candidate is before a surrogate model sees it) and denormalized again (as the proposed design is before it is simulated) is the same design; normalized values lie between 0 and 1/n.", "quantifier": "every number of parameters, all boxes given in doubles, all designs of the box", "why_tests_cant": "The difference is in the last digits and depends on the bounds; the unit tests compare with a tolerance and round bounds.", "anchors": ["src/LinearAlgebra/vector.cpp:vec::normalizeVector", "src/LinearAlgebra/vector.cpp:vec::denormalizeVector"]}
{"id": "C115", "title": "Sums, means and products of vectors and matrices are accurate in doubles", "statement": "With the arithmetic of doubles, the dot product of two vectors, each entry of a matrix-vector product and the mean of a vector differ from the exact values by at most (n+1) 2^-52 of the sum of the absolute terms, plus a few units of the smallest positive double, and are computed without overflow if the terms are not huge. Vectors of different lengths and the mean of no numbers are refused.", "quantifier": "all lengths below 2^32, all vectors and matrices of doubles with sums of absolute terms up to 2^1000", "why_tests_cant": "The error depends on all digits of all entries; a test compares single cases with a tolerance.", "anchors": ["src/LinearAlgebra/vector.cpp:vec::dot", "src/LinearAlgebra/vector.cpp:vec::mean", "src/LinearAlgebra/matrix.cpp:mat::matVecProduct"]}
{"id": "C116", "title": "The Cholesky solver solves every positive definite system in doubles", "statement": "With the arithmetic of doubles, every symmetric positive definite matrix of doubles of moderate size is factorized, every right-hand side is solved, and the result satisfies the system up to the rounding errors.", "quantifier": "all sizes up to 2^32, all symmetric positive definite matrices of doubles, all right-hand sides", "why_tests_cant": "Needs a rounding error analysis over all matrices; matrices close to singular ones, which Kriging with close samples produces, are not in the tests.", "anchors": ["src/LinearAlgebra/matrix.cpp:mat::cholesky", "src/LinearAlgebra/matrix.cpp:mat::choleskyNaive", "src/LinearAlgebra/matrix.cpp:mat::solveCholesky", "src/LinearAlgebra/matrix.cpp:mat::solveCholeskyNaive", "src/LinearAlgebra/linear_solver.cpp:CholeskySystem::factorize", "src/LinearAlgebra/linear_solver.cpp:CholeskySystem::solveLinearSystem"]}
{"id": "C117", "title": "Copies of objective and constraint functions are independent", "statement": "An objective or constraint function that has been copied or assigned answers every call with its own surrogate model: a sample given to the copy does not reach the original, and the copy goes on working after the original is gone.", "quantifier": "all programs that create, copy, assign, edit, connect, initialize, use and destroy objective functions in any order; all behaviours of the surrogate model", "why_tests_cant": "The order of copying, connecting and destroying is unbounded, and a dangling pointer often seems to work in a test.", "anchors": ["src/ObjectiveFunctions/INCLUDE/objective_function.hpp:ObjectiveFunction", "src/ObjectiveFunctions/objective_function.cpp:ObjectiveFunction::bindSurrogateModel", "src/ObjectiveFunctions/objective_function.cpp:ObjectiveFunction::initializeSurrogate", "src/Optimizers/optimization.cpp:Optimizer::addObjectFunction", "src/Optimizers/optimization_constraint_functions.cpp:Optimizer::addConstraint"]}
{"id": "C118", "title": "The parallel loops have no data races", "statement": "With several threads, the search for the next design, its gradient-based variant and the training of the surrogate model never access a variable from two threads at once with one of them writing, outside of a critical section; so their results do not depend on undefined behaviour.", "quantifier": "all numbers of threads, all distributions of the work, all candidates, all schedules", "why_tests_cant": "A race shows up in few of the astronomically many interleavings and often goes unnoticed even then; a test sees one schedule.", "anchors": ["src/Optimizers/optimization.cpp:Optimizer::searchCompleteDesignSpace", "src/Optimizers/optimization.cpp:Optimizer::searchAroundGlobalOptima", "src/Optimizers/optimization.cpp:Optimizer::findPromisingDesignUnconstrainedGradientStep", "src/Optimizers/optimization.cpp:Optimizer::findPromisingDesignConstrainedGradientStep", "src/SurrogateModels/kriging_training.cpp", "src/InternalOptimizers/INCLUDE/ea_population.hpp:EAPopulation::gen"]}
{"id": "C119", "title": "Every Kriging model can be fitted in doubles", "statement": "With the arithmetic of doubles and a C library whose exp and pow are accurate to one unit in the last place, the correlation matrix is the exact one up to rounding errors, and for all samples (also repeated or nearly repeated ones) and all allowed hyper-parameters it is factorized and the mean, the weights and the variance of the model are computed without an infinite or undefined value.", "quantifier": "all numbers of samples and variables, all samples, outputs and hyper-parameters in doubles, all libraries with this accuracy", "why_tests_cant": "Close samples make the matrix almost singular; whether the factorization survives depends on the rounding of every operation.", "anchors": ["src/SurrogateModels/kriging_training.cpp:KrigingModel::updateAuxilliaryFields", "src/CorrelationFunctions/exponential_correlation_function.cpp:ExponentialCorrelationFunction::computeCorrelationMatrix", "src/LinearAlgebra/matrix.cpp:mat::computeCorrelationMatrixExponential", "src/LinearAlgebra/vector.cpp:vec::computeExponentialCorrelation"]}
{"id": "C120", "title": "In doubles the prediction at a training sample is the training output up to a known error", "statement": "With the arithmetic of doubles, the Kriging prediction at a training sample differs from the training output by at most the number on the diagonal times the weight of the sample, plus rounding errors in proportion to the sum of the absolute weights; where the model can be fitted, the prediction is finite at every point.", "quantifier": "all numbers of samples and variables, all samples, outputs and hyper-parameters in doubles for which the fit returns, all training samples", "why_tests_cant": "The error depends on the weights, which grow without bound as samples come close; tests look at a few well separated samples.", "anchors": ["src/SurrogateModels/kriging_training.cpp:KrigingModel::interpolate", "src/SurrogateModels/kriging_training.cpp:KrigingModel::updateAuxilliaryFields", "src/CorrelationFunctions/exponential_correlation_function.cpp:ExponentialCorrelationFunction::computeCorrelationVector"]}
{"id": "C121", "title": "A design is added to the training data in every mode that can be chosen", "statement": "Whatever data add mode is set, adding a simulated design to the training data of an objective function returns and leaves a row with the parameters and the value of the design in the training data file, also when two fidelities are switched on.", "quantifier": "all histories of the model, all designs, all modes, one and two fidelities", "why_tests_cant": "Modes, fidelities and histories combine; a lost design shows only as a worse optimum.", "anchors": ["src/ObjectiveFunctions/objective_function.cpp:ObjectiveFunction::addDesignToData", "src/ObjectiveFunctions/objective_function.cpp:ObjectiveFunction::setDataAddMode", "src/SurrogateModels/kriging_training.cpp:KrigingModel::addNewSampleToData", "src/SurrogateModels/kriging_training.cpp:KrigingModel::addNewLowFidelitySampleToData"]}
{"id": "C122", "title": "Builds with and without OpenBLAS give the same results", "statement": "Scalar products, matrix products, correlations, correlation matrices, Cholesky and LU factorizations, inverses and solutions of linear systems are the same whether the program is built with OpenBLAS or with its own loops, errors included.", "quantifier": "all vectors and matrices of all sizes, every library that does what the documentation of BLAS and LAPACK says, exact arithmetic", "why_tests_cant": "A test runs one build; the two variants are separate code with separate checks, and differ only for unusual inputs.", "anchors": ["src/LinearAlgebra/vector.cpp:vec::dot", "src/LinearAlgebra/matrix.cpp:mat::matVecProduct", "src/LinearAlgebra/matrix.cpp:mat::matmatProduct", "src/LinearAlgebra/matrix.cpp:mat::cholesky", "src/LinearAlgebra/matrix.cpp:mat::lu", "src/LinearAlgebra/matrix.cpp:mat::invert"]}
{"id": "C123", "title": "With OpenBLAS, linear systems are solved exactly when they are solvable", "statement": "In a build with OpenBLAS the Cholesky factorization reports success exactly for the positive definite matrices, the LU factorization, the inverse and solve succeed exactly for the nonsingular matrices, every right-hand side of matching length is then solved, and matrices that are not square and vectors of the wrong length are refused.", "quantifier": "all sizes, all matrices and right-hand sides, every library that does what the documentation of LAPACK says, exact arithmetic", "why_tests_cant": "A wrong leading dimension, a swapped triangle or an ignored return code shows only for some sizes and some matrices.", "anchors": ["src/LinearAlgebra/matrix.cpp:mat::choleskyBlas", "src/LinearAlgebra/matrix.cpp:mat::solveCholeskyBlas", "src/LinearAlgebra/matrix.cpp:mat::lu", "src/LinearAlgebra/matrix.cpp:mat::solveLU", "src/LinearAlgebra/matrix.cpp:mat::invert", "src/LinearAlgebra/matrix.cpp:mat::solve", "src/LinearAlgebra/linear_solver.cpp"]}
{"id": "C124", "title": "Surrogate models do not depend on OpenBLAS", "statement": "A Kriging model with a nugget that is loaded from a training data file is the same object in both builds, its estimates and variances are the same at every point, the likelihood the training maximizes is the same, and the weights of the linear regression are the ridge regression in both.", "quantifier": "all files, dimensions, samples, hyper-parameters in the search box and points; every library that does what the documentation of BLAS and LAPACK says; exact arithmetic", "why_tests_cant": "Equality has to hold for all training data; a test compares one build with stored numbers.", "anchors": ["src/SurrogateModels/kriging_training.cpp:KrigingModel::initializeSurrogateModel", "src/SurrogateModels/kriging_training.cpp:KrigingModel::updateAuxilliaryFields", "src/SurrogateModels/kriging_training.cpp:KrigingModel::calculateLikelihoodFunction", "src/SurrogateModels/linear_regression.cpp:LinearModel::train"]}
{"id": "C125", "title": "In double arithmetic every prediction of a Kriging model has a standard deviation that is a number", "statement": "If the number on the diagonal of the correlation matrix is above the rounding errors (the default is, for at most 45 samples of at most 45 variables), fitting succeeds, the variance computed at any point is finite and not negative, and the standard deviation is its rounded root, so that no prediction is NaN.", "quantifier": "all sample sets including duplicates, all parameters in their ranges, all outputs that are 0 or not tiny, all points, every C library with errors below one unit in the last place", "why_tests_cant": "The variance is a difference of numbers near each other divided by pivots near 0: it is negative by rounding for particular samples and points only.", "anchors": ["src/SurrogateModels/kriging_training.cpp:KrigingModel::interpolateWithVariance", "src/SurrogateModels/kriging_training.cpp:KrigingModel::updateAuxilliaryFields", "src/ObjectiveFunctions/objective_function.cpp:ObjectiveFunction::interpolateWithVariance"]}
{"id": "C126", "title": "In double arithmetic the acquisition value of every candidate is a number and is the expected improvement up to rounding", "statement": "For every minimum, estimate and deviation in range the expected improvement is computed as a finite number; it is 0 if the deviation is at most 1e-13, and otherwise its error is at most 2^-48 times the size of the improvement plus the deviation. The computed feasibility probabilities are in [0, 1] with an error of at most 2^-48, and multiplying by them keeps the sign and does not enlarge the value. For a Kriging model whose diagonal number is above the rounding errors this holds at every point. The value can be slightly negative.", "quantifier": "all finite doubles up to 2^300 as minimum, estimate and deviation, all bounds, all sample sets, parameters and points of a Kriging model, every C library with errors below one unit in the last place", "why_tests_cant": "The error depends on the cancellation between the two terms and on the rounding of erf, exp and the quotient at the particular numbers; NaN and infinity appear at isolated numbers only.", "anchors": ["src/ObjectiveFunctions/objective_function.cpp:ObjectiveFunction::calculateExpectedImprovement", "src/ObjectiveFunctions/objective_function.cpp:ObjectiveFunction::cdf", "src/ObjectiveFunctions/objective_function.cpp:ObjectiveFunction::pdf", "src/Design/design_bo.cpp:DesignForBayesianOptimization::updateAcqusitionFunctionAccordingToConstraints"]}
{"id": "C127", "title": "In double arithmetic every likelihood that the training compares is a number and is the likelihood up to rounding", "statement": "If the number on the diagonal of the correlation matrix is above the rounding errors and no output is tiny, the likelihood of every parameter vector is a finite double and the training minimizes its exact negative. If two outputs differ, the estimated variance is positive and the value differs from the likelihood of the exact correlation matrix with this variance by at most n(n+6)/2^44 plus n/2 times the relative error of the pivots; if the variance is 0, all outputs are equal and the value is the lowest double. Without a number on the diagonal, two equal samples make the value NaN or infinite.", "quantifier": "all sample sets, outputs and parameters of a Kriging model below 2^32 samples and variables, both estimates of the mean, every C library with errors below one unit in the last place", "why_tests_cant": "Whether a pivot underflows, turns negative or makes the logarithm inaccurate depends on the rounding errors of the whole factorization for the particular samples.", "anchors": ["src/SurrogateModels/kriging_training.cpp:KrigingModel::calculateLikelihoodFunction", "src/LinearAlgebra/linear_solver.cpp:CholeskySystem::calculateLogDeterminant", "src/SurrogateModels/kriging_training.cpp:KrigingHyperParameterOptimizer::calculateObjectiveFunctionInternal"]}
{"id": "C128", "title": "In double arithmetic the estimate at every point is the best linear unbiased prediction up to rounding", "statement": "For every fitted Kriging model and every point, a finite estimate in double arithmetic differs from the best linear unbiased prediction for the exact correlations by at most (1 + sqrt(3n/epsilon)) times an explicit rounding error of the equations plus five times the sum of the weights. With the generalized least squares mean this sum is 0 up to an explicit rounding error, and the model and all its estimates exist. With the average as mean, the mean is the average up to rounding and the estimate is the exact prediction with this mean up to (1 + sqrt(n/epsilon)) times the rounding error.", "quantifier": "all sample sets, outputs and parameters of a Kriging model below 2^32 samples and variables, all points, both estimates of the mean, every C library with errors below one unit in the last place", "why_tests_cant": "The effect of the rounding errors on the prediction depends on the conditioning of the correlation matrix for the particular samples, and the exact prediction cannot be computed by a test in doubles.", "anchors": ["src/SurrogateModels/kriging_training.cpp:KrigingModel::interpolate", "src/SurrogateModels/kriging_training.cpp:KrigingModel::updateAuxilliaryFields", "src/LinearAlgebra/linear_solver.cpp:CholeskySystem::solveLinearSystem"]}
{"id": "C129", "title": "In double arithmetic the roulette selections of the evolutionary algorithm pick every individual with its probability, up to rounding", "statement": "After updatePopulationProperties() in double arithmetic, on a population whose objective values are of moderate size and not all equal, every individual has probabilities that are numbers in range and proportional to the fitness (reproduction) and to its reciprocal below the 90 percent threshold (death) up to rounding; every draw of the generator in [0,1) selects a member, the one whose sector of the wheel the draw hits up to rounding; and an individual clearly fitter than all others is never selected to die.", "quantifier": "all populations of at most 2^30 individuals and all draws in [0,1)", "why_tests_cant": "Whether the rounded probabilities add up to one, and whether the rounded threshold falls below the least fitness, depends on the particular values; the failing draw has probability 2^-53.", "anchors": ["src/InternalOptimizers/ea_population.cpp:EAPopulation::updatePopulationProperties", "src/InternalOptimizers/ea_population.cpp:EAPopulation::updateDeathProbabilities", "src/InternalOptimizers/ea_population.cpp:EAPopulation::pickUpARandomIndividualForReproduction", "src/InternalOptimizers/ea_population.cpp:EAPopulation::pickUpAnIndividualThatWillDie", "src/LinearAlgebra/vector.cpp:vec::quantile"]}
{"id": "C130", "title": "The LU solver and the matrix inverse are accurate in double arithmetic", "statement": "For every square matrix of doubles: when the LU factorization returns factors, the pivots are a permutation of the rows, the multipliers are at most 1 in absolute value, every diagonal entry of the upper factor is at least 1e-9, row i of the upper factor is at most 2^i times the largest entry of the matrix, and the product of the factors is the permuted matrix up to n/2^52 times the product of the absolute values of the factors. Every solution it then returns leaves a residual of at most n/2^50 times the absolute values of the factors times the solution, and an inverse that is returned is a right inverse up to the same relative error. The factorization reports failure only when a matrix within the rounding errors maps a vector with an entry 1 to a vector below 1e-9, and it never meets an infinite intermediate value when 2^n times the largest entry is below 2^1023.", "quantifier": "all square matrices of doubles of size at most 2^32, all right-hand sides of doubles", "why_tests_cant": "The rounding errors accumulate along every elimination order and every size; tests compare a few small matrices with a tolerance.", "anchors": ["src/LinearAlgebra/matrix.cpp:mat::lu", "src/LinearAlgebra/matrix.cpp:mat::lu_decomposition", "src/LinearAlgebra/matrix.cpp:mat::solveLU", "src/LinearAlgebra/matrix.cpp:mat::forward_substitution", "src/LinearAlgebra/matrix.cpp:mat::backward_substitution", "src/LinearAlgebra/matrix.cpp:mat::invert"]}
{"id": "C131", "title": "In double arithmetic the initial samples are stratified and in the box, up to rounding", "statement": "For every box of doubles, every number of samples, every draw of the generator and every shuffle: Latin hypercube sampling yields for each parameter one sample for each of the n equal parts of its range; the sample lies in its part, different parts have different samples, the samples are ordered as the parts are, and all lie within the bounds. Random sampling yields samples within the bounds. Neither meets an infinite intermediate value.", "quantifier": "all boxes of doubles, sample sizes below 2^32, draws of doubles in [0,1) and shuffles", "why_tests_cant": "The rounding of the cut points and of the draws depends on the bounds, on the number of samples and on the random numbers; a sample leaves the box only for rare draws.", "anchors": ["src/LinearAlgebra/matrix.cpp:mat::fillRandomLHS", "src/LinearAlgebra/matrix.cpp:mat::fillRandom", "src/API/cppAPI.cpp:generateDoESamplesInput"]}
{"id": "C132", "title": "In double arithmetic, training the linear regression model finds the best fit up to rounding", "statement": "For every data set normalized to the box: the weights that training returns satisfy the normal equations of the regularized least squares problem up to an explicit rounding error, so their regularized error is near the least possible and the weights are near the minimizer. When the regularization exceeds the rounding errors, as the value used does for up to 6 parameters and 400 samples, training succeeds, and the error depends on the sizes, the regularization and the outputs only. A prediction is the affine function of the weights up to rounding. Training with the regularization used succeeds for every finite data set.", "quantifier": "all data sets of doubles, all regularizations and all points", "why_tests_cant": "Whether a matrix of rounded sums of products is still invertible, and how far the solution is from the best fit, depends on all the data at once.", "anchors": ["src/SurrogateModels/linear_regression.cpp:LinearModel::train", "src/SurrogateModels/linear_regression.cpp:LinearModel::interpolate", "src/LinearAlgebra/matrix.cpp:mat::matMatProduct", "src/LinearAlgebra/matrix.cpp:mat::matVecProduct", "src/LinearAlgebra/matrix.cpp:mat::invert"]}
{"id": "C133", "title": "In double arithmetic, finite differences give slopes of the function and the line search ends", "statement": "For every function whose values are doubles: with central differences the optimizer evaluates the function twice per coordinate, leaves the point as it was, and each entry of the gradient is the slope between the two different points evaluated, with relative error 1/(2^53 e) for a relative step e; if the values are those of a differentiable function up to d, it is a derivative nearby, up to this error and 2 d/(e |x|). A line search that returns does so within 2100 evaluations, at a point with a smaller value that is the current point minus the gradient times a step size, up to rounding. Where the gradient is not below the tolerance, the line search returns.", "quantifier": "all functions, points of doubles with coordinates of at least 2^-900 in absolute value, relative steps and step sizes", "why_tests_cant": "Cancellation in the differences depends on the function and the point; whether halving the step ends depends on whether any double on the way is better.", "anchors": ["src/InternalOptimizers/gradient_optimizer.cpp:GradientOptimizer::calculateCentralFiniteDifferences", "src/InternalOptimizers/gradient_optimizer.cpp:GradientOptimizer::performBacktrackingLineSearch", "src/InternalOptimizers/gradient_optimizer.cpp:GradientOptimizer::evaluateGradientFunction", "src/InternalOptimizers/gradient_optimizer.cpp:GradientOptimizer::optimize", "src/InternalOptimizers/gradient_optimizer.cpp:GradientOptimizer::setEpsilonForFiniteDifference"]}
{"id": "C134", "title": "In double arithmetic the trust region does not drift and its window is never empty", "statement": "For every dimension below 2^32 and every sequence of improvements and failures, the computed trust region length and its two limits are the exact ones correctly rounded, and the counters are the exact ones. Around every incumbent between 0 and the computed 1/dim the search window is computed without error, lies between 0 and the computed 1/dim, contains the incumbent, reaches at most 1.01 length/dim to either side and is at least 0.99 length/dim wide in every coordinate; the same holds for the window of a gradient based step. Every window contains the incumbent it was built around.", "quantifier": "all dimensions below 2^32, all sequences of outcomes, all incumbents, all admissible factors", "why_tests_cant": "Rounding and clipping repeat over unboundedly many iterations, and whether the incumbent stays inside its window depends on how its coordinates were rounded.", "anchors": ["src/Optimizers/optimization.cpp:initializeOptimizerSettings", "src/Optimizers/optimization.cpp:defineTrustRegion", "src/Optimizers/optimization.cpp:changeSettingsForAGradientBasedStep", "src/Optimizers/efficient_global_optimization.cpp:trLength"]}
{"id": "C135", "title": "An evolutionary run in double arithmetic stays in its box and its budget and reports what it evaluated", "statement": "With every operation on genes, fitness values and probabilities rounded, and overflow allowed to end the run, every design the evolutionary optimizer evaluates, keeps or records lies exactly in the box; the objective is never called outside of it, not even in a run that fails; a completed run makes the number of evaluations fixed by its settings; the reported design and value belong together exactly, and the value is the smallest of the final population unless the solution has the ID shared by the last initial individual and the first child.", "quantifier": "all objectives, boxes of doubles, settings and draws, including arbitrary normal draws, and all numbers of generations", "why_tests_cant": "Rounded random points can leave an interval, and the chain of roundings, selections and clampings is repeated over unboundedly many generations.", "anchors": ["src/InternalOptimizers/ea_optimizer.cpp:optimize", "src/InternalOptimizers/ea_optimizer.cpp:crossOver", "src/InternalOptimizers/ea_optimizer.cpp:generateRandomIndividual", "src/InternalOptimizers/ea_optimizer.cpp:generateANewGeneration"]}
{"id": "C136", "title": "In double arithmetic the gene of a child is the mean of its parents plus a sixth of their distance times the normal draw, up to rounding", "statement": "For different genes xs and xe of the parents, at most 2^1000, and a standard normal number z of at most 1024, the gene drawn before mutation and clamping is computed without error and differs from (xs + xe)/2 + z |xe - xs|/6 by at most 5/2^53 of the sum of the sizes of the two terms plus denormal underflow. For equal genes it is the common gene plus z, up to the same rounding.", "quantifier": "all pairs of genes and all normal draws", "why_tests_cant": "The standard deviation is the result of a rounded division that can underflow for genes close to each other.", "anchors": ["src/InternalOptimizers/ea_optimizer.cpp:generateRandomDoubleFromNormalDist", "src/InternalOptimizers/ea_optimizer.cpp:crossOver"]}
{"id": "C137", "title": "The genes of a child are mutated or drawn around the mean of its parents, and then clamped", "statement": "When the evolutionary optimizer creates a child, gene i is replaced by the point of its interval given by the random vector exactly if mutation draw i is below the mutation probability; otherwise it is the mean of the two parents' genes plus normal draw i times a sixth of their distance, or times one if the genes are equal; in both cases it is then moved to the nearest point of the interval. So without mutation and with a draw of at most three standard deviations it lies between different genes of the parents, while for equal genes it moves by the draw itself, whatever the size of the box. In double arithmetic the same holds up to rounding for genes that are equal or at least 2^-1000 apart.", "quantifier": "all parents, boxes, settings and draws", "why_tests_cant": "Which draw is used for which gene, and what clamping does to it, has to be right for every gene, dimension and stream of random numbers; tests with random seeds only see samples.", "anchors": ["src/InternalOptimizers/ea_optimizer.cpp:crossOver", "src/InternalOptimizers/ea_optimizer.cpp:applyMutation", "src/InternalOptimizers/ea_optimizer.cpp:generateRandomDoubleFromNormalDist", "src/InternalOptimizers/ea_optimizer.cpp:generateIndividualByReproduction"]}
{"id": "C138", "title": "In double arithmetic the crowding factor is the mean distance of the recent designs, up to rounding", "statement": "For designs whose parameters are doubles of size at most 2^500, and up to 65536 initial samples, calculateCrowdingFactor does not overflow; the value is a nonnegative double that differs from the mean pairwise L1 distance of the most recent designs by at most a relative error of (dimension + number of pairs + 2)/2^52 and half the least positive double; it is zero if these designs are all the same, and positive if their mean distance is at least 2^-1073.", "quantifier": "all histories with at least as many designs as initial samples, up to 65536 of these, all dimensions and all such designs", "why_tests_cant": "The rounding errors of a sum over all pairs grow with the number of designs and depend on their order and size; no finite number of test histories bounds them.", "anchors": ["src/Optimizers/optimization_history.cpp:OptimizationHistory::calculateCrowdingFactor", "src/LinearAlgebra/vector.cpp:vec::norm"]}
{"id": "C139", "title": "In double arithmetic the exploration factor stays within its limits and is accurate", "statement": "With rounding, underflow and overflow, adjustSigmaFactor leaves the sigma factor a number between its minimum and maximum unless the crowding coefficient and the crowding factor are both zero; for a positive crowding factor and the limits 1 and 100 it is the exact product of multiplier, quotient and random increase, limited to 1 and 100, up to 2^-40, for all multipliers up to 2^900; these include all that arise in 31500 iterations without a reset. If the crowding factor is zero and the coefficient positive it is 100.", "quantifier": "all nonnegative coefficients, crowding factors, multipliers and random draws", "why_tests_cant": "Quotients of distances can underflow or overflow; what the comparisons with the limits do with such values has to hold for every pair of doubles.", "anchors": ["src/Optimizers/optimization.cpp:Optimizer::adjustSigmaFactor", "src/Optimizers/efficient_global_optimization.cpp:sigmaMultiplier"]}
{"id": "C140", "title": "The validation data are the share of the samples the user asked for", "statement": "With validation ratio q between 0 and 1 and N samples, the number of samples kept for validation is q times N, rounded down, when the data are read by the compiled program (in double arithmetic).", "quantifier": "all ratios between 0 and 1 and all numbers of samples below 2^31", "why_tests_cant": "Whether a product of a rounded ratio and a whole number falls just below a whole number cannot be told from a few ratios and sizes.", "anchors": ["src/SurrogateModels/surrogate_model_data.cpp:SurrogateModelData::generateRandomIndicesForValidationData"]}
{"id": "C141", "title": "In double arithmetic improvement values tell every better design from every worse one", "statement": "In double arithmetic, too, the improvement value of a design is 0 if it is infeasible, never negative, positive exactly when the design is feasible and strictly better than the best feasible initial sample (or is the first feasible design found), and accurate up to rounding; of two designs better than this reference the one with the smaller objective value has the larger improvement value.", "quantifier": "all histories and all sequences of designs whose feasible objective values are doubles of size at most 2^1022", "why_tests_cant": "A difference of doubles loses digits only for particular pairs of values; every history and every sequence of values matters.", "anchors": ["src/Optimizers/optimization.cpp:Optimizer::calculateImprovementValue", "src/Optimizers/efficient_global_optimization.cpp:Optimizer::performEfficientGlobalOptimizationOnlyWithFunctionalValues", "src/Optimizers/optimization_history.cpp:OptimizationHistory::calculateInitialImprovementValue"]}
