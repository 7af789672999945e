{
 "claims": [
  {
   "property": "C01",
   "status": "partial",
   "theorems": [
    "Rodeo.C01_partial",
    "Rodeo.C01_step_iff",
    "Rodeo.C01_constructed",
    "Rodeo.C01_false",
    "Rodeo.C01_false_setDimension",
    "Rodeo.C01_false_ub",
    "Rodeo.C01_false_constructor"
   ],
   "note": "The full property is false of the code (rejected setBounds, setDimension on a set object, surplus or missing upper bounds). C01_partial proves it for all histories of harmless calls; C01_step_iff shows the restriction is exact."
  },
  {
   "property": "C02",
   "status": "proved",
   "theorems": [
    "Rodeo.C02_isPointWithinBounds"
   ],
   "note": ""
  },
  {
   "property": "C03",
   "status": "proved",
   "theorems": [
    "Rodeo.C03_random_in_bounds"
   ],
   "note": "uniform_real_distribution modelled as a+u(b-a) with 0<=u<1, no rounding"
  },
  {
   "property": "C04",
   "status": "partial",
   "theorems": [
    "Rodeo.C04_partial",
    "Rodeo.C04_false",
    "Rodeo.C04_false_std"
   ],
   "note": "False for the scalar and std::vector overloads (counterexamples); the vec overload is characterised exactly."
  },
  {
   "property": "C05",
   "status": "proved",
   "theorems": [
    "Rodeo.C05_normalize_roundtrip",
    "Rodeo.C05_variants_agree"
   ],
   "note": "exact arithmetic"
  },
  {
   "property": "C06",
   "status": "partial",
   "theorems": [
    "Rodeo.C06_partial",
    "Rodeo.C06_gap",
    "Rodeo.C06_false"
   ],
   "note": "False at the last entry (C06_gap shows it for every sorted vector); proved for all other values."
  },
  {
   "property": "C07",
   "status": "proved",
   "theorems": [
    "Rodeo.C07_quantile",
    "Rodeo.C07_perm",
    "Rodeo.C07_extremes",
    "Rodeo.C07_monotone",
    "Rodeo.C07_rejects"
   ],
   "note": ""
  },
  {
   "property": "C08",
   "status": "proved",
   "theorems": [
    "Rodeo.C08_appendVector",
    "Rodeo.C08_head_tail_push",
    "Rodeo.C08_copyVector"
   ],
   "note": ""
  },
  {
   "property": "C09",
   "status": "partial",
   "theorems": [
    "Rodeo.C09_partial",
    "Rodeo.C09_false",
    "Rodeo.C09_always_violated"
   ],
   "note": "False: the first child reuses the ID N of the last initial individual. Proved: every other ID is unique at every point, N occurs at most twice."
  },
  {
   "property": "C10",
   "status": "partial",
   "theorems": [
    "Rodeo.C10_partial",
    "Rodeo.C10_false"
   ],
   "note": "False when the best individual has the doubly used ID. Proved: otherwise the solution is a best member, and its value is the objective value of its design."
  },
  {
   "property": "C100",
   "status": "partial",
   "theorems": [
    "Rodeo.C100_partial",
    "Rodeo.C100_constant",
    "Rodeo.C100_false"
   ],
   "note": "False in full: a search on a constant positive objective always fails, because the fitness cannot be scaled (C100_constant, C100_false). C100_partial: for objectives with values of at most -1e-4 everywhere in the box the search completes for every fair sequence of draws, and for any sequence of draws the only obstacle is the endless selection of a second parent."
  },
  {
   "property": "C101",
   "status": "partial",
   "theorems": [
    "Rodeo.C101_criterion",
    "Rodeo.C101_partial",
    "Rodeo.C101_small",
    "Rodeo.C101_constant",
    "Rodeo.C101_false"
   ],
   "note": "False in full: if all samples have the same value (after subtraction of the trend) every call of train fails (C101_constant, C101_false), because the search cannot scale a constant criterion. C101_criterion: the criterion is the negative log likelihood with the estimated process variance. C101_partial: training returns for every fair sequence of draws and every schedule if the criterion is at most -1e-4 for all hyperparameters; C101_small: this is so if the values differ and their mean square deviation is smaller than the nugget."
  },
  {
   "property": "C102",
   "status": "partial",
   "theorems": [
    "Rodeo.C102_partial",
    "Rodeo.C102_values",
    "Rodeo.C102_only_gradient",
    "Rodeo.C102_false"
   ],
   "note": "False in full: for one parameter and training data with values only, the value of the sample is taken as the gradient (C102_false). Proved: with gradients in the file the optimum gets the gradient of the first row whose parameters agree up to 1e-5 in every entry and the call throws if there is none (C102_partial); a file without gradients is refused for two or more parameters (C102_values); nothing but the gradient changes (C102_only_gradient)."
  },
  {
   "property": "C103",
   "status": "partial",
   "theorems": [
    "Rodeo.C103_false",
    "Rodeo.C103_false_definite",
    "Rodeo.C103_partial",
    "Rodeo.C103_eye",
    "Rodeo.C103_gram",
    "Rodeo.C103_symmetric",
    "Rodeo.C103_correlation",
    "Rodeo.C103_fill",
    "Rodeo.C103_isSymmetric",
    "Rodeo.C103_isEqual",
    "Rodeo.C103_rejected"
   ],
   "note": "False in full: eye() only writes the diagonal, so a matrix with other entries does not become the identity (C103_false), and equal draws give a singular matrix (C103_false_definite). Proved: eye() gives the identity exactly if the entries off the diagonal were zero; the matrix called positive definite is always symmetric and semidefinite, and definite exactly for draws with independent rows; all other parts in full."
  },
  {
   "property": "C104",
   "status": "proved",
   "theorems": [
    "Rodeo.C104_norm",
    "Rodeo.C104_unit",
    "Rodeo.C104_direction",
    "Rodeo.C104_minmax",
    "Rodeo.C104_mean",
    "Rodeo.C104_deviation",
    "Rodeo.C104_sort",
    "Rodeo.C104_tests",
    "Rodeo.C104_arithmetic"
   ],
   "note": "Exact arithmetic with a square root function; the random direction exists for every draw except the one that hits the middle of the interval in all components, which throws."
  },
  {
   "property": "C105",
   "status": "partial",
   "theorems": [
    "Rodeo.C105_false",
    "Rodeo.C105_false_race",
    "Rodeo.C105_partial",
    "Rodeo.C105_window",
    "Rodeo.C105_none",
    "Rodeo.C105_fails",
    "Rodeo.C105_series",
    "Rodeo.C105_step",
    "Rodeo.C105_never",
    "Rodeo.C105_plain"
   ],
   "note": "False in full: if no trial is downhill (best design in a corner) the proposal is a design without parameters (or, with constraints, the lower bounds), and a second thread can overwrite the shared trial design before it is stored, so an uphill design is proposed. Proved: one thread and a downhill trial give the best downhill trial of the window; for every schedule the proposal is a trial of the window or the start design; the series of at most five halving steps; fallback to the global search. Also proved: with the surrogate models of the library no gradient-based search ever finds a design (it throws at the first downhill trial), and a run of the optimizer never makes such a step because nothing switches it on. Objectives without gradients are searched globally and locally only (C105_plain)."
  },
  {
   "property": "C106",
   "status": "proved",
   "theorems": [
    "Rodeo.C106_kriging",
    "Rodeo.C106_criterion",
    "Rodeo.C106_train",
    "Rodeo.C106_linear"
   ],
   "note": "Predictions and variances of Kriging models after any history, the likelihood criterion, the whole training and linear regression, for any reordering of the rows and any units of the parameters."
  },
  {
   "property": "C107",
   "status": "partial",
   "theorems": [
    "Rodeo.C107_false",
    "Rodeo.C107_partial",
    "Rodeo.C107_criterion",
    "Rodeo.C106_linear"
   ],
   "note": "False in full: with a linear trend a shift of the values does not carry over to the predictions, because the regression penalizes the intercept (C107_false). Proved: other units for all models, another origin for Kriging without trend, and the criterion changes by a constant."
  },
  {
   "property": "C108",
   "status": "partial",
   "theorems": [
    "Rodeo.C108_partial",
    "Rodeo.C108_released",
    "Rodeo.C108_false",
    "Rodeo.C108_size",
    "Rodeo.C108_file"
   ],
   "note": "False in full: an assignment that runs out of memory leaves an object that is released twice (C108_false), matrices of 2^32 or more elements have too little memory (C108_size), and a file with uneven rows destroys the matrix it is read into (C108_file). Proved for all other programs, with lack of memory in any other call."
  },
  {
   "property": "C109",
   "status": "partial",
   "theorems": [
    "Rodeo.C109_partial",
    "Rodeo.C109_order",
    "Rodeo.C109_search",
    "Rodeo.C109_small_units",
    "Rodeo.C109_false"
   ],
   "note": "False in full: the gradient-based improvement goes a fixed multiple of a gradient that is measured in the unit of the objective function, so the proposed design changes with the unit (C109_false). Proved: the acquisition value changes by the unit of the objective only, for all units of the constraints, including reversed inequalities, at points where the deviations are zero or above the fixed thresholds of the code (C109_partial); the order of the designs stays the same (C109_order); the random search finds the same design for every schedule (C109_search); in a unit that is too small every value is zero (C109_small_units)."
  },
  {
   "property": "C11",
   "status": "proved",
   "theorems": [
    "Rodeo.C11_in_box",
    "Rodeo.C11_points",
    "Rodeo.C11_never_called_outside"
   ],
   "note": "For every box, objective, stream and number of generations, including runs that fail."
  },
  {
   "property": "C110",
   "status": "partial",
   "theorems": [
    "Rodeo.C110_partial",
    "Rodeo.C110_initial",
    "Rodeo.C110_separate",
    "Rodeo.C110_rounding",
    "Rodeo.C110_tolerance",
    "Rodeo.C110_false"
   ],
   "note": "False in full: a sample closer than 1e-4 to a stored one is not stored, but constraint values are looked up with the tolerance 1e-8, so a feasible best design can count as infeasible in the second optimization, which then begins without a feasible design (C110_false). Proved for every pair of optimizations, also when the first one ended early: without constraints the second begins with a feasible design whose value is at most 1e-4 worse and at most 5e-13 better (C110_partial), and the loss can be 1e-5 (C110_tolerance); a best design that came from the initial data survives exactly (C110_initial); every simulated design that stays feasible under rounding to twelve digits and is 2e-4 apart from all others survives up to 5e-13 (C110_separate); rounding keeps designs in a box whose bounds have at most twelve digits (C110_rounding)."
  },
  {
   "property": "C111",
   "status": "partial",
   "theorems": [
    "Rodeo.C111_partial",
    "Rodeo.C111_false",
    "Rodeo.C111_again",
    "Rodeo.C111_written",
    "Rodeo.C111_ignored",
    "Rodeo.C111_unreadable"
   ],
   "note": "False in full: hyperparameters are saved with six significant digits, so a model trained with 12.34567 comes back with 12.3457 and predicts other values (C111_false). Proved: every trained model can be saved, every warm start from such a file returns for all random numbers and schedules, leaves the file unchanged, and gives the hyperparameters rounded to six digits; with at most six digits the predictions and variances are the same (C111_partial); saving and loading once more changes nothing (C111_again). Training without warm start leaves in the file exactly what the trained model saves (C111_written). A file with another number of entries is ignored without a report and the model predicts as before (C111_ignored). A missing or unreadable file is reported and nothing changes (C111_unreadable)."
  },
  {
   "property": "C112",
   "status": "partial",
   "theorems": [
    "Rodeo.C112_false",
    "Rodeo.C112_false_discrete",
    "Rodeo.C112_partial",
    "Rodeo.C112_safe",
    "Rodeo.C112_box",
    "Rodeo.C112_test",
    "Rodeo.C112_skipped",
    "Rodeo.C112_rounding",
    "Rodeo.C112_draw"
   ],
   "note": "False in full, in exact IEEE double arithmetic: with one parameter between -3 and 0.1 the search proposes 0.10000000000000009 (C112_false); with discrete values from 0 to 1.7 in steps of 0.1 it proposes 1.7000000000000002 (C112_false_discrete). Proved for every surrogate, draw and schedule: no value is below its lower bound and none exceeds its upper bound by more than 2^-50 of the size of the bounds (C112_partial); a continuous parameter leaves its interval only at the greatest normalized value and only if the computed (upper-lower)+lower exceeds the upper bound (C112_safe, C112_box), never if the width is a double (C112_test). Consequence: the search around a best design at such an upper bound is skipped (C112_skipped). The rounding of the model is characterized as round to nearest, ties to even (C112_rounding), and uniform draws stay in their interval (C112_draw)."
  },
  {
   "property": "C113",
   "status": "partial",
   "theorems": [
    "Rodeo.C113_false",
    "Rodeo.C113_lost",
    "Rodeo.C113_partial",
    "Rodeo.C113_integers"
   ],
   "note": "False in full: between 0 and 0.3 in steps of 0.1 there are only the values 0, 0.1, 0.2 (C113_false), so a design at 0.3 is simulated at 0.2 (C113_lost). Proved for all decimal inputs up to 2^47 steps from zero: the values are computed, there are m or m+1 of them, and value k is within 2^-50 of the size of the bounds of lower bound + k steps (C113_partial). For integer bounds and steps all m+1 values are exact (C113_integers)."
  },
  {
   "property": "C114",
   "status": "partial",
   "theorems": [
    "Rodeo.C114_false",
    "Rodeo.C114_partial",
    "Rodeo.C114_above"
   ],
   "note": "False in full, in exact IEEE double arithmetic: between -3 and 0.1 the value 0.1 comes back as 0.10000000000000009 (C114_false), and a normalized value can exceed 1/n (C114_above). Proved for every number of parameters and every box neither extremely narrow nor extremely large: both calls return, each value comes back up to 14/2^53 of the size of its bounds, and lower bounds come back exactly (C114_partial)."
  },
  {
   "property": "C115",
   "status": "proved",
   "theorems": [
    "Rodeo.C115_dot",
    "Rodeo.C115_dot_refused",
    "Rodeo.C115_matVec",
    "Rodeo.C115_mean",
    "Rodeo.C115_mean_refused"
   ],
   "note": "In exact IEEE double arithmetic, the versions without OpenBLAS. Proved for all lengths below 2^32 and all entries whose absolute terms sum to at most 2^1000: no overflow, and the stated error bounds."
  },
  {
   "property": "C116",
   "status": "partial",
   "theorems": [
    "Rodeo.C116_false",
    "Rodeo.exNear_cholesky",
    "Rodeo.C116_partial",
    "Rodeo.C116_factor",
    "Rodeo.C116_residual"
   ],
   "note": "False in full: for the positive definite matrix with rows (1, 1+50331648*2^-52) and (1+50331648*2^-52, 1+100663297*2^-52) the factorization reports success with a last pivot of 0, and the solution divides by zero (exNear_cholesky, C116_false). Proved in exact IEEE double arithmetic for all symmetric matrices of doubles whose least eigenvalue is at least 17/16 (n+5) (n+2) 2^-53 times their largest entry, and right-hand sides up to 2^100: the factorization succeeds and its product is the matrix up to rounding errors (C116_factor); the solve returns, its residual is at most 25/8 (n+2) 2^-53 times the largest entry times the sum of the absolute values of the solution, and the distance to the exact solution is that residual over the least eigenvalue (C116_partial). Whatever the matrix, every finite result has this residual (C116_residual)."
  },
  {
   "property": "C117",
   "status": "partial",
   "theorems": [
    "Rodeo.C117_partial",
    "Rodeo.C117_safe",
    "Rodeo.C117_alias",
    "Rodeo.C117_dangling",
    "Rodeo.C117_other_kind",
    "Rodeo.C117_optimizer",
    "Rodeo.C117_false"
   ],
   "note": "False in full: the compiler's copy keeps the pointer to the surrogate model of the original, so a sample given to a copy goes to the original (C117_false, in general C117_alias) and a call to a copy whose original is gone is undefined behaviour (C117_dangling; this is what the growth of the optimizer's vector of constraints does after initialization). Proved for all programs in which every function that is used has been connected itself since it was created, copied or overwritten: all answers and final states are those of independent values, without undefined behaviour (C117_partial, C117_safe), in particular for an optimizer whose functions are all added before initialization (C117_optimizer). A definition with another model type than the two Kriging models leaves the pointer uninitialized (C117_other_kind)."
  },
  {
   "property": "C118",
   "status": "partial",
   "theorems": [
    "Rodeo.C118_partial",
    "Rodeo.C118_search",
    "Rodeo.C118_search_assignments",
    "Rodeo.C118_search_refines",
    "Rodeo.C118_gradient",
    "Rodeo.C118_training",
    "Rodeo.C118_training_result",
    "Rodeo.C118_generator",
    "Rodeo.C118_generator_single",
    "Rodeo.C118_assignment",
    "Rodeo.C118_false"
   ],
   "note": "False in full (C118_false). Proved for every loop with one thread (C118_partial), and for each loop the exact condition under which no schedule has a race: the search is free of races iff no two threads have work where one has a candidate better than the start (C118_search; the comparison is outside of the critical section, two assignments never overlap: C118_search_assignments), the gradient-based search iff only one thread has trials (C118_gradient: the trial design is shared), the training iff at most one thread draws random numbers (C118_training: the generator is static; the best result itself is protected: C118_training_result). What the races can lead to: a word read from outside the table of the generator (C118_generator, never with one thread: C118_generator_single) and memory deleted twice (C118_assignment). C118_search_refines: every execution of this model is one of the model used in C26."
  },
  {
   "property": "C119",
   "status": "partial",
   "theorems": [
    "Rodeo.C119_matrix",
    "Rodeo.C119_factor",
    "Rodeo.C119_partial",
    "Rodeo.C119_default",
    "Rodeo.C119_false"
   ],
   "note": "False in full: setEpsilon accepts 0, and then two equal samples give the matrix of ones, whose factorization reports success with a last pivot of 0, so that the fit divides by zero (exTwin_fit, C119_false). Proved for all samples and hyper-parameters in doubles and all libraries with errors below one unit in the last place: each entry of the matrix has an error of at most (m+10) 2^-54 (C119_matrix); it is factorized and every system is solved if epsilon is at least 17/16 (n+5)(n+2) 2^-53 (1+2 epsilon) + n (m+10) 2^-54 (C119_factor); the whole fit returns if epsilon is at least 10/3 (n+1)(n+2) 2^-53 (1+2 epsilon) + n (m+10) 2^-54 (C119_partial), which for the default 1e-12 covers all models with at most 45 samples of at most 45 variables (C119_default). For more samples with the default value nothing is claimed. Not modelled: the paths with OpenBLAS."
  },
  {
   "property": "C12",
   "status": "proved",
   "theorems": [
    "Rodeo.C12_budget"
   ],
   "note": "Exact number of evaluations of a completed run."
  },
  {
   "property": "C120",
   "status": "proved",
   "theorems": [
    "Rodeo.C120_sample",
    "Rodeo.C120_total"
   ],
   "note": "In exact IEEE double arithmetic: for every fit that returns and positive exponents, |prediction - output| at sample i is at most epsilon |w_i| + (9(n+2)+m+10) 2^-53 sum |w_j| + 3 (|y_i|+|beta0|) 2^-53 + 2^-399 (C120_sample); under the condition of C119 the fit returns and the prediction is finite at every point (C120_total). Normalized inputs and outputs, without the linear regression part and the paths with OpenBLAS."
  },
  {
   "property": "C121",
   "status": "partial",
   "theorems": [
    "Rodeo.C121_mode",
    "Rodeo.C121_partial",
    "Rodeo.C121_derivatives",
    "Rodeo.C121_multi",
    "Rodeo.C121_multi_silent",
    "Rodeo.C121_false"
   ],
   "note": "False in full. With two fidelities (definition.ifMultiLevel) no call ever changes the file: the modes that can be chosen return without a word (C121_multi_silent, C121_false) and the two modes meant for it cannot be chosen (C121_mode) and would throw; this includes the call of the optimizer (C121_multi). With one fidelity the modes adjoint and tangent always throw and add nothing, because the Kriging model takes only values (C121_derivatives). Proved for one fidelity and the mode primal, the one of the optimizer: after every history of trainings and samples the design is added, or a row within 1e-4 in all entries is there already (C121_partial)."
  },
  {
   "property": "C122",
   "status": "partial",
   "theorems": [
    "Rodeo.C122_partial",
    "Rodeo.C122_vectors",
    "Rodeo.C122_products",
    "Rodeo.C122_correlations",
    "Rodeo.C122_solve",
    "Rodeo.C122_false",
    "Rodeo.C122_false_inverse"
   ],
   "note": "False in full. The library refuses positive semidefinite matrices, which the built-in Cholesky accepts (C122_false), the built-in inverse refuses matrices with a pivot below 1e-9 (C122_false_inverse), and solve works only with the library. Proved: scalar products, products of nonempty matrices and correlations are equal; positive definite matrices have the same factor and solutions; the inverse and the LU solutions are equal wherever the built-in code returns one (C122_partial). Exact arithmetic, any library with the documented behaviour."
  },
  {
   "property": "C123",
   "status": "proved",
   "theorems": [
    "Rodeo.C123_cholesky",
    "Rodeo.C123_lu",
    "Rodeo.C123_inverse",
    "Rodeo.C123_solve",
    "Rodeo.C123_nonsquare",
    "Rodeo.C123_empty"
   ],
   "note": "Exact arithmetic, any library with the documented behaviour (Spec.Documented; realBlas_documented gives one)."
  },
  {
   "property": "C124",
   "status": "proved",
   "theorems": [
    "Rodeo.C124_init",
    "Rodeo.C124_training",
    "Rodeo.C124_linear"
   ],
   "note": "Exact arithmetic, any library with the documented behaviour. Kriging with a positive nugget and at least one training sample, with a linear trend for up to 99 variables (the range in which the built-in inverse is known to succeed)."
  },
  {
   "property": "C125",
   "status": "partial",
   "theorems": [
    "Rodeo.C125_partial",
    "Rodeo.C125_bounds",
    "Rodeo.C125_default",
    "Rodeo.C125_fit",
    "Rodeo.C125_false"
   ],
   "note": "False in general: with two equal samples and no number on the diagonal a pivot is 0 and everything is infinite or NaN. Proved when the number on the diagonal is above the rounding errors, for up to a million samples and a thousand variables, outputs 0 or at least 2^-200 in size, points up to 2^100."
  },
  {
   "property": "C126",
   "status": "proved",
   "theorems": [
    "Rodeo.C126_value",
    "Rodeo.C126_kriging",
    "Rodeo.C126_probability",
    "Rodeo.C126_product",
    "Rodeo.C126_negative"
   ],
   "note": "The value and the probabilities as the code computes them in doubles; C126_kriging composes with C125, whose condition on the diagonal number it shares. C126_negative: with correctly rounded library functions the value is below zero at an estimate 8.3125 deviations above the minimum, so non-negativity (C61, exact arithmetic) does not carry over to doubles."
  },
  {
   "property": "C127",
   "status": "partial",
   "theorems": [
    "Rodeo.C127_partial",
    "Rodeo.C127_positive",
    "Rodeo.C127_false"
   ],
   "note": "Full statement false of the code: without a number on the diagonal the likelihood of two equal samples is not finite. Proved: above the rounding errors every likelihood is a finite double, equal to that of the exact correlation matrix with the computed variance up to an explicit rounding error; positive variance whenever two outputs differ. Modelled without OpenBLAS and without the linear part."
  },
  {
   "property": "C128",
   "status": "proved",
   "theorems": [
    "Rodeo.C128_exists",
    "Rodeo.C128_blup",
    "Rodeo.C128_sum",
    "Rodeo.C128_average",
    "Rodeo.C128_total"
   ],
   "note": "The constants are explicit; with the average as mean the comparison is with the exact prediction for the computed mean."
  },
  {
   "property": "C129",
   "status": "partial",
   "theorems": [
    "Rodeo.C129_no_parent",
    "Rodeo.C129_no_death",
    "Rodeo.C129_false",
    "Rodeo.C129_partial"
   ],
   "note": "The full statement is false: C129_no_parent (a draw that selects nobody) and C129_no_death (0/0 death probabilities for thirteen individuals). C129_partial covers all draws below 1 - n/2^49 and all populations in which about a tenth is fitter than some individual, with fitness between 1/256 and 4."
  },
  {
   "property": "C13",
   "status": "partial",
   "theorems": [
    "Rodeo.C13_partial",
    "Rodeo.C13_false",
    "Rodeo.C13_runs_out",
    "Rodeo.C13_refused"
   ],
   "note": "False when there are more deaths than births. Proved for deaths <= births. C13_refused: a run with incomplete settings, or with at least as many deaths as individuals and births together, is refused with an error."
  },
  {
   "property": "C130",
   "status": "proved",
   "theorems": [
    "Rodeo.C130_factor",
    "Rodeo.C130_solve",
    "Rodeo.C130_inverse",
    "Rodeo.C130_failure",
    "Rodeo.C130_total"
   ],
   "note": "Double arithmetic with overflow as an error; solutions and inverses whenever they are returned without an infinite intermediate value."
  },
  {
   "property": "C131",
   "status": "partial",
   "theorems": [
    "Rodeo.C131_partial",
    "Rodeo.C131_random",
    "Rodeo.C131_total",
    "Rodeo.C131_study",
    "Rodeo.C131_false",
    "Rodeo.C131_false_stratum"
   ],
   "note": "Proved: one sample per part up to (|l|+|h|)/2^50, ordered as the parts, never below the lower bound; random samples exactly in the box; no overflow for bounds up to 2^1018. Missing because false: exactness. With bounds -1 and 0.1 and three samples the last one can be above 0.1 (C131_false), and a part can stay without a sample (C131_false_stratum)."
  },
  {
   "property": "C132",
   "status": "partial",
   "theorems": [
    "Rodeo.C132_partial",
    "Rodeo.C132_near",
    "Rodeo.C132_total",
    "Rodeo.C132_room",
    "Rodeo.C132_predict",
    "Rodeo.C132_false"
   ],
   "note": "The last sentence is false of the code: with one sample at (2^14, 2^14), far outside the box, 2^28 + 1e-8 is rounded to 2^28, the matrix is singular and training throws (C132_false). Proved: the residual of the normal equations of any weights returned for samples in the box (C132_partial), what it means for the loss and for the distance from the minimizer (C132_near), success and an a-priori error when the regularization exceeds the rounding errors (C132_total), that the program's value does for up to 6 parameters and 400 samples (C132_room), and the accuracy of predictions (C132_predict)."
  },
  {
   "property": "C133",
   "status": "partial",
   "theorems": [
    "Rodeo.C133_partial",
    "Rodeo.C133_central",
    "Rodeo.C133_derivative",
    "Rodeo.C133_descends",
    "Rodeo.C133_stuck",
    "Rodeo.C133_stuck_optimize",
    "Rodeo.C133_false",
    "Rodeo.C133_false_step"
   ],
   "note": "The last sentence is false of the code: on 2^80 (x - 1/3)^2, with values and derivatives rounded correctly, at the double nearest to 1/3 the gradient exceeds the tolerance but no double is better, so the loop never ends (C133_false); C133_stuck and C133_stuck_optimize say so in general. Relative steps below 2^-53 are accepted and make every gradient zero (C133_false_step). Proved: a search that returns does so within 2100 evaluations (C133_partial) at a better point on the ray (C133_descends); the accuracy of central differences for steps of at least 2^-40 (C133_central, C133_derivative)."
  },
  {
   "property": "C134",
   "status": "partial",
   "theorems": [
    "Rodeo.C134_partial",
    "Rodeo.C134_length",
    "Rodeo.C134_gradient",
    "Rodeo.C134_false"
   ],
   "note": "The length never drifts and the window is total, inside the normalized box and wide enough for every incumbent between 0 and the computed 1/dim. The full claim is false: a design at the upper corner of the box can be normalized above the computed 1/dim and then lies outside its own window (C134_false)."
  },
  {
   "property": "C135",
   "status": "proved",
   "theorems": [
    "Rodeo.C135_in_box",
    "Rodeo.C135_never_called_outside",
    "Rodeo.C135_budget",
    "Rodeo.C135_solution"
   ],
   "note": "rounded run: exact membership in the box, budget, and consistency of the reported solution; warm start and files are not part of the rounded run"
  },
  {
   "property": "C136",
   "status": "partial",
   "theorems": [
    "Rodeo.C136_partial",
    "Rodeo.C136_equal",
    "Rodeo.C136_false"
   ],
   "note": "the error bound holds for genes at least 2^-1000 apart and for equal genes; C136_false shows that for genes one denormal apart the standard deviation underflows and is replaced by one"
  },
  {
   "property": "C137",
   "status": "proved",
   "theorems": [
    "Rodeo.C137_gene",
    "Rodeo.C137_between",
    "Rodeo.C137_equal",
    "Rodeo.C137_double"
   ],
   "note": "exact arithmetic: the value of every gene; double arithmetic: the same up to the bound of C136"
  },
  {
   "property": "C138",
   "status": "proved",
   "theorems": [
    "Rodeo.C138_mean",
    "Rodeo.C138_positive"
   ],
   "note": "Double arithmetic with overflow as an error; histories with at least as many designs as initial samples, as in C33_partial, up to 65536 of these."
  },
  {
   "property": "C139",
   "status": "proved",
   "theorems": [
    "Rodeo.C139_adjust",
    "Rodeo.C139_limits",
    "Rodeo.C139_value",
    "Rodeo.C139_crowded",
    "Rodeo.C139_multiplier",
    "Rodeo.C139_nan"
   ],
   "note": "Double arithmetic with infinities and NaN. Two vanishing distances give NaN (C139_nan, as in C34)."
  },
  {
   "property": "C14",
   "status": "partial",
   "theorems": [
    "Rodeo.C14_partial",
    "Rodeo.C14_false",
    "Rodeo.C14_false_equal",
    "Rodeo.C14_false_close"
   ],
   "note": "False for all-negative values, for nearby values; proved for populations with a positive value."
  },
  {
   "property": "C140",
   "status": "partial",
   "theorems": [
    "Rodeo.C140_partial",
    "Rodeo.C140_double",
    "Rodeo.C140_whole",
    "Rodeo.C140_false",
    "Rodeo.C140_examples"
   ],
   "note": "False for decimal ratios whose share is a whole number: 0.29 of 100 samples gives 28 (C140_false). Proved: at most one off, exact unless the share is within 2^-20 of a whole number, and exact whole shares for ratios that are doubles."
  },
  {
   "property": "C141",
   "status": "partial",
   "theorems": [
    "Rodeo.C141_partial",
    "Rodeo.C141_tie",
    "Rodeo.C141_demo",
    "Rodeo.C141_false"
   ],
   "note": "False as stated: against a reference of 2^60 the objective values 2 and 1 have the same improvement value, so the better design is counted as no improvement (C141_false). C141_partial proves for every history and every sequence of designs with feasible objective values up to 2^1022 in size: signs, monotone order, relative error 2^-53 and the strict order of designs that differ by more than 2^-52 of their distance from the reference. Missing: closer designs, and values so large that a difference overflows."
  },
  {
   "property": "C15",
   "status": "proved",
   "theorems": [
    "Rodeo.C15_distributions",
    "Rodeo.C15_no_failure"
   ],
   "note": ""
  },
  {
   "property": "C16",
   "status": "partial",
   "theorems": [
    "Rodeo.C16_fittest_survives",
    "Rodeo.C16_partial",
    "Rodeo.C16_false"
   ],
   "note": "First half proved. Second half false when IDs repeat; proved when the best ID is unique."
  },
  {
   "property": "C17",
   "status": "partial",
   "theorems": [
    "Rodeo.C17_partial",
    "Rodeo.C17_crossOver",
    "Rodeo.C17_diverges",
    "Rodeo.C17_false"
   ],
   "note": "False: a reachable population with all IDs equal makes parent selection loop for ever. Proved when two IDs differ."
  },
  {
   "property": "C18",
   "status": "partial",
   "theorems": [
    "Rodeo.C18_partial",
    "Rodeo.C18_ids_partial",
    "Rodeo.C18_child_ids",
    "Rodeo.C18_values_false",
    "Rodeo.C18_ids_false",
    "Rodeo.C18_false"
   ],
   "note": "False twice: numbers needing more than ten digits change, and the ID counter restarts at 0 so children collide with restored IDs. Proved: order, IDs and ten significant digits survive; exact condition for no collision."
  },
  {
   "property": "C19",
   "status": "partial",
   "theorems": [
    "Rodeo.C19_partial",
    "Rodeo.C19_false",
    "Rodeo.C19_false_central",
    "Rodeo.C19_central_reports_shifted"
   ],
   "note": "False: a run that stops before its first line search reports FLT_MAX, and with central differences the line search compares with, and reports, the value at a shifted point. Proved for user supplied gradients."
  },
  {
   "property": "C20",
   "status": "partial",
   "theorems": [
    "Rodeo.C20_partial",
    "Rodeo.C20_false",
    "Rodeo.C20_overrun",
    "Rodeo.C20_returns_iff"
   ],
   "note": "False: the configured line search limit is never read; the search loops for ever when no halved step improves. Exact condition for returning, and a bound for objectives that decrease within m halvings."
  },
  {
   "property": "C21",
   "status": "partial",
   "theorems": [
    "Rodeo.C21_partial",
    "Rodeo.C21_forward_lost",
    "Rodeo.C21_zero_coordinate",
    "Rodeo.C21_false",
    "Rodeo.C21_false_central"
   ],
   "note": "False: forward differences are discarded, central ones overwrite the objective value, zero coordinates divide 0/0. Quotients and point proved for central differences at points without zero coordinates."
  },
  {
   "property": "C22",
   "status": "proved",
   "theorems": [
    "Rodeo.C22_returned",
    "Rodeo.C22_never_more",
    "Rodeo.C22_stops",
    "Rodeo.C22_zero",
    "Rodeo.C22_run"
   ],
   "note": "For every environment: a run that returns has simulated exactly M times and appended M rows; a run that throws has not simulated more; the loop ends after M rounds. For well-posed problems when nothing outside throws the run returns, with every design recorded once."
  },
  {
   "property": "C23",
   "status": "partial",
   "theorems": [
    "Rodeo.C23_partial",
    "Rodeo.C23_false",
    "Rodeo.C23_one_never_trains",
    "Rodeo.C23_zero_undefined"
   ],
   "note": "Holds for k >= 2. With k = 1 the surrogates are never trained (n % 1 is never 1); k = 0 is not refused and is a division by zero."
  },
  {
   "property": "C24",
   "status": "partial",
   "theorems": [
    "Rodeo.C24_partial",
    "Rodeo.C24_false",
    "Rodeo.C24_enlargement_shrinks",
    "Rodeo.C24_dimension_one"
   ],
   "note": "The full statement is false: the initial length 0.8 is above the maximum 1.6/d for d >= 3 and the first enlargement then shrinks it. Proved: lower limit, no growth on failures, upper limit max(0.8, maximum), monotone growth while within the band."
  },
  {
   "property": "C25",
   "status": "proved",
   "theorems": [
    "Rodeo.C25_trustRegion",
    "Rodeo.C25_gradientStep",
    "Rodeo.C25_rejects",
    "Rodeo.C25_run"
   ],
   "note": "For every dimension, incumbent and non-negative length or accepted factor; wrong dimensions and factors are rejected; along every run the length is admissible."
  },
  {
   "property": "C26",
   "status": "partial",
   "theorems": [
    "Rodeo.C26_partial",
    "Rodeo.C26_false",
    "Rodeo.C26_single_thread",
    "Rodeo.C26_some_candidate",
    "Rodeo.C26_around"
   ],
   "note": "The full statement is false: the comparison is outside the critical section. Proved: maximum for uninterrupted executions and one thread; in every execution the recorded design beats the start if any candidate does."
  },
  {
   "property": "C27",
   "status": "proved",
   "theorems": [
    "Rodeo.C27_ascent",
    "Rodeo.C27_gradient",
    "Rodeo.C27_stored_value_stale"
   ],
   "note": "Box, no decrease, at most 1 + iterations * (2 dim + 27) evaluations; the direction is the central difference quotient. The value stored in the returned design can be that of a difference quotient (C27_stored_value_stale); the theorem is about the acquisition function at the design."
  },
  {
   "property": "C28",
   "status": "partial",
   "theorems": [
    "Rodeo.C28_partial",
    "Rodeo.C28_false"
   ],
   "note": "Proved for histories whose feasible objective values are below the largest double; with a feasible objective equal to it the optimum is flagged infeasible."
  },
  {
   "property": "C29",
   "status": "proved",
   "theorems": [
    "Rodeo.C29_append"
   ],
   "note": "For any two history matrices that agree on the rows of the first."
  },
  {
   "property": "C30",
   "status": "partial",
   "theorems": [
    "Rodeo.C30_partial",
    "Rodeo.C30_false"
   ],
   "note": "Proved when no feasible objective is within 1e-5 of the lowest double (the marker value) and no initial feasible objective equals the largest."
  },
  {
   "property": "C31",
   "status": "partial",
   "theorems": [
    "Rodeo.C31_partial",
    "Rodeo.C31_false",
    "Rodeo.C31_wrong_number"
   ],
   "note": "Proved with at least one constraint or with all training designs inside the box; without constraints the box is not checked."
  },
  {
   "property": "C32",
   "status": "proved",
   "theorems": [
    "Rodeo.C32_update",
    "Rodeo.C32_run",
    "Rodeo.C32_file",
    "Rodeo.C32_header"
   ],
   "note": "One update, sequences of updates, and the history file after an update."
  },
  {
   "property": "C33",
   "status": "partial",
   "theorems": [
    "Rodeo.C33_partial",
    "Rodeo.C33_reported",
    "Rodeo.C33_overflow",
    "Rodeo.C33_reported_pos",
    "Rodeo.C33_permutation",
    "Rodeo.C33_false",
    "Rodeo.C33_few_rows"
   ],
   "note": "Proved when there are at least as many rows as initial samples and at most 65536 initial samples. With fewer rows the call throws or returns 0; with 65537 samples the 32-bit number of pairs overflows and the value is 65537 times too large (C33_overflow)."
  },
  {
   "property": "C34",
   "status": "partial",
   "theorems": [
    "Rodeo.C34_partial",
    "Rodeo.C34_false",
    "Rodeo.C34_zero_nan",
    "Rodeo.C34_run",
    "Rodeo.C34_single_sample"
   ],
   "note": "Holds unless coefficient and crowding factor both vanish, where the factor is NaN; in whole runs it holds whenever the initial samples are not all the same, and a single initial sample always gives NaN."
  },
  {
   "property": "C35",
   "status": "partial",
   "theorems": [
    "Rodeo.C35_partial",
    "Rodeo.C35_false"
   ],
   "note": "Missing: 2^32 or more grid values, where the conversion to unsigned int is undefined (C35_false)."
  },
  {
   "property": "C36",
   "status": "partial",
   "theorems": [
    "Rodeo.C36_partial",
    "Rodeo.C36_false",
    "Rodeo.C36_continuous"
   ],
   "note": "The full statement is false: the normalized parameters are not updated after rounding. Proved: they agree exactly when rounding changes nothing."
  },
  {
   "property": "C37",
   "status": "partial",
   "theorems": [
    "Rodeo.C37_false",
    "Rodeo.C37_partial",
    "Rodeo.C37_objective"
   ],
   "note": "setNameOfTrainingDataFile stores the name of the study instead of its argument (C37_false). C37_partial: the samples go to the file named like the study. C37_objective: a file named in setObjectiveFunction is the one written by the sampling and read by the model, for all histories without a later call naming the file."
  },
  {
   "property": "C38",
   "status": "partial",
   "theorems": [
    "Rodeo.C38_false",
    "Rodeo.C38_false_rejected",
    "Rodeo.C38_exact",
    "Rodeo.C38_partial"
   ],
   "note": "Bounds accumulate over calls, so every second call is rejected, also after a call that was itself rejected. C38_exact: a valid call is accepted exactly if no bounds were collected before, and then sets exactly the given bounds everywhere."
  },
  {
   "property": "C39",
   "status": "partial",
   "theorems": [
    "Rodeo.C39_false",
    "Rodeo.C39_partial",
    "Rodeo.C39_trim"
   ],
   "note": "trim uses the end position as a length: with blanks on both sides blanks stay at the end (C39_false: \"  a  \" becomes \"a  \"). C39_trim gives the exact result for every string; C39_partial proves the property for strings that have no blank at one of the two ends."
  },
  {
   "property": "C40",
   "status": "proved",
   "theorems": [
    "Rodeo.C40_accepts",
    "Rodeo.C40_rejects",
    "Rodeo.C40_no_inequality",
    "Rodeo.C40_roundtrip"
   ],
   "note": "C40_accepts characterises the accepted texts and what is returned for each; C40_roundtrip reads back every rendering of a name, inequality and decimal numeral exactly; everything else is invalid_argument."
  },
  {
   "property": "C41",
   "status": "partial",
   "theorems": [
    "Rodeo.C41_false",
    "Rodeo.C41_partial",
    "Rodeo.C41_torn",
    "Rodeo.C41_complete",
    "Rodeo.C41_total"
   ],
   "note": "The file is truncated and rewritten after each sample: a stop in between loses saved samples (C41_false). C41_partial: at every other point the file holds exactly the saved samples. C41_torn: within a write it holds a beginning of the table. C41_complete: on completion all samples, also of all constraints, each with its own value and within the bounds. C41_total: the sampling completes if functions and files work."
  },
  {
   "property": "C42",
   "status": "proved",
   "theorems": [
    "Rodeo.C42_lhs",
    "Rodeo.C42_random",
    "Rodeo.C42_rejects"
   ],
   "note": "Draws and shuffles are quantified over; every column has exactly one sample per stratum."
  },
  {
   "property": "C43",
   "status": "partial",
   "theorems": [
    "Rodeo.C43_false",
    "Rodeo.C43_false_addRow_negative",
    "Rodeo.C43_false_addRow_no_columns",
    "Rodeo.C43_false_deleteRow",
    "Rodeo.C43_addRow_partial",
    "Rodeo.C43_addColumn_partial",
    "Rodeo.C43_deleteRow_partial",
    "Rodeo.C43_deleteRows",
    "Rodeo.C43_setRow",
    "Rodeo.C43_setCol"
   ],
   "note": "Full statement C43_full is refuted (positions below -1, degenerate shapes). deleteRows, setRow and setCol hold without restriction; addRow, addColumn and deleteRow hold for positions from -1 on and non-degenerate shapes."
  },
  {
   "property": "C44",
   "status": "partial",
   "theorems": [
    "Rodeo.C44_false",
    "Rodeo.C44_false_row",
    "Rodeo.C44_getCol_partial",
    "Rodeo.C44_getRow_partial",
    "Rodeo.C44_submat",
    "Rodeo.C44_resize",
    "Rodeo.C44_transpose",
    "Rodeo.C44_transpose_transpose",
    "Rodeo.C44_concatenateRowWise",
    "Rodeo.C44_concatenateColumnWise",
    "Rodeo.C44_shuffleRows"
   ],
   "note": "Full statement refuted for getCol(-1)/getRow(-1) on matrices without columns/rows; everything else holds without restriction."
  },
  {
   "property": "C45",
   "status": "proved",
   "theorems": [
    "Rodeo.C45_matVecProduct",
    "Rodeo.C45_matMatProduct",
    "Rodeo.C45_assoc",
    "Rodeo.C45_transpose",
    "Rodeo.C45_distrib",
    "Rodeo.C45_sub_smul"
   ],
   "note": "Products are the mathematical products and size mismatches are rejected."
  },
  {
   "property": "C46",
   "status": "proved",
   "theorems": [
    "Rodeo.C46_total",
    "Rodeo.C46_solve",
    "Rodeo.C46_singular",
    "Rodeo.C46_inverse",
    "Rodeo.C46_object",
    "Rodeo.C46_stale_flag",
    "Rodeo.C46_history"
   ],
   "note": "Exact arithmetic, non-OpenBLAS path. C46_stale_flag documents that setDimension after factorize keeps the done flag."
  },
  {
   "property": "C47",
   "status": "partial",
   "theorems": [
    "Rodeo.C47_partial",
    "Rodeo.C47_false"
   ],
   "note": "False as stated: absolute pivot tolerance 1e-9 (C47_false). Proved when the inverse has absolute row sums at most 1e9."
  },
  {
   "property": "C48",
   "status": "partial",
   "theorems": [
    "Rodeo.C48_partial",
    "Rodeo.C48_false",
    "Rodeo.C48_false_nan"
   ],
   "note": "False as stated for semidefinite matrices: zero pivots are accepted or divide by zero. Everything else proved."
  },
  {
   "property": "C49",
   "status": "proved",
   "theorems": [
    "Rodeo.C49_findRowIndex",
    "Rodeo.C49_isRowInMatrix",
    "Rodeo.C49_agree",
    "Rodeo.C49_own_row"
   ],
   "note": "First matching row or -1."
  },
  {
   "property": "C50",
   "status": "proved",
   "theorems": [
    "Rodeo.C50_roundtrip",
    "Rodeo.C50_header_mismatch"
   ],
   "note": "Matrix saved with p digits after the point and read back: entries within half a unit of the last digit, exact when p digits suffice; header and no header."
  },
  {
   "property": "C51",
   "status": "proved",
   "theorems": [
    "Rodeo.C51_gaussian",
    "Rodeo.C51_exponential",
    "Rodeo.C51_gaussian_decreasing",
    "Rodeo.C51_exponential_decreasing",
    "Rodeo.C51_sizes"
   ],
   "note": "All sample matrices; decreasing across any two sample matrices. Exact reals with the real exponential and power."
  },
  {
   "property": "C52",
   "status": "proved",
   "theorems": [
    "Rodeo.C52_value",
    "Rodeo.C52_first",
    "Rodeo.C52_second",
    "Rodeo.C52_first_argument"
   ],
   "note": "HasDerivAt over the reals; both directions act on the second point."
  },
  {
   "property": "C53",
   "status": "partial",
   "theorems": [
    "Rodeo.C53_false",
    "Rodeo.C53_partial",
    "Rodeo.C53_revert"
   ],
   "note": "The first read of an object (no validation rows collected before) is a split of the requested size, for every file, ratio and shuffle; when every row is chosen for validation this is reported. The return to the full data makes all rows of the file training samples again, in the order of the file (C53_revert). False for later reads: validation rows of earlier reads stay and are used instead of the new ones (C53_false)."
  },
  {
   "property": "C54",
   "status": "proved",
   "theorems": [
    "Rodeo.C54_error",
    "Rodeo.C54_exact",
    "Rodeo.C54_file"
   ],
   "note": "C54_file starts from the file on disk, for every file, box, trend option and nugget in [0,1); without a nugget the correlation matrix must be positive definite (as the property says)."
  },
  {
   "property": "C55",
   "status": "proved",
   "theorems": [
    "Rodeo.C55_train",
    "Rodeo.C55_model",
    "Rodeo.C55_unread"
   ],
   "note": "Every train() either fails with a reported error or yields the unique ridge minimizer and the affine prediction; it never fails for dim+1 <= (1e9 lambda)^2 (lambda = 1e-8: up to 99 parameters). C55_model starts from the file on disk. C55_unread: if the data cannot be read, nothing is built on them."
  },
  {
   "property": "C56",
   "status": "partial",
   "theorems": [
    "Rodeo.C56_iterations",
    "Rodeo.C56_ends",
    "Rodeo.C56_partial",
    "Rodeo.C56_false"
   ],
   "note": "False in full: train() divides the stored number of iterations by the number of threads at every call, so with more than one thread the effort decays until train() throws (C56_iterations gives the exact value after any history, C56_ends that it ends, C56_false a counterexample). C56_partial: with one thread the effort is kept over every history of calls."
  },
  {
   "property": "C57",
   "status": "partial",
   "theorems": [
    "Rodeo.C57_best",
    "Rodeo.C57_schedule",
    "Rodeo.C57_always_violated",
    "Rodeo.C57_failure_wins",
    "Rodeo.C57_failed_model",
    "Rodeo.C57_partial",
    "Rodeo.C57_false"
   ],
   "note": "Proved for every schedule, number of threads and random numbers: the kept hyperparameters have the best score of all threads, and the score found does not depend on the schedule. The second half is false: with validation samples a failed factorization scores -DBL_MAX in a minimization, so it always wins (C57_always_violated, C57_failure_wins, C57_false) and the model then predicts its trend only (C57_failed_model). C57_partial: with the likelihood as objective a failed factorization never wins."
  },
  {
   "property": "C58",
   "status": "partial",
   "theorems": [
    "Rodeo.C58_false",
    "Rodeo.C58_partial",
    "Rodeo.C58_rejected"
   ],
   "note": "C58_partial: for every history of added samples and trainings the file only grows, old rows stay, each new row is a submitted sample (to the digits of the file), differs from each earlier row in a parameter or the value, and every sample of the right size is close to a row; C58_rejected: a rejected sample changes neither model nor file. Missing and false (C58_false): the comparison covers the value too, so a sample with the same inputs and another value is stored."
  },
  {
   "property": "C59",
   "status": "partial",
   "theorems": [
    "Rodeo.C59_partial",
    "Rodeo.C59_false",
    "Rodeo.C59_wrong_direction"
   ],
   "note": "Every sample builder puts parameters, value, and the requested tangent/gradient block in the documented order, except that the tangent sample of a constraint takes the direction of the design's own ID (C59_false, C59_wrong_direction)."
  },
  {
   "property": "C60",
   "status": "partial",
   "theorems": [
    "Rodeo.C60_partial",
    "Rodeo.C60_false",
    "Rodeo.C60_iterate",
    "Rodeo.C60_loop"
   ],
   "note": "Holds for NaN among the simulated values (and gradients), in every iteration of every run; parameters and the improvement value are not checked by the code."
  },
  {
   "property": "C61",
   "status": "proved",
   "theorems": [
    "Rodeo.C61_nonneg",
    "Rodeo.C61_product",
    "Rodeo.C61_kriging",
    "Rodeo.C61_search"
   ],
   "note": "For all surrogate models that answer with a nonnegative variance, in particular (C61_kriging) the Kriging models after any history of samples and trainings, and every number and order of constraints; erf is the real error function. C61_search: the acquisition functions quantified over in C26, C27, C66 include the one the code computes."
  },
  {
   "property": "C62",
   "status": "partial",
   "theorems": [
    "Rodeo.C62_partial",
    "Rodeo.C62_false",
    "Rodeo.C62_no_file",
    "Rodeo.C62_name_lost",
    "Rodeo.C62_iterations_shared",
    "Rodeo.C62_one_line",
    "Rodeo.C62_bounds_false",
    "Rodeo.C62_iterations_false",
    "Rodeo.C62_counts_false"
   ],
   "note": "Every accepted file has all mandatory keywords and its settings are those of the study (C62_partial), except: the name of the study is replaced by a constant (C62_false, C62_name_lost), the training iterations of a constraint are those of the objective function (C62_iterations_false, C62_iterations_shared), missing bounds are read as 1e-13 (C62_bounds_false), negative counts wrap around (C62_counts_false), a constraint on one line disappears (C62_one_line)."
  },
  {
   "property": "C63",
   "status": "proved",
   "theorems": [
    "Rodeo.C63_determinant",
    "Rodeo.C63_logDeterminant"
   ],
   "note": "Exact arithmetic; log determinant over the reals."
  },
  {
   "property": "C64",
   "status": "partial",
   "theorems": [
    "Rodeo.C64_partial",
    "Rodeo.C64_false",
    "Rodeo.C64_rejects"
   ],
   "note": "False when the file does not end with a line break (C64_false); proved for files ending with one, and for mismatched lengths."
  },
  {
   "property": "C65",
   "status": "proved",
   "theorems": [
    "Rodeo.C65_roundtrip"
   ],
   "note": "Six significant digits."
  },
  {
   "property": "C66",
   "status": "proved",
   "theorems": [
    "Rodeo.C66_design_in_box"
   ],
   "note": "Objectives without gradients (EGO step)."
  },
  {
   "property": "C67",
   "status": "proved",
   "theorems": [
    "Rodeo.C67_definition",
    "Rodeo.C67_rejects",
    "Rodeo.C67_unchanged"
   ],
   "note": "Texts with white space anywhere; failures leave the object unchanged."
  },
  {
   "property": "C68",
   "status": "proved",
   "theorems": [
    "Rodeo.C68_constraints"
   ],
   "note": "All histories, including rejected and malformed calls."
  },
  {
   "property": "C69",
   "status": "partial",
   "theorems": [
    "Rodeo.C69_false",
    "Rodeo.C69_false_dimension",
    "Rodeo.C69_partial"
   ],
   "note": "False for addConstraint without a dimension, setDimension(0) and setBoxConstraints. C69_partial: every other rejected call changes nothing."
  },
  {
   "property": "C70",
   "status": "proved",
   "theorems": [
    "Rodeo.C70_mandatory"
   ],
   "note": "All histories; accepted means returned without an exception."
  },
  {
   "property": "C71",
   "status": "partial",
   "theorems": [
    "Rodeo.C71_false",
    "Rodeo.C71_partial"
   ],
   "note": "Coincident coordinates with exponent below one give 0 times infinity (C71_false). C71_partial: correct wherever no coordinates coincide or the coincident ones have exponents above one."
  },
  {
   "property": "C72",
   "status": "proved",
   "theorems": [
    "Rodeo.C72_factorizable",
    "Rodeo.C72_reachable"
   ],
   "note": "Schoenberg's theorem for exponents in [0,2]; exact reals, so rounding near singular matrices is not covered."
  },
  {
   "property": "C73",
   "status": "partial",
   "theorems": [
    "Rodeo.C73_false",
    "Rodeo.C73_partial"
   ],
   "note": "Gradients: full. Directional derivatives: only when all bounds have the same length; the code scales by the first parameter's interval only (C73_false)."
  },
  {
   "property": "C74",
   "status": "proved",
   "theorems": [
    "Rodeo.C74_schedule"
   ],
   "note": "Every dimension and sequence of outcomes."
  },
  {
   "property": "C75",
   "status": "proved",
   "theorems": [
    "Rodeo.C75_variance_nonneg",
    "Rodeo.C75_file"
   ],
   "note": "Every data file with a readable table, every proper box, nugget in (0,1), trend on (at most 99 parameters) or off, every query point. Reals; rounding not modelled."
  },
  {
   "property": "C76",
   "status": "proved",
   "theorems": [
    "Rodeo.C76_blup",
    "Rodeo.C76_file"
   ],
   "note": "The code replaces |r'R^-1 r - 1| < 1e-9 and |1'R^-1 r - 1| < 1e-9 by zero, so the variance agrees up to 2e-9 of the process variance."
  },
  {
   "property": "C77",
   "status": "proved",
   "theorems": [
    "Rodeo.C77_current"
   ],
   "note": "For every history of added samples and likelihood trainings (ok or throwing) on a model built from a file with a positive nugget: the model predicts by the best linear unbiased predictor of exactly the rows of the current file, with nonnegative variance. Without validation samples, file ending in a line break."
  },
  {
   "property": "C78",
   "status": "partial",
   "theorems": [
    "Rodeo.C78_partial",
    "Rodeo.C78_false"
   ],
   "note": "Value = integral of max(m - Y, 0) for Y normal, within 1e-12 + 1e-15 sigma, if the scaled deviation exceeds 1e-13 or the estimate is not below the minimum. False otherwise: without deviation the value is 0 although the improvement is positive (C78_false)."
  },
  {
   "property": "C79",
   "status": "partial",
   "theorems": [
    "Rodeo.C79_partial",
    "Rodeo.C79_false"
   ],
   "note": "Everything except a value without deviation that lies exactly on the bound of a constraint with <: the probability is then 1 although the constraint counts as infeasible (C79_false)."
  },
  {
   "property": "C80",
   "status": "partial",
   "theorems": [
    "Rodeo.C80_partial",
    "Rodeo.C80_after_improvement",
    "Rodeo.C80_false"
   ],
   "note": "The code uses the value stored in the design before the call as the mean (C80_false); right if the design carries its estimate already, e.g. after the expected improvement (C80_after_improvement)."
  },
  {
   "property": "C81",
   "status": "proved",
   "theorems": [
    "Rodeo.C81_accepted"
   ],
   "note": "For every text that meets Spec.CorrectFile; the example file with two parameters and a constraint meets it (Driver.example_correct)."
  },
  {
   "property": "C82",
   "status": "partial",
   "theorems": [
    "Rodeo.C82_partial",
    "Rodeo.C82_false",
    "Rodeo.C82_six_digits"
   ],
   "note": "The design file is written with six significant digits: the value recorded is that of the rounded design (C82_partial), the exact one when six digits suffice (C82_six_digits). False in general (C82_false): 1.0000001 is recorded with the value at 1."
  },
  {
   "property": "C83",
   "status": "partial",
   "theorems": [
    "Rodeo.C83_partial",
    "Rodeo.C83_false",
    "Rodeo.C83_stale"
   ],
   "note": "The output file is not removed before the run: a program that exits with 0 without writing, or a missing executable name, records the value of an earlier design (C83_stale, C83_false). Everything else of the claim holds (C83_partial)."
  },
  {
   "property": "C84",
   "status": "proved",
   "theorems": [
    "Rodeo.C84_failure",
    "Rodeo.C84_unchanged"
   ],
   "note": "For all programs and texts; failing to open the design file ends the program instead of throwing."
  },
  {
   "property": "C85",
   "status": "proved",
   "theorems": [
    "Rodeo.C85_study",
    "Rodeo.C85_shared",
    "Rodeo.C85_failure"
   ],
   "note": "For programs, functions in memory and user defined functions, and for one program that serves all; the values are those at the design as handed over (six digits, see C82)."
  },
  {
   "property": "C86",
   "status": "partial",
   "theorems": [
    "Rodeo.C86_partial",
    "Rodeo.C86_error",
    "Rodeo.C86_kriging",
    "Rodeo.C86_false",
    "Rodeo.C86_unnormalized"
   ],
   "note": "False in full: after a test with true values a file without them is rejected, because the flag for true values is never reset (C86_false); proved for all other histories. A missing second normalization goes unnoticed (C86_unnormalized). For Kriging models the estimates and nonnegative variances exist (C86_kriging)."
  },
  {
   "property": "C87",
   "status": "partial",
   "theorems": [
    "Rodeo.C87_partial",
    "Rodeo.C87_again",
    "Rodeo.C87_false"
   ],
   "note": "False in full: the header accumulates, so that every save after the first fails and leaves an empty file (C87_again, C87_false); proved for the first save after any tests."
  },
  {
   "property": "C88",
   "status": "partial",
   "theorems": [
    "Rodeo.C88_partial",
    "Rodeo.C88_rows",
    "Rodeo.C88_kriging",
    "Rodeo.C88_nugget",
    "Rodeo.C88_false"
   ],
   "note": "False in full: with a validation part the estimate at training sample i is compared with the value of row i of the file (C88_rows says exactly what is computed, C88_false); proved without validation, and for Kriging models after every history."
  },
  {
   "property": "C89",
   "status": "partial",
   "theorems": [
    "Rodeo.C89_partial",
    "Rodeo.C89_rows",
    "Rodeo.C89_false"
   ],
   "note": "False in full: with a validation part only the first rows of the file are counted (C89_rows, C89_false); proved without validation."
  },
  {
   "property": "C90",
   "status": "proved",
   "theorems": [
    "Rodeo.C90_found",
    "Rodeo.C90_acquisition"
   ],
   "note": "For every properly set up problem, simulations and random numbers. The expected improvement is exact up to rounding where C78_partial is."
  },
  {
   "property": "C91",
   "status": "proved",
   "theorems": [
    "Rodeo.C91_completed",
    "Rodeo.C91_untrained"
   ],
   "note": ""
  },
  {
   "property": "C92",
   "status": "proved",
   "theorems": [
    "Rodeo.C92_sessions"
   ],
   "note": "Runs end by returning or throwing; a process killed between two writes is the state of a prefix of the designs (C90_found)."
  },
  {
   "property": "C93",
   "status": "proved",
   "theorems": [
    "Rodeo.C93_failure"
   ],
   "note": "Exactly the designs before the iteration when the models are not trained again; otherwise a training that throws may end the run earlier."
  },
  {
   "property": "C94",
   "status": "proved",
   "theorems": [
    "Rodeo.C94_settings"
   ],
   "note": "Dimension 0 is rejected but stored (C69)."
  },
  {
   "property": "C95",
   "status": "partial",
   "theorems": [
    "Rodeo.C95_false",
    "Rodeo.C95_false_dimension",
    "Rodeo.C95_partial"
   ],
   "note": "False as stated: a constraint added after setBoxConstraints has no bounds and an objective function set before setDimension has dimension 0, although all calls are accepted and the check passes; initializeSurrogate then throws. Proved when the dimension is set first and the bounds after all functions."
  },
  {
   "property": "C96",
   "status": "partial",
   "theorems": [
    "Rodeo.C96_false",
    "Rodeo.C96_partial",
    "Rodeo.C96_history",
    "Rodeo.C96_list",
    "Rodeo.C96_strings",
    "Rodeo.C96_strings_missing",
    "Rodeo.C96_success"
   ],
   "note": "Exactly false: numbers are written with six fixed decimals, so an objective value of 1e-7 is read back as 0. Proved: the file gives back number, parameters, objective, constraint values and feasibility of the best row, each number up to six decimals (error at most 5e-7). C96_success: if the call reports success the file tells the optimum; a file that cannot be opened is as before."
  },
  {
   "property": "C97",
   "status": "partial",
   "theorems": [
    "Rodeo.C97_false",
    "Rodeo.C97_partial",
    "Rodeo.C97_empty",
    "Rodeo.C97_report",
    "Rodeo.C97_unwritten"
   ],
   "note": "False for the report of saveToAFile: nothing separates the numbers, so (1, 23) and (12, 3) have the same report. Proved for the line and the list of values: read back with ten significant digits. A design without parameters throws out_of_range and leaves an empty file. C97_report: what the report says; C97_unwritten: when the file cannot be opened."
  },
  {
   "property": "C98",
   "status": "partial",
   "theorems": [
    "Rodeo.C98_false",
    "Rodeo.C98_partial",
    "Rodeo.C98_throws",
    "Rodeo.C98_log",
    "Rodeo.C98_optimum"
   ],
   "note": "False for messages longer than the width minus two: the unsigned subtraction wraps and the string constructor throws length_error (proved for all such messages). Proved for all messages that fit in an even width (the code always uses 100), and that messages about designs with a tag of at most 98 characters never throw and tell the design to six decimals."
  },
  {
   "property": "C99",
   "status": "partial",
   "theorems": [
    "Rodeo.C99_false",
    "Rodeo.C99_partial",
    "Rodeo.C99_linear",
    "Rodeo.C99_variances",
    "Rodeo.C99_again",
    "Rodeo.C99_kriging",
    "Rodeo.C99_kriging_again",
    "Rodeo.C99_names"
   ],
   "note": "False if the type is set after bindSurrogateModels: the type set last is ignored, and if the type at the binding could not be tested the pointer is uninitialized (C99_false). C99_linear and C99_kriging describe the test after every accepted sequence of calls (without validation samples and warm start) in terms of the types at the calls of bindSurrogateModels; C99_partial is the property when no type is set after the last binding. C99_variances: a linear model with variances always throws. C99_again, C99_kriging_again: every second test with the same tester throws, with an empty results file for linear models. C99_names: exactly which file names are accepted."
  }
 ]
}