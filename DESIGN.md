# Formal model of stevendaniluk/state_estimation in Lean 4

Source: `/repo` (C++17 / Eigen). Model and proofs: `/verif/lean/Verif/**`. The code was never compiled or
run here; the only tie between model and code is the line-by-line reading recorded in the comment of
each definition (`file:lines`).

## 1. What is modelled, and how

| Part of the code | Lean module | Modelling choices |
|---|---|---|
| `FilterBase` (all of `filter_base.h/.hpp`) | `Model/Time.lean`, `Model/FilterBase.lean`, `Model/Messages.lean` (std::cerr) | Generic in a `Plant` (the virtual `myPredict/myCorrect` plus everything reached through the model pointers). Time is an abstract type with the raw C++ comparisons (`TimeOps`), so that exact, rounded and NaN-carrying clocks are instances. `Option` = abnormal end (failed `assert`/`eigen_assert`, null model pointer, exception, undefined behaviour). The rewind and prune loops are modelled at the level of the reverse-iterator's base index. `Op`/`Filter.run`: arbitrary sequences of API calls, including the user changing models and parameters in between. |
| `FilterModel`, `SystemModel`, `MeasurementModel`, linear/nonlinear base classes | `Model/Models.lean` | index-list normalisation, asserts, Rc/Rp/cov storage; user subclasses are `SysClass`/`MeasClass` (the virtual functions), objects are `Sys`/`Meas` |
| Eigen operations used by the filters | `Model/Eigen.lean` | Matrices are dynamic (`rows, cols, entries`), every operation checks sizes (→ `none`); entries are exact reals; `.inverse()` of a singular matrix is `none` |
| `KalmanFilter`, `EKF`, `UKF` | `Model/KF.lean`, `Model/UKF.lean` | `llt()` is any function with `L Lᵀ = M`, `L` lower triangular, on PD input (`LltSpec`); `Model/Llt.lean` writes down Eigen's unblocked algorithm in exact reals and `eigenLlt_spec` proves the assumption of it |
| `KalmanFilterVS`, `EKFVS`, `UKFVS`, `data_subset_utilities` | `Model/Subset.lean`, `Model/Subset16.lean`, `Model/VS.lean` | index lists of naturals (and the 16-bit version); out-of-range element access is `none` |
| `angle_utilities`, `planar_2d`, `six_d_rates` definitions | `Model/Angles.lean`, `Model/Geometry.lean`, `Model/SixD.lean` | exact reals; `fmod` truncated; `atan2` = `Complex.arg`; loops without fuel |
| `integration`, `transformation_utilities`, `imu_utilities`, `math_utilities`, `plotting_utilities` | `Model/Geometry.lean` | exact reals, quaternions as 4-tuples with Eigen's product/rotation formula, the symmetric eigen solver as a specified parameter |
| `SixDRates`, `SixDRatesOdom`, `SixDRatesImu` | `Model/SixD.lean` | 18-vector state, object state includes `tf_`, `tf_set_`, `H_`, `G_`. `w_i.transpose() * g_i * I3` (six_d_rates.cpp) is read as the inner product times the identity, which is what Eigen evaluates |
| `examples/data_io.cpp` | `Model/Csv.lean` | files are character lists; `stod` is a parameter; `std::to_string` = six decimals, rounded to nearest |
| `examples/six_d_rates_example.cpp` | `Model/Example.lean` | the whole of `main` after the command line |
| IEEE double rounding where a property is *about* it | `Model/Float.lean`, `Model/FloatAngles.lean`, `Model/FloatKF.lean`, `Model/FloatKF2.lean`, `Model/NaN.lean`, `Model/NaNData.lean` | 53-bit round-to-nearest-even on rationals without exponent bounds; NaN as an extra value |

Specifications that the theorem statements use and that do not mention model helpers are in `Spec/`
(`Filter`: schedules, in-order runs; `Effect`: what one input means; `Models`: what a user model has to
satisfy; `Sigma`: the scaled unscented transform; `Subset`; `Units`: change of units; `DataFree`;
`Experiment`: random experiments for unbiasedness). `Examples/` has concrete models used to show that
hypotheses can be met, and `Witness/` applies theorems to those models where the file of the theorem does not. `Lemmas/` is proof engineering only.

Not modelled: `logging` (only debug output), the parts of `examples/` not listed above, CMake files,
tests. Rounding error in the linear-algebra code is not modelled (those theorems are over the reals);
memory allocation and performance are not modelled.

Everything is single threaded: the library has no threads, locks, files or sockets.

### Failure model
The default CMake build does not define `NDEBUG`, so `assert` and Eigen's size checks are active.
Each becomes `none` in the model. So does: dereferencing a null measurement model pointer, `back()` of an
empty deque, an out-of-range coefficient, the inverse of a singular matrix.
A theorem that says "the call succeeds" therefore also says that none of these happens.

### De-facto vs. ISO iterators
`rewindHistory` (hpp:281-286) and `pruneHistory` (hpp:436-442) call `pop_back()` on the deque they are
iterating over with a `reverse_iterator`. ISO C++ invalidates the iterator whose base is `end()`;
libstdc++/libc++ keep working because decrementing the stale iterator only walks node pointers. The model
follows the implementations (base index `k`, element `k-1`), and C13 proves that in this reading every
access is in range. That the code relies on it is a finding (§4).

## 2. Trusted base
* Lean 4.33.0's kernel; Mathlib's definitions (matrices, `PosSemidef`, reals, `HasFDerivAt`, ...).
* Axioms: at most `propext`, `Classical.choice`, `Quot.sound` (`#print axioms` on any property theorem).
  No axiom of our own, no `native_decide`, no `bv_decide`. Concrete double-precision witnesses are evaluated
  by the kernel itself (`decide +kernel`): refutations and examples only, never a universally quantified claim.
* The transcription from C++ to the model (cited in comments).
* Parameters with assumed behaviour, always explicit hypotheses of the theorem: `std::sort` returns *some*
  sorted permutation; `llt().matrixL()` returns a factor of a PD matrix; the symmetric eigen solver returns
  orthonormal eigenvectors with ascending eigenvalues; user callbacks (models) are the `Plant` fields and are
  arbitrary unless a hypothesis says otherwise.

## 3. Plan per property
(Status is kept in MANIFEST.json. "refuted" = the unchanged code violates the English claim: the negation is
proved with a concrete witness, and the largest true part is proved with suffix `_partial`.)

| Id | Modelled by | Proof |
|---|---|---|
| C01 | `predictTime` | unfold; every component equal (whole filter equality), for any time type incl. NaN |
| C02 | `predictControl`, `correct` | same |
| C03 | + `ExactTime` | case split on stationarity; time field only |
| C04 | trace of API ops, `LawfulTime`/`ExactTime` | invariant: history sorted, below current time; induction on op list |
| C05 | all ops | frame lemmas |
| C06 | `processQueues` with arbitrary sorting function | induction over the sorted list, history-insensitivity of the estimate |
| C07 | same | uniqueness of the sorted permutation for distinct timestamps |
| C08 | `predictControl`/`correct` with rewind | case analysis of `rewindHistory` |
| C09, C10 | op traces, "history is the run of the retained inputs" invariant | refinement to `foldlM` over the sorted inputs; C10 refuted by witness, `_partial` for histories without explicit controls or with one constant control |
| C11, C12 | `revertToState` | loop specification on sorted history |
| C13 | index-level loops return `none` on a bad access | loop invariant, arbitrary history |
| C14 | `pruneHistory` | refuted by witness; `_partial`: exactly what pruning does |
| C15 | `pruneHistory` | loop invariant |
| C16 | `initialize` vs constructor | refuted by witness (remembered control leaks); `_partial` |
| C17 | ghost-tagged inputs / invariant over reachable states | induction over ops |
| C18-C20 | `applyControlInput`/`applyMeasurementInput` | case analysis; C19 `_partial` for models ignoring `dt` |
| C21 | two filters with different params | simulation relation, induction over ops |
| C22, C23, C24 | `processQueues`, `applyControlInput` | refuted by witness + true parts |
| C25 | `rewindHistory`+`applyBatchInputs` | from the trace invariant |
| C26-C33 | KF/EKF plants over ℝ | Mathlib PosSemidef calculus, generic state-invariant theorem over op traces |
| C34-C38 | UKF | weight sums; sum-of-outer-products identities; Schur complement |
| C39-C45 | VS filters, subset utilities, index normalisation | index-map lemmas; refutations by witness |
| C46-C49 | angle utilities | floor arithmetic over ℝ; `Complex.arg` |
| C50, C51 | state algebra | norms in `EuclideanSpace`-free coordinates; refutation by witness |
| C52-C54 | integration, SixDRates | quaternion identities with sin/cos; Minkowski/Cauchy inequality |
| C55, C56, C61 | measurement/system models | `HasFDerivAt`/componentwise `HasDerivAt`; refutations |
| C57-C60 | transformation utilities | `ring`/`nlinarith` on coordinates |
| C62, C63 | eigen solver as specified parameter | quadratic form arguments; refutation by witness |
| C64 | rounded clock | Sterbenz-type `_partial`, refutation by witness |
| C65 | NaN clock | refutation by witness, `_partial` without rewind |
| C66 | state algebra | coordinates; refutation by witness for six_d_rates |
| C67 | UKFVS | refutations by witness (stale sigma parameters), `_partial` after `setSigmaPointParameters` |
| C68 | UKF | the complete equations against `Spec/Sigma` |
| C69 | EKF + SixDRates + sensors, every trace | state invariant `‖gravity‖ = 9.8062` through `PlantInv` |
| C70, C71 | double `constrainAngle`, `angleDifference` | rounding lemmas on the grid of 2⁻ᵏ multiples; non-termination by partial correctness of the loop |
| C72 | KF/EKF, every trace | relational simulation (`PlantRel`) between the filter and the filter in the other units |
| C73 | KF, every trace | relational simulation, two data sequences |
| C74 | KF runs on random experiments | induction over the run; error covariance recursion = filter covariance recursion |
| C75, C76 | `SixDRates::updateCovariance`, flags | block formulas; refutation by an invariant over every run |
| C77 | KF | information form, `(I+PM)⁻¹` invariant, block matrices |
| C78 | all six filters, every trace | `PlantInv` with the frame invariant |
| C79 | subset functions with `UInt16` counters (`Model/Subset16.lean`) | loops = loops over ℕ below the wrap-around; non-termination by partial correctness |
| C80, C81 | `loadCsvFields`, `writeToFile` | induction over lines and fields; decimal digits of ⌊10⁶x⌉ |
| C82 | `examples/six_d_rates_example.cpp` as a whole (`Model/Example.lean`) | invariant of the filter through the loop (`PlantInv`), C80/C81 for the files |
| C83 | the same | induction over the readings: state and speed variance in closed form |
| C85 | `FilterBase`, any plant, real clock | relational simulation between two clocks (`TimeEmb`), C17 for the constructor |
| C84 | the same | evaluation of the (fixed) list of names by the kernel |
| C86 | KF, every trace | relational simulation (`PlantRel`), Loewner monotonicity of predict and update |
| C87 | KF, in-order runs (`Spec/History.lean`) | completion of the square with singular covariances, induction over the run |
| C88 | KF, in-order runs | induction over the run; the gains do not depend on the data |
| C89 | KF, in-order runs in a random world (`Spec/World.lean`) | orthogonality of the error to the data, induction over the world |
| C90 | KF with one state in double precision (`Model/FloatKF.lean`), every trace | rounding of a product with a rounded reciprocal; refuted for general sensors by a witness evaluated by the kernel, `_partial` for C = ±2ᵏ |
| C91 | UKF with Eigen's own factorisation algorithm (`Model/Llt.lean`) instead of an assumed one | every positive definite matrix, and every matrix whose exactly known components come last, is factored correctly (induction on size by Schur complement, loop invariant); `_refuted` when a known component comes first: variance 4 becomes 0.000032 |
| C92 | `Plant.metered` (Spec/Meter.lean): the same callbacks with a counter that every run of the filter equations increments; `C92_metering_changes_nothing` shows it is only a counter | per-call bound `Filter.workBound` by following the loops; whole histories by a potential (work + queue length, remembered + queued ≤ N + 1) |
| C93 | `Fleet` (Spec/Sharing.lean): several filters whose environments have a common part, copied in and out around each call | KF, EKF, UKF: relational simulation of each filter with its private twin, the relation being kept by the other filters' calls; full for common sensors, `_partial` for a common system model that the user does not change, `_refuted` otherwise |
| C94 | `Reading`, `Combination` (Spec/Readings.lean): linear combinations of readings, what they estimate and their variance | completion of the square per reading, induction over the list; the same closed form gives C32 for any number of readings in any order |
| C95 | `SysClass.Holds`, `EstimateUpTo` (Spec/Ceiling.lean) | every-trace invariant (`PlantInv`): Loewner monotonicity of the prediction, C28 for the correction |
| C96 | `junk` parameter of `ukfPlant`, `ukfvsPlant`; `FitsStates`, `FitsActive`, `SameResult` (Spec/Memory.lean) | loop invariant "columns written so far agree", two-run simulation (`PlantSim`) over every trace; counterexample from C67 |
| C97 | `Sys.scaled`, `Meas.scaled`, `BlindToNoise`, `Homogeneous`, `ScaledCall`, `ScaledResult` (Spec/Scale.lean) | each predict/correct commutes with scaling (inverse of `l S` is `S⁻¹/l`, so the gain is unchanged); two-run simulation (`PlantRel.run`) over every trace |
| C98 | `Sides`, `AgreeOn`, `ApartMat`, `KeepsApart`, `ApartCall` (Spec/Apart.lean) | products, sums and inverses of matrices that keep the sides apart do, and their part on the common side depends only on the common parts; totality from C26; two-run simulation (`PlantRel.run`) over every trace |
| C99 | `Units` as in C72, `Units.LowerPos` (Spec/Units.lean), `UkfEnvIn`; Eigen's own algorithm `eigenLlt` (Model/Llt.lean) | `lltLower` is the only lower triangular factor with positive diagonal, hence commutes with `T`; the sigma point loops column by column; totality from C36/C37; two-run simulation (`PlantRel.run`). Order: a two-state quartic model predicted as 312.5 or 168.5 |
| C100 | Model/NaNData: the Kalman filter on vectors whose entries are reals or IEEE NaN (`kfPlantN`); Spec/Fed: calls that only feed data | (a) invariant over every trace; (b) relational induction against `kfPlant`; the refutations by the `Taint` invariant of Lemmas/Taint: through rewinding and replay the state is NaN exactly when an input that counts is |
| C101 | Spec/Forget: the same calls up to a factor of the initial covariance, events that bring in enough noise (`Event.Stirs`) | never grows: C86 against the run with all covariances times l, which C97 computes; rates: induction over the recorded events with the Joseph form |
| C102 | Spec/Forget, Spec/History: histories of events; `cycles k cyc` | monotone sequences from 0 and from the ceiling squeeze every run (post_mono, the rate of Lemmas/Settle); completeness of the reals gives the limit; it is fixed because its image is squeezed too |
| C103 | Model/FloatKF2: two states, one control, scalar sensors, every operation rounded with the `roundDouble` of Model/Float | rounded products with 0 and 1 are exact, so the first component computes like the one-state filter of C90; counterexamples evaluated by the kernel on the filter's public API |
| C104 | Spec/Motion: the motion as solution of R' = R [w]x, v' = R a, p' = R v, not as a formula | the solution is unique; in the plane perpendicular to w everything is a complex number, the error is the factor (2 + cos x)/3 - sin(x)/x |
| C105 | Spec/Motion: the motion seen on board, v' = a - w x v, g' = -w x g (`seen_from_body`: the same motion as in C104); every state has one (`motion_exists`) | closed form of the motion; turning by w and by -w differ by twice the sine; two concrete motions |
| C106 | `ArrivalOrderFree` states both halves over plain calls; `Memoryless` of C09/C10 is proved for each filter class instead of assumed | the simulation lemmas of C93 (a call does not depend on cached results); totality from C69 for the six-D filter |
| C107 | Spec/LinearUse: the user's matrices, model classes and objects; `story` lists what the readings say in time order | C106 turns the arrival order into time order, the in-order run is `Recorded`, then C87 and C89 |
| C108 | `Asked ops ops'` (Spec/Asking.lean) inserts questions before measurements and predictions; relational induction over the calls with the invariant "the other filter has gone on to time s"; composition of predictions is a hypothesis on the models (`SplitsTime`), proved for linear models in continuous time (`LinearUse.Flows`) | `C108_kf_partial`, `C108_ekf_partial`, `C108_linear_partial`, `C108_linear_in_order_partial`, `C108_question_before_control`, `C108_control_refuted`, `C108_noise_refuted`, `C108_six_d_refuted`, `C108_six_d_steps` |
| C109 | the UKF prediction on the `SixDRates` object, sigma point by sigma point (Lemmas/SixDUKF.lean); triangle inequality for the rescaled points; invariant induction over all calls for the bound | `C109_at_rest_refuted`, `C109_bounded_partial`, `C109_correct_partial` |
| C110 | `Trial rel` (Spec/Mismatch.lean): the random experiment of C74 with told and actual covariances compared by `rel`; induction over the calls, Joseph form of the correction | `C110_overstated`, `C110_understated`, `C110_same_reading_twice` |
| C111 | `Ledger` (Spec/Ledger.lean): what a user would write down; invariant: the filter holds the run, in time order, of the booked inputs, and the queues hold the waiting ones (`Booked`, Lemmas/Ledger.lean) | `C111_books_decide`, `C111_kf`, `C111_kf_vs`, `C111_ekf`, `C111_ekf_vs`, `C111_ukf`, `C111_ukf_vs` |
| C112 | closed form of the state after any list of corrections (`sequential`, Props/Stacked.lean), matrix inversion lemma; `MergerOf` is the specification of the merged reading | `C112_information`, `C112_merge` |
| C113 | in order: simulation between the run with and without the changes (`ModeSim` of C21); the loss: both filters remember the same states and the same last input, so the rewind and replay coincide (memoryless models) | `C113_switching_in_order`, `C113_gap_lost`; refutation `C113_switching_late_refuted` |
| C114 | simulation: the longer filter remembers the states of the shorter one preceded by older ones (`Longer`), all or nothing pruning of sorted histories, rewinds reach the same state; `CanPlace` in the property file is the specification | `C114_longer_window` |
| C115 | invariant: the time stamps remembered are a permutation of t0 and the time stamps in the user's books (`Ledger`, `Ledger.Unbroken` in Spec/Ledger.lean); then C114 for longer windows and C111 with a window chosen long enough for the finitely many calls | `C115_nothing_lost`, `C115_as_longer_window`, `C115_books_decide`, `C115_kf/_kf_vs/_ekf/_ekf_vs/_ukf/_ukf_vs` |
| C116 | the correction is a chain of partial operations in which the reading occurs once; `LinOpt`/`AffineIn` (linear partial functions of vectors, including the subset and expansion loops) are closed under composition; the statement `RespondsLinearly` mentions only the API | `C116_kf/_ekf/_ukf/_kf_vs/_ekf_vs/_ukf_vs`, `C31_ekf_expected_measurement` |
| C117 | `correct_step_some` (correct = one step of the class on what predict(t) reports), `inv_fades` ((M + r R0)^-1 tends to 0, continuity of the matrix inverse), entrywise transfer through the subset operations; statement `Fades` (Spec/Vague) mentions only the API | `C117_kf/_ekf/_ukf/_kf_vs/_ekf_vs/_ukf_vs` |
| C118 | `Model/Setters.lean`: the calls as a datatype, `foldlM` over the real setters; induction on the call list from the end; then `kf_predict_now`/`kf_correct_now` | `C118_system`, `C118_system_checked`, `C118_measurement`, `C118_measurement_checked`, `C118_kf_predict`, `C118_kf_correct` |
| C119 | `Recorded` (C87's record of calls) reduces the API to the Kalman recursion; each step is continuous (matrix inverse continuous where the innovation covariance is invertible, which positive definiteness gives); induction over the events composes the margins | `C119_continuous` |
| C120 | `kf_correct_at` etc. (correct at t = one step on what predict(t) reports), `gain_trusts` (C K(r) tends to I by continuity of the inverse at C P C'); statement `Believed` (Spec/Vague) mentions only the API. Also adds C31 for the EKF | `C120_kf/_ekf/_kf_vs/_ekf_vs` |
| C121 | `Model/Messages.lean` models the functions that write to std::cerr once more with their messages; erasing the messages gives the model of FilterBase (`C121_output_only`), case analysis of rewindHistory on reachable filters gives the rest. False of queued inputs and with rewinding off: these are dropped silently | `C121_output_only`, `C121_otherwise_silent`, `C121_message_iff_refused_partial`, `C121_refuted_without_rewind`, `C121_refuted_queue` |
| C122 | `Spec/Doubt.lean` (`KeepsDoubt`); a correction multiplies the covariance by an invertible matrix (`shrink_mul`), a prediction adds quadratic forms of which one is positive in every direction; the invariant is carried through every history by the plant invariants of C29/C42 | `C122_kf`, `C122_ekf`, `C122_kf_vs`, `C122_ekf_vs`, `C122_kf_sharp`, `C122_ekf_sharp` |
| C123 | `Spec/WorstCase.lean`: `WithinSigmas`, true courses `Happened`, `Exactly`, `BoundedErrors` over the recorded histories of C87. Total error from the optimality of C87 and Cauchy-Schwarz; fading by induction over the history with the Joseph form and the noise condition of C101 | `C123_total_error`, `C123_errors_fade`, `C123_exact_data`, `C123_bounded_errors` |
| C124 | `Spec/Part.lean`: parts of vectors, matrices, models and calls. A simulation (`PlantRel`) between the two plants: each step of the variable-state filter, written with submatrices, restricts to the step of the plain one; lifted over all calls | `C124_kfvs`, `C124_ekfvs`, `C124_ukfvs` (sigma points: joint induction over both loops, `Lemmas/PartUKF.lean`) |
| C125 | `Spec/Fewer.lean`: histories with measurements left out. Loewner monotonicity of the recursion (`post_mono`, `post_le`); for calls, a belief that lags behind, carried on by the flow of the models, stays at most as certain | `C125_fewer`, `C125_in_order`, `C125_late`; limits: `C125_noise_per_call`, `C125_ekf_needs_linear` |
| C126 | `Spec/Axes.lean`: `turnEach`, `Iso.inAxes`. Equivariance of RK4, the delta quaternion, `G`, `P`, `h`, `H` and the rescaling of gravity under rotations; then a relation of the two EKF runs (`PlantRel`) | `C126_body_axes`, `C126_setup`, `C126_move`, `C126_process_noise`, `C126_isotropic` |
| C127 | `Spec/Innovation.lean`: `Innovation`, `Logged` (an `Experiment` whose innovations are written down). Induction over the history: every innovation is in the span of the noises so far, the current error is orthogonal to all of them (`K S = P Cᵀ`) | `C127_innovations_are_white`, `C127_normalised_squares` |
| C128 | `Spec/History.lean`: `Explains`, `Misfit` (as C87). The exact cost of every explanation, by induction over the events | `C128_misfit_is_sum_of_innovations` |
| C129 | `Spec/Turns.lean`: `Vec`, `SysClassOk`, `MeasClassOk`, `Call`, `SameOutcome`. Relation between two runs (PlantRel), callback by callback; a walker with a compass as example | `C129_ekf`, `C129_ukf`, `C129_planar_add`, `C129_planar_sub`, `C129_difference`, `C129_planar_wsum`, `C129_planar_class`, `C129_planar_averages`; `C129_opposite`: the exception is needed |
| C130 | `Spec/Quadratic.lean`: `quadratic`, `SysQuadratic`, `MeasQuadratic`, `HasMoments`, `NotSkewed`, `NormalTails`, `covMat` with Mathlib's integral and covariance. Expansion of a quadratic function about the mean on the sigma points and under the integral, on top of C36/C37 | `C130_predict_mean`, `C130_predict_covariance`, `C130_correct_mean`, `C130_correct_exact`, `C130_honest`; `C130_beside_ekf`: the EKF predicts g(mean) instead |
| C131 | `Spec/Follows.lean`: `Follows` (the EKF together with a true state that obeys the models approximately), `TrackLimits`, `SysBends`, `MeasBends`, `len`. Lyapunov argument: the distance in reported standard deviations contracts at every motion (noise bounded below, covariance bounded above) and the linearisation errors are quadratic in it | `C131_ekf_follows`, `C131_ekf_converges`; `quad_follows`: a concrete quadratic model meets the hypotheses |
| C132 | `Spec/Observed.lean`: `Shows` (reconstructibility from the readings), `Stirred` (the noise reaches every state), independent of the filter. Upper bound: for every direction, a linear estimator made of the readings alone (duality with the Gram matrix of the readings). Contraction: the covariance map of a stretch is monotone and concave, and its values lie between a floor and a ceiling, hence a Birkhoff-type contraction in the factor between two covariances. Convergence of the estimate: what is left of the initial uncertainty is at most the difference of two such covariances | `C132_bounded`, `C132_needed`, `C132_settles`, `C132_follows`; witness: constant-velocity cart with a position sensor (`noisyCart`, `twoLooks`) |
| C133 | `Spec/Roughly.lean`: `Roughly` (a true state that obeys the models up to bounded errors). The error is split into the initial error and the contributions of each cycle; each contribution is bounded (the gain is bounded when the covariance is) and decays by the contraction of C132 | `C133_bounded_errors`; witness: the cart of C132 with every motion off by 1 and every reading off by 1/2 |
| C134 | `Spec/Bias.lean`: `SysIs`, `BendsAt`, `TwistsAt`; random states by their moments (`HasMoments`). The mean of the remainder is bounded by the mean of the squared distance, i.e. the trace; the sigma points' squared distances add up to the trace as well | `C134_ekf_predict`, `C134_ukf_predict`, `C134_ukf_third_order`, `C134_attained`; witnesses: `g = x + x^2 + u` (bound attained by the EKF), `g = x^3` |
| C135 | `Spec/Bias.lean`: `MeasIs`, `BendsAt`. The correction is affine in the measurement with one gain; its mean is the gain times the bias of the predicted measurement (as in C134) | `C135_ekf_correct`, `C135_ukf_correct`; witness: `h = x^2` with the noisy sensor of C130 |
| C136 | `WithinSigmas` (C123). The move is `G dz` and `P - P' = G S G^T`; Cauchy-Schwarz in the metric of `S` | `C136_kf`, `C136_ekf`, `C136_ukf`; witnesses: a cart's position, `h = x^2` |
| C137 | Completing the square with the information form of the correction | `C137_gauss_newton`; witness: `h = x^2` |
| C138 | Sylvester's determinant identity; monotonicity of the determinant by eigenvalues | `C138_kf`, `C138_ekf`; witnesses: a cart's position, `h = x^2` |
| C139 | `SysIs`, `len` (C134). Expansion of the sigma point sums around the estimate, the columns of the factor having total squared length `c v` | `C139_ukf_agrees_with_ekf`; witness: `g = x + x^2 + u` |
| C140 | `Reading` lists (C94); closed form of any number of corrections in information form | `C140_affine_partial` (witness: a sensor with an offset next to `g = x + x^2 + u`); `C140_order_refuted`: `h = x^2`, readings 1 and 6 give 19/9 or 75/41 |
| C141 | two runs of the model (EKF, UKF, every call of the API) with offset initial states and readings; the classes SixDRates, SixDRatesOdom, SixDRatesImu as instance | a relation between the two filters preserved by every call (`PlantRel`); sigma point columns not yet written are uninitialised and handled as in C129; the weights of the means sum to one; for the 6-D classes, biases are touched neither by the gravity rescaling nor by the Jacobians |
| C142 | the ledger of C111 without the condition that all time stamps differ; two arbitrary sorts; KF, EKF and UKF plants | the history is a pure function of the sorted inputs (C23); two equal-time readings commute (information form, C140); a sorted list is rearranged into another by swaps of equal-time readings, keeping covariances positive semidefinite |
| C143 | one correct() of the EKF and of the UKF after initialize(x, eps P) | sigma point cross covariance and innovation covariance to leading order (as C139), both innovation covariances are at least R so their inverses are bounded by the inverse of R, perturbation of the gain |
| C144 | EKF over SixDRates with any sensors blind to the biases, instantiated with SixDRatesOdom | invariant of estimate and models: bias rows and columns of G are those of the identity, bias rows of P are zero, bias columns of H are zero, hence bias rows of the gain are zero |
| C145 | filter base with `construct` and the six filter classes; "configured alike" is `SameSetup` (C24, C111) | C114's simulation between the old filter and the one with no history, one simulation (`freshSim`) between model objects that calls cannot tell apart, C16's simulation for the covariance remembered with an empty control; an explicit control does not read the one in use |
| C146 | KF and EKF over the filter base; the models' `myUpdate` is any function that conserves `L x` (`LinConserves`, `NonlinConserves`) | invariant of the filter run: `L x` is the initial value and `L C = 0`; a positive semidefinite `C` with `L C L' = 0` has `L C = 0`, so the gain does not act on `L x`; two tanks with a known total as example |
| C147 | KF and EKF over the filter base; the models' `myUpdate` is any function with `A U = U` and `C U = 0` (`LinKeepsDir`, `LinBlind`, and for the EKF) | invariant of the filter run: `C - U S U'` stays positive semidefinite, by the Joseph form with `(1 - G H) U = U`; two vehicles with a range sensor as example |
| C148 | UKF and EKF, `predict(u, t)` and `correct` on the filter object; `AffinePart` and `AffineSensor` speak about what `update` reports at every state | the weights sum to 1 and the sigma points are symmetric, so affine images have exactly the transformed mean and covariance; C36 and C37 for what the filter computes; the two rooms and a thermometer as example |
| C149 | UKF and EKF, `predict(u, t)` on the filter object; `SysIs` speaks about what `update` reports at every state; the random state is any integrable random vector of a probability space | the weighted mean is the centre image plus a non-negative multiple of the second differences over symmetric pairs, non-negative for convex functions; Mathlib's Jensen inequality; C27 and C36 for what the filters compute; x + x² as example |
| C150 | UKF and EKF, `predict(u, t)` on the filter object; `SysIs` speaks about what `update` reports at every state; `OddAbout`, `SymmetricAbout` (S and 2x - S have the same distribution) | both inequalities of C149 for the pairs of sigma points; the integral of φ(S) equals that of φ(2x - S); C27 and C36 for what the filters compute; x + (x - 1)³ at 1 as example |
| C151 | UKF and EKF, `correct` on the filter object; `MeasIs` speaks about what `update` reports at every state; `EvenAbout`, `OddAbout`, `SymmetricAbout` | opposite sigma points have the same image, so their cross covariance is zero and so is the gain; for odd sensors the predicted measurement is the one at the estimate; the derivative of an even function is zero; C37, C28 for what the filter computes; x² and x³ at 0 as examples |
| C152 | EKF and UKF, `predict(u, t)` on the filter object; `SysIs` speaks about what `update` reports at every state | the EKF predicts an image; the UKF's weights are non-negative and sum to 1 when `alpha² (n + kappa) ≥ n`; for the default parameters the claim is false: for `1 / (1 + x²)` at 0 with variance 4/3 the UKF predicts about -1/3 |
| C153 | KF and EKF over the filter base; a symmetry is a `Units` whose `SysClassIn`, `MeasClassIn` and `EnvIn` relate the models to themselves; `OwnImage` | C72 with the same models on both sides; `OwnImage` is being related to oneself; two equal rooms (exchange) and a cubic spring with a cubic gauge (left and right) as examples |
| C154 | UKF and EKF, `correct` on the filter object; `MeasIs` speaks about what `update` reports at every state | both corrections use the same sigma points and images, so the covariances are `P - D S⁻¹ D'` with `S ≤ S'`, and inversion turns the order around; C37, C28 and C86's lemma for the EKF; x² at 1, read as 5 ± 1 or as 2 ± √3, as example |
| C155 | UKF, `predict(u, t)` and `correct(z, R, t, type)` of two filter objects with the same models; `SysIs`, `MeasIs` speak about what `update` reports at every state | the sigma points of the mirrored estimate are the mirrored ones with the two sides exchanged; weighted means change sign and products stay; the noise Jacobians are those of the last point, which is on the other side after mirroring, so with noise that depends on the state the covariances differ |

No property was found that an executable model cannot express at all.

## 4. Findings

Behaviour of the unchanged code that contradicts what a user would rely on. Each is proved in the model
(theorem names in MANIFEST.json, property in brackets), except where marked (reading only).

Filter base
* Rewinding and `revertToState` restore state, covariance and time but not the remembered control, and neither does
  `initialize`: a late measurement is reached with a control from its future, and a re-initialized filter predicts
  with the control of its previous life [C10, C11, C16].
* `pruneHistory` walks from the newest entry and stops at once, so nothing is pruned in normal operation and the
  history grows without bound; a batch prunes once at its end [C14].
* A measurement or a `predict(t)` puts the old control covariance back over one the user has just set [C24].
* Filters sharing a system model interfere: `predict(t)` on one puts the control covariance of its own last control back over
  the one the user has set for the other [C93].
* `processQueues` can apply an input to a newer state: with rewinding off past inputs are applied anyway with negative
  `dt`; with rewinding on an input stamped exactly like the oldest history entry escapes `pruneQueue` but cannot be
  rewound to [C22]. Equal time stamps are ordered by an unstable sort [C23].
* A future measurement is not the same as `predict(t)` followed by `correct`: the stationary predicate sees another
  control and the correction another `dt` [C19].
* Switching `rewind_history` off and on again drops the inputs in between from a later replay [C17/C21 discussion].
* `timestamp = timestamp + (t - timestamp)` rounds: from 0.7 an input stamped 2.9 leaves the clock at
  2.9000000000000004, a second input with the same stamp is then "from the past"; with rewinding the clock can go
  back by one ulp [C64].
* A NaN stamp is accepted with rewinding or through the queues and the clock stays NaN for ever (and `std::sort`
  with such a comparison is undefined behaviour) [C65].
* `uint16_t` loop counters over containers: lists with 65536 or more entries loop for ever [C79].
* `reverse_iterator` used after `pop_back()`: formally undefined (reading only; see "De-facto vs. ISO iterators").

Kalman filter
* In double precision the form `(I - K C) P` can produce a negative variance: one state, variance 5·2⁶⁰, a sensor
  reading seven times the state with variance 1, all exact doubles, give a variance of -1280 [C90].
- The UKF never checks `llt().info()`: with an exactly known component that is not last, the sigma points are taken from the
  half-finished work matrix; a variance of 4 becomes 0.000032 in one prediction without any measurement [C91].

Variable-state filters
* An index list with only invalid indices activates everything; duplicates are kept and make `KalmanFilterVS`
  overconfident (variance `1/(N²+1)`) [C45].
* `KalmanFilterVS::predict` zeroes inactive states, `EKFVS::predict` overwrites them [C40]; the full covariance can lose
  positive semidefiniteness [C42].
* `UKFVS` keeps the sigma parameters of the old number of active states after `setActiveStates` [C67].
* **The order of the states matters to a UKF.** The sigma points are the columns of the lower Cholesky factor, so listing correlated states in another order gives other sigma points; for the model `(x0^4, x1)` and one and the same prior the predicted mean is 312.5 or 168.5 (`C99_order_matters`). KF and EKF do not depend on the order (C72).
* **One NaN measurement destroys the estimate for good** (`C100_refuted_poisons`, `C100_refuted_never_recovers`): there is no test for NaN anywhere, every entry of the state becomes NaN, and only `initialize` or `revertToState` helps. A NaN control is worse: `initialize` keeps the last control (hpp:26-40), so the first `predict(t)` after a reset makes the new state NaN (`C100_refuted_control`).
* **In double precision the covariance loses symmetry at once, and variances can become negative** (`C103_refuted_symmetry`, `C103_refuted_prediction`, `C103_refuted_variance`): the update is `(I - K C) P` (kalman_filter.cpp:50) rather than the Joseph form, and nothing symmetrises the result. One measurement of variance 1 turns 2^60 [45 -30; -30 20] into a covariance with the variance -4096 on its diagonal.
* **`SixDRates` turns gravity the wrong way and does not turn the velocity** (`C105_refuted_gravity`, `C105_refuted_quarter_turn`, `C105_refuted_velocity`): six_d_rates.cpp:37 applies `q_delta` where a vector fixed in space, seen from a body that turns with the gyroscope rate `w`, turns with the inverse of `q_delta`. The predicted gravity is off by twice the true turn; not turning it at all would be more accurate. Velocity (lines 30-34) is left in the frame of the body before the step, so that driving in a circle at constant speed predicts a changing velocity.
* **A question changes the answer (C108).** `predict(t)` moves the filter. For models that describe time properly (`A`, `B` and the noise compose) and for questions before measurements this does no harm (proved). But (1) a control applies to the time *before* its time stamp, back to the last input, so a question before a control takes part of its time away: speed 1 commanded at time 2 moves a cart by 2, or by 1 if the filter was asked at time 1; (2) models whose noise does not depend on the time step count questions instead of time; (3) `SixDRates` itself adds variance in proportion to the square of the time step: asked n times over T, the variance of the acceleration grows by q T²/n, so the more often the filter is asked the more certain it says it is.
* **A UKF on SixDRates predicts 35 times the gravity (C109).** `weightedSumOfStates` rescales the gravity of each *weighted* sigma point to 9.8062 before summing, so the weights lose their size: 36 points count +1 each and the centre point −1 (its weight is negative by default). One `predict(t)` of a body at rest turns |g| = 9.8062 into 34 to 36 times that. `subtractState` rescales differences too, so a gravity known to millimetres per second squared gets a variance sum of at least 384. What holds: gravity never exceeds 37 × 9.8062 in any history, and a correction brings it back to 9.8062 (or zero). The EKF is not affected (C69).
* **Switching rewinding off and on again loses data** (C113): history from before the switch is kept although the inputs given while it was off are not recorded; the next late input rewinds past the gap and replays only what was recorded.
* **The noise Jacobians have no setter and start at zero** (system_model.cpp 6-15): a linear model whose user only calls `setA`, `setB`, `setProcessCovariance`, `setControlCovariance` predicts as if both noises were zero, unless the user's `myUpdate` writes `P_` and `V_` (C118); and `setCovariance` on a measurement model has no effect on filtering, since `correct` overwrites it with its own argument.
* **Silent losses** (`C121_refuted_queue`, `C121_refuted_without_rewind`): a direct `correct`/`predict(u,t)` that is too old is reported on std::cerr, the same input given through a queue is dropped by `pruneQueue` without any message, and so are all late inputs with `rewind_history` off.
* **A variable-state filter knows nothing of what an inactive state would do to an active one.** With position and velocity and the position alone active, `KalmanFilterVS` is exactly a filter of a position that does not move by itself (C124 with `creepClass`): the velocity held in the state is not used, and the coupling through it is dropped, however large its variance.
* **A measurement can make things worse.** With a noise matrix that does not depend on the time step, every measurement costs a whole prediction's noise: a value known exactly, measured once with variance 9, is reported with variance 1.9 at time 2, without the measurement with 1 (`C125_noise_per_call`). An EKF can be driven by one very uncertain reading to a point where its sensor seems blind and then report more than three times the variance it has without that reading (`C125_ekf_needs_linear`).
* **The difference of exactly opposite headings depends on full turns** (C129): `angleDifference(pi, 0)` is -pi but `angleDifference(-pi, 0)` is pi although pi and -pi are the same heading.
* **Simultaneous measurements: order matters to the EKF** (C140). With `h = x^2`, estimate 1 and unit variances, the readings 1 then 6 give 19/9, 6 then 1 give 75/41. Since the queues are sorted by time stamp with an unstable sort (C23), the estimate after `processQueues()` depends on the standard library.
* **The control in use cannot be saved** (C145): a filter rebuilt from its getters goes on like the old one except that it
  forgets the control the old one keeps applying; there is no getter or setter for it.
* **With its default parameters the UKF leaves bounds that the model respects** (`C152_defaults_refuted`): the weight of the central point is about minus a million, and a model all of whose predictions are positive, `1 / (1 + x²)`, is predicted as -1/3.  With `setSigmaPointParameters(1)` this cannot happen.
* **A UKF with noise that depends on the state does not treat left and right alike** (`C155_refuted`): the noise Jacobians are those of the last sigma point, `x` minus the last column of the factor.  For `g(x) = x` with process noise Jacobian `x`, the predicted covariances at 1 and at -1 differ.
* The UKF uses the noise Jacobians left by the last sigma point [C38].

Geometry and six-D model
* Velocity transform uses the lever arm `Rᵀt`, the acceleration transform `t` [C58].
* `orientationFromGravityVector` divides by zero for gravity exactly along +z [C60].
* The covariance ellipse uses eigenvalues where it needs square roots [C63].
* `constrainAngle` does not return for doubles beyond 2⁵⁶ [C70].
* six_d_rates `subtractStates`/`weightedSumOfStates` rescale gravity to 9.8062, so differences and means of states (what
  a UKF needs) are wrong [C51, C66].
* `SixDRates::G()` is not the derivative of `g()`: the gravity block and the second-order term of the gravity/rate
  block differ, the velocity/rate block is zero; rates up to 1e-9 are ignored by `g()` [C55].
* `SixDRates` process noise: the noises documented as bias noises act on velocity, acceleration and rate; bias rows are
  zero, so the variance of a bias never grows; the last gravity term uses `w gᵀ` [C75].
* `setTf(identity)` after another transform leaves `H()` of the old one [C56].

Example program
* The stationary predicate of the system model looks at the state only. As long as the estimated speed is below 0.05 every
  prediction stops the vehicle and skips the process noise, so the gain shrinks like 1/n: a vehicle that accelerates
  steadily from rest (0.04 m/s per reading) is estimated at 0.04 m/s for ever, with a variance tending to zero [C83].
* The names of the covariance columns are ambiguous (`cov_111` is both (1,11) and (11,1)) [C84].
* Two files with a header only: `front()` of an empty vector [C82]. Variances below 5e-7 are written as `0.000000` [C81].
* `1e43` as the initial variance of AY is presumably a typing error for `1e-3` (reading only; modelled as written).

## 5. The project's own tests, run on the model

`Verif/Upstream/*.lean` replays tests of `/repo/test` on the model. They are evidence that the model is
faithful (a test that the C++ passes must pass on the model), not proofs of properties, and no claim of
MANIFEST.json rests on them.

* `Upstream/FilterBase.lean`: all 19 tests of `test/test_filter_base.cpp`, evaluated by the kernel.
* `Upstream/KalmanFilter.lean`: the Kalman-filter tests of `test/utilities/filter_test_utilities.h` and
  `test/test_kalman_filter.cpp`, and the active-state test of `test/test_kalman_filter_vs.cpp`.

* `Upstream/Geometry.lean`: `test/test_transformation_utilities.cpp` (the last three gravity tests are left to C60),
  `test/test_imu_utilities.cpp` (Jacobians: C61), `test/test_integration.cpp` (its circular paths test accuracy at a tolerance and are not replayed),
  `test/test_angle_utilities.cpp` (averages: C49, C62).
* `Upstream/SixD.lean`: `test/test_six_d_rates_{imu,odom}_meas_model.cpp` (Jacobians: C55, C56).

Four tests pass for a reason their authors cannot have meant. The revert test keeps the default window of
one second, yet needs states three seconds old: it passes only because history is not pruned (C14). The
variable-state test `PredictOnlyUpdatesActiveStates` starts at x = 0: from x = (1, 1) the Kalman filter
sets the inactive state to 0 (C40). In `TangentialVelocityAdded` and in
`PredictedMeasurementAccountsForTranslation` the angular rate is parallel to the translation, (11, 22, 33) and
(1, 2, 3), so the cross product they are to test is 0 and they pass without it.
