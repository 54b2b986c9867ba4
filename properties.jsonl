{"id": "C01", "title": "predict(t) to a non-future time is a complete no-op", "statement": "Calling predict(timestamp) with a timestamp that is not strictly later than getStateTime() changes nothing: not the state, covariance, time, queues, retained history, remembered control or the models, so no later call can tell it happened.", "quantifier": "every filter state (any mode, any history, any queue contents), every timestamp, every system/measurement model", "why_tests_cant": "a test checks getState() for one or two timestamps; absence of any latent effect is a claim about all later behaviour", "anchors": ["include/state_estimation/filters/filter_base.hpp: FilterBase::predict(double)"]}
{"id": "C02", "title": "Past inputs are ignored when rewinding is off", "statement": "With rewind_history=false, predict(u,t) with t < getStateTime(), and correct(z,R,t,m) with t < getStateTime() and allow_measurements_in_past=false, leave the whole filter unchanged.", "quantifier": "every filter state, control, measurement, covariance, model and timestamp", "why_tests_cant": "tests use one timestamp just before the state time and look only at the state vector", "anchors": ["include/state_estimation/filters/filter_base.hpp: FilterBase::predict(const VectorXd&, double), FilterBase::correct"]}
{"id": "C03", "title": "Accepted inputs move the clock exactly to the input time", "statement": "After an accepted in-order predict(t)/predict(u,t), getStateTime() is exactly t; after an accepted correct at t it is max(t, previous time); an accepted measurement in the past leaves the time unchanged.", "quantifier": "every filter state, every accepted call, in exact time arithmetic", "why_tests_cant": "the equality must hold for all timestamps and for all interleavings of calls", "anchors": ["include/state_estimation/filters/filter_base.hpp: FilterBase::applyInput, applyMeasurementInput, getStateTime"]}
{"id": "C04", "title": "State time never goes backwards under predict/correct", "statement": "Across any sequence of predict(t), predict(u,t) and correct calls after initialize (with any fixed parameters), getStateTime() never decreases, including when late inputs are rewound and replayed (time stamps computed without rounding; what rounding does is C64).", "quantifier": "every finite sequence of direct calls with arbitrary timestamps, every parameter set, every model", "why_tests_cant": "an inductive property over call histories; replay paths depend on the whole history", "anchors": ["include/state_estimation/filters/filter_base.hpp: FilterBase::predict, correct, rewindHistory, applyBatchInputs"]}
{"id": "C05", "title": "Queues are isolated from the estimate and emptied exactly when documented", "statement": "enqueuControl/enqueuMeasurement change neither the estimate nor the history; predict/correct never change the queues; processQueues, initialize and a successful revertToState leave both queues empty; clearControlQueue/clearMeasurementQueue clear only their own queue.", "quantifier": "every filter state and every call", "why_tests_cant": "frame conditions over all states cannot be sampled", "anchors": ["include/state_estimation/filters/filter_base.hpp: enqueuControl, enqueuMeasurement, processQueues, clearControlQueue, clearMeasurementQueue, initialize, revertToState"]}
{"id": "C06", "title": "processQueues equals applying the queued inputs one at a time in time order", "statement": "When the queued inputs have distinct time stamps, all strictly later than the state, processQueues() produces the same state, covariance, time and remembered control as calling predict(u,t)/correct(z,R,t,m) directly for each queued input in ascending time order. (With equal stamps and rewinding on, the direct calls rewind and the queue does not: the results may differ.)", "quantifier": "every filter state, every pair of queue contents not older than the state, both rewind settings", "why_tests_cant": "tests compare one three-element schedule; the claim is over all queue contents and all orders", "anchors": ["include/state_estimation/filters/filter_base.hpp: processQueues, applyBatchInputs"]}
{"id": "C07", "title": "Enqueue order does not matter", "statement": "If all queued inputs (and the replayed ones, in rewind mode) have pairwise different timestamps, the filter after processQueues() does not depend on the order in which the inputs were enqueued or on how controls and measurements were interleaved, nor on the sorting algorithm.", "quantifier": "every permutation of every queue content with distinct timestamps, both rewind settings", "why_tests_cant": "n! permutations and every model; the sort is unstable so the implementation may choose any sorted order", "anchors": ["include/state_estimation/filters/filter_base.hpp: processQueues (std::sort)"]}
{"id": "C08", "title": "Rewind mode: a late input is accepted iff a strictly older state is retained", "statement": "With rewind_history=true an input older than getStateTime() is processed exactly when its timestamp is strictly later than the oldest retained state; otherwise the call leaves the whole filter unchanged.", "quantifier": "every filter state and history, every late input", "why_tests_cant": "depends on arbitrary history contents", "anchors": ["include/state_estimation/filters/filter_base.hpp: predict, correct, rewindHistory"]}
{"id": "C09", "title": "Out-of-order controls give the in-order result", "statement": "With rewind_history=true, feeding explicit controls predict(u_i,t_i) in any arrival order (all strictly newer than the initial state, none lost from the history) yields the same state, covariance and time as feeding them in ascending time order.", "quantifier": "every finite list of controls, every arrival order, every system model whose prediction depends only on (x, P, u, dt, Rc)", "why_tests_cant": "the unit test swaps two controls; the claim ranges over all permutations of all lists", "anchors": ["include/state_estimation/filters/filter_base.hpp: predict(u,t), rewindHistory, applyBatchInputs"]}
{"id": "C10", "title": "Out-of-order measurements and predictions give the in-order result", "statement": "With rewind_history=true, feeding any mixture of controls, control-free predictions and measurements out of order gives the same estimate as feeding them in order.", "quantifier": "every finite list of mixed inputs, every arrival order", "why_tests_cant": "depends on which control was in effect at each replayed instant, which only mixed late inputs expose", "anchors": ["include/state_estimation/filters/filter_base.hpp: rewindHistory, applyControlInput (prev_control_), applyMeasurementInput"]}
{"id": "C11", "title": "revertToState restores the newest retained state before the timestamp", "statement": "revertToState(t) returns true iff t is later than the current state time or later than the oldest retained state. On true the current state is then the most recent retained state (or the current one) whose time is strictly before t, with exactly the state, covariance and time it had when it was current.", "quantifier": "every time-ordered history, every timestamp", "why_tests_cant": "ranges over all histories; the loop pops while iterating", "anchors": ["include/state_estimation/filters/filter_base.hpp: revertToState, rewindHistory"]}
{"id": "C12", "title": "A failed revertToState changes nothing; a successful one is idempotent", "statement": "If revertToState(t) returns false the filter (including queues) is unchanged. If it returns true, calling revertToState(t) again returns true and changes nothing.", "quantifier": "every filter state, every timestamp", "why_tests_cant": "frame and idempotence claims over all states", "anchors": ["include/state_estimation/filters/filter_base.hpp: revertToState"]}
{"id": "C13", "title": "Rewinding and pruning never read outside the history", "statement": "For every history, even one that is not time ordered, the rewind and prune loops never dereference an element outside the container and never take back() of an empty container.", "quantifier": "every history, every timestamp, every window", "why_tests_cant": "memory safety over all histories; sanitizers only see executed cases", "anchors": ["include/state_estimation/filters/filter_base.hpp: rewindHistory, pruneHistory"]}
{"id": "C14", "title": "History older than the window is discarded", "statement": "After every predict/correct/processQueues in rewind mode the filter retains no state older than getStateTime() - history_window_sec, so its memory use is bounded by the input rate times the window and inputs older than the window are refused.", "quantifier": "every sequence of calls and every window", "why_tests_cant": "an invariant over unbounded runs", "anchors": ["include/state_estimation/filters/filter_base.hpp: pruneHistory; include/state_estimation/filters/filter_base.h: Parameters::history_window_sec"]}
{"id": "C15", "title": "Pruning is safe: it never discards a state inside the window", "statement": "After a call in rewind mode on a time-ordered history, every state whose time is at or after getStateTime() - history_window_sec is still retained, in order.", "quantifier": "every time-ordered history, every window", "why_tests_cant": "ranges over all histories", "anchors": ["include/state_estimation/filters/filter_base.hpp: pruneHistory"]}
{"id": "C16", "title": "initialize() gives a fresh filter", "statement": "After initialize(x,P,t) the filter behaves, for every later sequence of calls, exactly like a newly constructed filter with the same parameters, models and initial values.", "quantifier": "every prior history of calls and every later sequence of calls", "why_tests_cant": "equivalence of all future behaviours after all pasts", "anchors": ["include/state_estimation/filters/filter_base.hpp: initialize, clear; members prev_control_, prev_control_covariance_"]}
{"id": "C17", "title": "Inputs from before initialize() are never replayed", "statement": "After initialize(), rewinding never re-applies an input that was supplied before initialize(), whatever calls follow.", "quantifier": "every sequence of calls before and after initialize, any parameters", "why_tests_cant": "replay of a stale measurement would dereference a possibly dead model pointer; only particular histories could expose it", "anchors": ["include/state_estimation/filters/filter_base.hpp: initialize, rewindHistory; FilterState::prev_input"]}
{"id": "C18", "title": "Stationary inputs skip the filter equations but not the clock", "statement": "When a model has a stationary predicate and it holds, predict/correct run processStationaryInput and makeStationary instead of the prediction/correction equations, and the state time is still advanced; when it does not hold, makeStationary is never run. For a measurement the predicate is evaluated on the state already advanced to the measurement time.", "quantifier": "every predicate, every make-stationary function, every state and input", "why_tests_cant": "quantifies over user supplied functions", "anchors": ["include/state_estimation/filters/filter_base.hpp: applyControlInput, applyMeasurementInput; src/filters/filter_model.cpp"]}
{"id": "C19", "title": "A future measurement is a prediction followed by a correction", "statement": "correct(z,R,t,m) with t later than the state time gives the same estimate as predict(t) followed by correct(z,R,t,m).", "quantifier": "every filter state, measurement and model", "why_tests_cant": "equivalence of two call sequences over all models", "anchors": ["include/state_estimation/filters/filter_base.hpp: applyMeasurementInput, predict(double)"]}
{"id": "C20", "title": "predict(t) reuses the most recent control, or a null control", "statement": "predict(t) propagates with the control most recently applied by predict(u,.) or processQueues and its covariance; if none was ever applied it uses the zero control of the model's control dimension and the model's own control covariance.", "quantifier": "every call history, every model", "why_tests_cant": "the remembered control is a function of the whole call history", "anchors": ["include/state_estimation/filters/filter_base.hpp: applyControlInput, predict(double)"]}
{"id": "C21", "title": "Turning rewind on does not change estimates for in-order data", "statement": "For any sequence of calls whose timestamps never precede the state time, the state, covariance and time are identical with rewind_history true or false and with any history window.", "quantifier": "every in-order sequence, every window, every model", "why_tests_cant": "a relational property of two runs over all sequences", "anchors": ["include/state_estimation/filters/filter_base.hpp: predict, correct, applyInput, pruneHistory"]}
{"id": "C22", "title": "processQueues never applies an input to a newer state", "statement": "processQueues never applies a queued input to a state that is already later than the input (unless allow_measurements_in_past permits it): inputs that can no longer be placed in the history are dropped, so the state time never goes backwards.", "quantifier": "every filter state, every queue content, both rewind settings", "why_tests_cant": "only unusual queue/history alignments expose it", "anchors": ["include/state_estimation/filters/filter_base.hpp: processQueues, pruneQueue, rewindHistory"]}
{"id": "C23", "title": "Inputs with equal timestamps are processed deterministically", "statement": "For queued inputs with equal timestamps the result of processQueues is determined by the library's contract (it does not depend on implementation choices of the sorting algorithm).", "quantifier": "every queue content with ties", "why_tests_cant": "std::sort gives no guarantee; small tests always see the insertion-sort order", "anchors": ["include/state_estimation/filters/filter_base.hpp: processQueues (std::sort)"]}
{"id": "C24", "title": "A control covariance set by the user is used by the next control", "statement": "After setControlCovariance(Rc) on the system model, the next predict(u,t) uses Rc, whatever measurement updates happen in between.", "quantifier": "every sequence of correct/predict(t) calls between the two", "why_tests_cant": "the filter itself writes the model's control covariance while advancing the state", "anchors": ["include/state_estimation/filters/filter_base.hpp: applyControlInput (setControlCovariance), predict; src/system_models/system_model.cpp"]}
{"id": "C25", "title": "Replays use each input's own timestamp, data, covariance and model", "statement": "When a late input triggers a rewind, the inputs re-applied after it are exactly the inputs that had been applied after the restored state, each once, in their original order, with their original data, covariance, timestamp and measurement model.", "quantifier": "every history in which the filter ran in rewind mode, every late input", "why_tests_cant": "loss, duplication or reordering only shows for particular histories", "anchors": ["include/state_estimation/filters/filter_base.hpp: rewindHistory, predict, correct, processQueues; FilterState::prev_input"]}
{"id": "C26", "title": "KF/EKF dimensions are preserved", "statement": "With correctly dimensioned models and inputs, no predict/correct ever trips a size assertion and getState()/getCovariance() keep dimensions n and n x n, for every sequence of calls.", "quantifier": "every state, control, measurement dimension and every call sequence", "why_tests_cant": "must hold for all dimensions and histories", "anchors": ["src/filters/kalman_filter.cpp", "src/filters/ekf.cpp", "src/system_models/system_model.cpp", "src/measurement_models/measurement_model.cpp"]}
{"id": "C27", "title": "Prediction keeps the covariance symmetric positive semidefinite", "statement": "KF and EKF prediction map a symmetric PSD covariance to a symmetric PSD covariance, for PSD process and control noise.", "quantifier": "every dimension, every model matrix, every PSD covariance (exact real arithmetic)", "why_tests_cant": "a statement about all matrices", "anchors": ["src/filters/kalman_filter.cpp: KalmanFilter::myPredict", "src/filters/ekf.cpp: EKF::myPredict"]}
{"id": "C28", "title": "Correction keeps the covariance PSD and never increases it", "statement": "KF and EKF correction map a symmetric PSD covariance P to a symmetric PSD covariance P' with P - P' PSD, whenever the measurement covariance is positive definite.", "quantifier": "every dimension, observation matrix, PSD P, PD R", "why_tests_cant": "a statement about all matrices", "anchors": ["src/filters/kalman_filter.cpp: KalmanFilter::myCorrect", "src/filters/ekf.cpp: EKF::myCorrect"]}
{"id": "C29", "title": "The covariance is PSD after every call sequence", "statement": "Starting from a PSD covariance, after any sequence of API calls (predict, correct, queues, rewinds, reverts, in any order, late or not) that are well dimensioned with PSD/PD noise, getCovariance() is symmetric PSD for KalmanFilter and EKF.", "quantifier": "every finite call sequence, every dimension", "why_tests_cant": "an invariant over unbounded histories including rewinds", "anchors": ["include/state_estimation/filters/filter_base.hpp", "src/filters/kalman_filter.cpp", "src/filters/ekf.cpp"]}
{"id": "C30", "title": "The Kalman gain is optimal", "statement": "For the linear measurement model the posterior covariance returned by correct is a lower bound (Loewner order) for the error covariance (I-LC)P(I-LC)' + LRL' of every linear gain L.", "quantifier": "every gain matrix, every P, C, R with invertible innovation covariance", "why_tests_cant": "quantifies over all alternative gains", "anchors": ["src/filters/kalman_filter.cpp: KalmanFilter::myCorrect"]}
{"id": "C31", "title": "Limit cases of a correction", "statement": "With a directly observed state (C = I): zero measurement covariance makes the state equal to the measurement and the covariance zero; measurement covariance equal to the state covariance halves the covariance and moves the state to the midpoint. For any C the posterior covariance does not depend on z, and a measurement equal to its prediction leaves the state unchanged.", "quantifier": "every dimension, every PD covariance, every measurement", "why_tests_cant": "unit tests check 2x2 identity matrices only", "anchors": ["src/filters/kalman_filter.cpp", "src/filters/ekf.cpp"]}
{"id": "C32", "title": "Simultaneous KF measurements commute", "statement": "Applying two measurements with the same timestamp to a KalmanFilter in either order gives the same state and covariance.", "quantifier": "every PD covariance, every pair of linear measurement models with PD noise", "why_tests_cant": "an algebraic identity over all matrices", "anchors": ["src/filters/kalman_filter.cpp: KalmanFilter::myCorrect"]}
{"id": "C33", "title": "EKF equals KF on linear models", "statement": "On a linear system (g(x,u)=Ax+Bu, G=A) and linear measurement (h(x)=Cx, H=C) with default vector operations, EKF and KalmanFilter produce identical states and covariances for every call sequence.", "quantifier": "every linear model, every call sequence", "why_tests_cant": "relational property over all runs", "anchors": ["src/filters/ekf.cpp", "src/filters/kalman_filter.cpp"]}
{"id": "C34", "title": "UKF weights are normalised", "statement": "After setSigmaPointParameters(alpha,kappa,beta) with n+lambda nonzero there are 2n+1 weights, the mean weights sum to 1 and the covariance weights sum to 2 - alpha^2 + beta; for the default parameters and n>0 the precondition holds.", "quantifier": "every n, alpha, kappa, beta", "why_tests_cant": "all parameter values", "anchors": ["src/filters/ukf.cpp: UKF::setSigmaPointParameters", "src/filters/ukf_vs.cpp: UKFVS::setSigmaPointParameters"]}
{"id": "C35", "title": "UKF equals KF on linear models", "statement": "With default vector operations, an affine g and h and a covariance whose Cholesky factor exists, one UKF predict or correct gives exactly the KF/EKF state and covariance.", "quantifier": "every dimension, affine model, covariance and sigma point parameters with n+lambda nonzero", "why_tests_cant": "an identity over all models and parameters", "anchors": ["src/filters/ukf.cpp: UKF::myPredict, UKF::myCorrect"]}
{"id": "C36", "title": "UKF prediction keeps the covariance PSD for every nonlinear model", "statement": "With default vector operations, n+lambda > 0 and beta >= alpha^2, the predicted UKF covariance is symmetric PSD for every nonlinear g, although the central weight may be hugely negative.", "quantifier": "every nonlinear function g, every state, covariance and admissible parameters", "why_tests_cant": "quantifies over all functions", "anchors": ["src/filters/ukf.cpp: UKF::myPredict"]}
{"id": "C37", "title": "UKF correction keeps the covariance PSD for every nonlinear model", "statement": "With default vector operations, n+lambda > 0, beta >= alpha^2 and PD measurement covariance, the corrected UKF covariance is symmetric PSD and not larger than the prior, for every nonlinear h.", "quantifier": "every nonlinear function h, every state, covariance and admissible parameters", "why_tests_cant": "quantifies over all functions", "anchors": ["src/filters/ukf.cpp: UKF::myCorrect"]}
{"id": "C38", "title": "UKF uses the noise Jacobians of the current estimate", "statement": "The process and control noise added by a UKF prediction are those of the system model evaluated at the current state estimate.", "quantifier": "every system model whose noise Jacobians depend on the state", "why_tests_cant": "only visible for state dependent noise Jacobians", "anchors": ["src/filters/ukf.cpp: UKF::myPredict (P(), V() read after the sigma point loop)"]}
{"id": "C39", "title": "With everything active the VS filters equal the plain ones", "statement": "When no active subset is configured (or every index is active), KalmanFilterVS, EKFVS and UKFVS produce the same state and covariance as KalmanFilter, EKF and UKF.", "quantifier": "every model, state, covariance, input", "why_tests_cant": "relational claim over all models", "anchors": ["src/filters/kalman_filter_vs.cpp", "src/filters/ekf_vs.cpp", "src/filters/ukf_vs.cpp"]}
{"id": "C40", "title": "VS filters leave inactive states untouched", "statement": "With a proper subset of active states, predict and correct of the VS filters leave the inactive state variables unchanged.", "quantifier": "every model, every active subset, every state", "why_tests_cant": "the unit test starts with all-zero inactive states", "anchors": ["src/filters/kalman_filter_vs.cpp: myPredict, myCorrect", "src/filters/ekf_vs.cpp"]}
{"id": "C41", "title": "VS filters leave inactive covariance entries untouched and update the active block by the KF equations", "statement": "Covariance entries with an inactive row or column are unchanged by predict/correct of the VS filters; the active block is the plain filter's result on the active sub-matrices.", "quantifier": "every model, every active subset", "why_tests_cant": "all subsets and matrices", "anchors": ["src/filters/kalman_filter_vs.cpp", "src/filters/ekf_vs.cpp", "src/utilities/data_subset_utilities.cpp"]}
{"id": "C42", "title": "VS filters keep the full covariance PSD", "statement": "KalmanFilterVS/EKFVS map a PSD covariance to a PSD covariance for every active subset.", "quantifier": "every PSD covariance, every active subset", "why_tests_cant": "needs correlated active and inactive states, which the tests never have", "anchors": ["src/filters/kalman_filter_vs.cpp", "src/filters/ekf_vs.cpp"]}
{"id": "C43", "title": "Subset extraction and insertion are inverse", "statement": "For a duplicate-free in-range map, getSubset(convertSubsetToFull(s, full, map), map) = s, convertSubsetToFull(getSubset(full,map),full,map) = full, entries outside the map are unchanged (or zero in the Zeroed form), and an empty map means the identity.", "quantifier": "every vector/matrix, every map", "why_tests_cant": "all sizes and maps", "anchors": ["src/utilities/data_subset_utilities.cpp"]}
{"id": "C44", "title": "setActiveStates/Controls/Measurements normalise the index list", "statement": "After setActive*(list): the reported list is ascending, contains exactly the in-range entries of list, the usage field has a 1 exactly at the used indices, and an empty list means every index is used.", "quantifier": "every list of indices, every dimension", "why_tests_cant": "all lists including invalid, unsorted, duplicated ones", "anchors": ["src/filters/filter_model.cpp: setActiveStates", "src/system_models/system_model.cpp: setActiveControls", "src/measurement_models/measurement_model.cpp: setActiveMeasurements"]}
{"id": "C45", "title": "Naming only unusable indices, or an index twice, is harmless", "statement": "A list naming only out-of-range indices activates nothing beyond what was asked for, and repeating an index has the same effect as naming it once.", "quantifier": "every list of indices", "why_tests_cant": "malformed lists are not in the tests", "anchors": ["src/filters/filter_model.cpp: setActiveStates", "src/filters/kalman_filter_vs.cpp"]}
{"id": "C46", "title": "constrainAngle terminates in [-pi,pi] and preserves the angle", "statement": "constrainAngle(a) terminates for every real a and returns a value in [-pi, pi] that differs from a by an integer multiple of 2*pi; values already in range are returned unchanged.", "quantifier": "every real angle", "why_tests_cant": "loop termination and range over all reals", "anchors": ["include/state_estimation/utilities/angle_utilities.h: constrainAngle"]}
{"id": "C47", "title": "angleDifference is the shortest signed difference", "statement": "angleDifference(a,b) lies in [-pi,pi], differs from a-b by an integer multiple of 2*pi, and is antisymmetric, for arbitrary (not only normalised) angles.", "quantifier": "every pair of real angles", "why_tests_cant": "all reals", "anchors": ["include/state_estimation/utilities/angle_utilities.h: angleDifference"]}
{"id": "C48", "title": "Planar headings stay normalised", "statement": "planar_2d addState/subtractState/weightedSumOfStates always produce a heading in [-pi,pi] congruent to the ordinary result, and leave the other components as ordinary vector arithmetic.", "quantifier": "every pair of states, every weight vector", "why_tests_cant": "all reals", "anchors": ["src/definitions/planar_2d_motion.cpp"]}
{"id": "C49", "title": "weightedAngleSum is a circular mean", "statement": "weightedAngleSum is invariant under adding multiples of 2*pi to any angle and under scaling all weights by a positive factor, returns the common angle when all angles agree and the total weight is positive, and, whenever the weighted sum of the unit vectors is not zero, commutes with rotation of all angles modulo 2*pi.", "quantifier": "every weight vector and angles", "why_tests_cant": "all reals and lengths", "anchors": ["include/state_estimation/utilities/angle_utilities.h: weightedAngleSum"]}
{"id": "C50", "title": "Six-D-rates addition keeps gravity at its physical magnitude", "statement": "addState/subtractState return a gravity component of norm exactly 9.8062 (or the zero vector if the sum is zero) and plain sums elsewhere.", "quantifier": "every pair of states", "why_tests_cant": "all reals", "anchors": ["src/definitions/six_d_rates.cpp"]}
{"id": "C51", "title": "Weighted sums of equal states return the state", "statement": "weightedSum over identical columns with weights summing to 1 returns that column (the UKF relies on it), for the default operation, planar_2d and six_d_rates.", "quantifier": "every state, every weight vector summing to 1", "why_tests_cant": "needs negative weights, as the UKF has", "anchors": ["src/filters/filter_model.cpp: weightedSum", "src/definitions/six_d_rates.cpp: weightedSumOfStates", "src/definitions/planar_2d_motion.cpp"]}
{"id": "C52", "title": "Rotation increments are unit quaternions and compose", "statement": "deltaQuaternion(dt,w) has unit norm, deltaQuaternion(dt,-w) is its inverse, increments over dt1 and dt2 compose to dt1+dt2, integrate() preserves quaternion norm, and rotating by it preserves vector norms.", "quantifier": "every dt and angular velocity", "why_tests_cant": "all reals including the small-angle branch", "anchors": ["src/utilities/integration.cpp: deltaQuaternion, integrate"]}
{"id": "C53", "title": "RK4 integration is exact without rotation and bounded with it", "statement": "integrateVelocityRK4/integratePositionRK4 give v + dt*a and p + dt*v + dt^2/2*a exactly when w = 0, and the velocity increment never exceeds |dt|*|a| in norm for any w.", "quantifier": "every dt, a, v, w", "why_tests_cant": "all reals", "anchors": ["src/utilities/integration.cpp"]}
{"id": "C54", "title": "Six-D-rates prediction preserves gravity and unrelated states", "statement": "SixDRates::update preserves the norm of the gravity vector and leaves acceleration, angular velocity and biases unchanged; states not in use are not modified.", "quantifier": "every state, dt and active set", "why_tests_cant": "all reals and subsets", "anchors": ["src/system_models/six_d_rates.cpp: SixDRates::myUpdate"]}
{"id": "C55", "title": "Reported Jacobians are the derivatives of the reported predictions", "statement": "H() of SixDRatesOdom and SixDRatesImu is the derivative of h() and G() of SixDRates is the derivative of g() at the current state.", "quantifier": "every state, dt and transform", "why_tests_cant": "numeric tests use one state and tolerance", "anchors": ["src/measurement_models/six_d_rates_odom.cpp", "src/measurement_models/six_d_rates_imu.cpp", "src/system_models/six_d_rates.cpp"]}
{"id": "C56", "title": "setTf keeps prediction and Jacobian consistent", "statement": "After any sequence of setTf calls, h() and H() of the measurement models refer to the same (latest) transform.", "quantifier": "every sequence of setTf calls", "why_tests_cant": "history dependent", "anchors": ["src/filters/filter_model.cpp: setTf", "src/measurement_models/six_d_rates_odom.cpp: postTfUpdate", "src/measurement_models/six_d_rates_imu.cpp: postTfUpdate"]}
{"id": "C57", "title": "Velocity transforms compose like the frames", "statement": "transformLinearVelocity and transformAngularVelocity with the identity do nothing, and transforming through tf1 then tf2 equals transforming through tf2*tf1.", "quantifier": "every pair of rigid transforms and velocities", "why_tests_cant": "all rigid transforms", "anchors": ["src/utilities/transformation_utilities.cpp"]}
{"id": "C58", "title": "Velocity and acceleration transforms use the same lever arm", "statement": "transformLinearAcceleration composes like the frames and uses the same sensor position as transformLinearVelocity for the same transform.", "quantifier": "every rigid transform", "why_tests_cant": "needs transforms that both rotate and translate", "anchors": ["src/utilities/transformation_utilities.cpp: transformLinearAcceleration"]}
{"id": "C59", "title": "transformCovariance preserves covariance structure", "statement": "transformCovariance keeps symmetry and positive semidefiniteness, preserves the trace for rotations and composes.", "quantifier": "every covariance and rotation", "why_tests_cant": "all matrices", "anchors": ["src/utilities/transformation_utilities.cpp: transformCovariance"]}
{"id": "C60", "title": "orientationFromGravityVector aligns with gravity", "statement": "For every nonzero gravity vector the returned quaternion is a unit quaternion with zero z component that rotates (0,0,-1) onto the gravity direction; for a zero vector it is the identity.", "quantifier": "every gravity vector", "why_tests_cant": "all directions including upside-down", "anchors": ["src/utilities/transformation_utilities.cpp: orientationFromGravityVector"]}
{"id": "C61", "title": "accelMeasurementJacobian is the exact derivative", "statement": "accelMeasurementJacobian is the derivative of predictAccelMeasurement with respect to acceleration, roll/pitch/yaw and angular rate, at every point.", "quantifier": "every a, w, rpy, transform and g", "why_tests_cant": "numeric differentiation at one point cannot settle it", "anchors": ["src/utilities/imu_utilities.cpp"]}
{"id": "C62", "title": "weightedQuaternion ignores quaternion signs", "statement": "weightedQuaternion is unaffected by negating any input quaternion, and with all weight on one unit quaternion it returns that rotation.", "quantifier": "every set of quaternions and weights", "why_tests_cant": "all sign patterns", "anchors": ["include/state_estimation/utilities/angle_utilities.h: weightedQuaternion"]}
{"id": "C63", "title": "Ellipse points lie on the requested ellipse", "statement": "getEllipsePoints returns num_pts points on the rotated, translated ellipse with radii a and b; get2DCovarianceEllipsePoints returns points of constant Mahalanobis distance for the given covariance.", "quantifier": "every radius, angle, offset, covariance and count", "why_tests_cant": "all reals", "anchors": ["src/utilities/plotting_utilities.cpp"]}
{"id": "C64", "title": "Timestamps survive floating point", "statement": "With double arithmetic the state time after an accepted input equals that input's timestamp, so a second input with the same timestamp is never treated as being in the past, and the clock never goes backwards.", "quantifier": "every pair of finite doubles, every sequence of API calls", "why_tests_cant": "rounding of t + (s - t) fails only for particular pairs", "anchors": ["include/state_estimation/filters/filter_base.hpp: applyInput (timestamp += dt)"]}
{"id": "C65", "title": "NaN timestamps cannot corrupt the filter", "statement": "Inputs with a NaN timestamp are ignored.", "quantifier": "every filter state and mode", "why_tests_cant": "NaN comparisons are false both ways; only some code paths filter them", "anchors": ["include/state_estimation/filters/filter_base.hpp: predict, correct"]}
{"id": "C66", "title": "Adding a difference back gives the state", "statement": "For the six_d_rates operations, addState(b, subtractState(a, b)) = a for states of physical gravity magnitude, as the filters assume when they compute residuals and apply corrections; likewise planar_2d up to heading normalisation.", "quantifier": "every pair of states", "why_tests_cant": "all reals", "anchors": ["src/definitions/six_d_rates.cpp: addState, subtractState", "src/definitions/planar_2d_motion.cpp"]}
{"id": "C67", "title": "The active states of a UKFVS may be changed at any time", "statement": "After UKFVS is constructed, setActiveStates on its system model may be called at any time and later predictions refer to the states active then.", "quantifier": "every choice of active states before and after construction, every model and state", "why_tests_cant": "the sigma point parameters depend on the history of calls; with fewer states the result depends on uninitialised memory", "anchors": ["src/filters/ukf_vs.cpp: setSigmaPointParameters, myPredict", "src/filters/filter_model.cpp: setActiveStates"]}
{"id": "C68", "title": "UKF computes the scaled unscented transform", "statement": "UKF predict returns the weighted mean and weighted covariance (plus noise) of the images of the 2n+1 sigma points x, x +/- columns of the Cholesky factor of (n + lambda) times the covariance; correct uses the weighted cross covariance and innovation covariance of the same points.", "quantifier": "every nonlinear model, state, covariance and admissible parameters", "why_tests_cant": "every model and dimension", "anchors": ["src/filters/ukf.cpp: myPredict, myCorrect"]}
{"id": "C69", "title": "A six-D EKF never loses the magnitude of gravity", "statement": "In an EKF on the SixDRates model, started with gravity of norm 9.8062 (or zero), every estimate the filter holds keeps gravity at norm 9.8062 or zero, and no assertion trips, whatever sensors are used.", "quantifier": "every sequence of API calls with well-formed arguments, every sensor class, every rewind mode", "why_tests_cant": "call sequences are unbounded and gravity is rotated and rescaled by different code paths", "anchors": ["src/system_models/six_d_rates.cpp", "src/definitions/six_d_rates.cpp: addState", "src/filters/ekf.cpp"]}
{"id": "C70", "title": "constrainAngle returns for every finite double", "statement": "In double precision constrainAngle(a) returns for every finite a a value in [-M_PI, M_PI] that differs from a by a multiple of 2*M_PI, so a heading that has grown large cannot hang the filter.", "quantifier": "all finite doubles", "why_tests_cant": "Unit tests try a few angles near the range; the loop stops making progress only when 2*M_PI is below half a unit in the last place.", "anchors": ["include/state_estimation/utilities/angle_utilities.h: constrainAngle"]}
{"id": "C71", "title": "angleDifference is exact in double precision up to the one subtraction", "statement": "In double precision angleDifference(a,b) is, for all doubles however large, a double in [-M_PI, M_PI] that differs from the rounded difference a-b by exactly an integer multiple of 2*M_PI, and angleDifference(b,a) = -angleDifference(a,b) exactly.", "quantifier": "all pairs of finite doubles", "why_tests_cant": "Rounding behaviour depends on the bit patterns of both arguments; tests compare a few values with a tolerance.", "anchors": ["include/state_estimation/utilities/angle_utilities.h: angleDifference"]}
{"id": "C72", "title": "Changing the units of a Kalman filter or EKF changes nothing but the units", "statement": "Take a Kalman filter or EKF and a second one for the same problem written in other coordinates: initial state T x with covariance T P T^T, controls U u, measurements D z with covariance D R D^T, and model matrices transformed accordingly (A' T = T A, B' U = T B, C' T = D C, g' = T g, h' = D h, ...). For every sequence of API calls and the corresponding sequence on the second filter, either both abort or they end at the same time with x' = T x and P' = T P T^T, for the current and all retained states.", "quantifier": "all invertible T and D, all U, all pairs of corresponding models, all pairs of corresponding call sequences of any length, in or out of order, queued or direct, with rewinding on or off", "why_tests_cant": "Quantifies over all coordinate changes, models and call sequences.", "anchors": ["src/filters/kalman_filter.cpp: KalmanFilter::myPredict, myCorrect", "src/filters/ekf.cpp: EKF::myPredict, myCorrect", "include/state_estimation/filters/filter_base.hpp: predict, correct, processQueues, rewindHistory"]}
{"id": "C73", "title": "The Kalman filter's covariance does not depend on the data", "statement": "For a Kalman filter whose model matrices depend only on their configuration and dt and that has no stationary predicate, two call sequences that differ only in the numbers of the initial state, the controls and the measurements give the same covariances, times and number of retained states, and one aborts iff the other does.", "quantifier": "all such models and all pairs of call sequences of any length that agree except for the data", "why_tests_cant": "Quantifies over all data and all call sequences, including late, queued and replayed inputs.", "anchors": ["src/filters/kalman_filter.cpp: KalmanFilter::myPredict, myCorrect", "include/state_estimation/filters/filter_base.hpp: predict, correct, processQueues"]}
{"id": "C74", "title": "The reported covariance is the covariance of the actual error, and estimates are unbiased", "statement": "If the true state moves by the Kalman filter's model with process and control noise of the configured covariances, and every measurement is C X plus noise of the covariance R passed to correct(), all noises having mean zero and being uncorrelated with the past (any distribution; controls may depend on the outcome), then after any sequence of predict(u, t) and correct(z, R, t, m) the error getState() - X has mean zero and getCovariance() equals its covariance matrix exactly.", "quantifier": "every probability space, noise distribution, model, sequence of calls", "why_tests_cant": "an expectation over all outcomes, for every experiment and every length; a test samples", "anchors": ["src/filters/kalman_filter.cpp: KalmanFilter::myPredict, myCorrect", "include/state_estimation/filters/filter_base.hpp: predict, correct"]}
{"id": "C75", "title": "Each SixDRates process noise component perturbs the quantity it is documented for", "statement": "The header documents the process noise of SixDRates as linear jerk, linear bias jerk, angular acceleration, angular bias acceleration and gravity angular acceleration. After predict(u, t) the covariance should have grown by the process noise mapped to first order onto those quantities: jerk into position, velocity and acceleration, angular acceleration into the angular rate, gravity angular acceleration into gravity, and the bias noises into the biases (so that the bias variances grow).", "quantifier": "every state, control, time step and process noise covariance", "why_tests_cant": "A statement about the noise matrix at every state and step length, and about the bias variance in every run.", "anchors": ["include/state_estimation/system_models/six_d_rates.h", "src/system_models/six_d_rates.cpp: SixDRates::updateJacobian, updateCovariance"]}
{"id": "C76", "title": "The update flags change only what they are named for", "statement": "In SixDRates::update(x, u, dt) the predicted state g() does not depend on the compute_jacobian and update_covariance flags given to the constructor; with compute_jacobian false G() keeps its previous value, with update_covariance false the noise matrix P() does, and each flag affects only the one matrix it is named for.", "quantifier": "every state, control, time step and flag combination", "why_tests_cant": "Quantifies over all states and inputs.", "anchors": ["include/state_estimation/system_models/nonlinear_system_model.h", "src/system_models/six_d_rates.cpp: SixDRates::update"]}
{"id": "C77", "title": "Sensors one after the other equal one stacked measurement", "statement": "For a Kalman filter with sensors whose C does not depend on the state and which are not declared stationary: correcting with any number of measurements taken at the filter's current time one after the other (any sensors, several of one included) gives the same state, covariance and time as one correction with the measurement that stacks them (entries in any order, block-diagonal covariance).", "quantifier": "every system and sensor model meeting the size contract with default add/subtract, every number of measurements, sizes, order of the stacked entries, values, positive definite noise covariances, every positive semidefinite prior covariance", "why_tests_cant": "Unbounded number and sizes of sensors and real-valued matrices; a test checks a handful of numbers.", "anchors": ["src/filters/kalman_filter.cpp:KalmanFilter::myCorrect", "include/state_estimation/filters/filter_base.hpp:FilterBase::correct"]}
{"id": "C78", "title": "A sensor's model is changed only by measurements of that sensor", "statement": "From any initialization on, whatever sequence of predict, correct, enqueue, processQueues, revertToState, parameter and initialize calls is made, the model object of a sensor of which no measurement is passed (and which the user does not change himself) stays exactly as it was, for all six filter classes.", "quantifier": "every filter class, every model, every sequence of API calls of any length that names only other sensors, every ordering chosen by the unstable sort", "why_tests_cant": "Ranges over all call sequences, including rewinding and replaying history.", "anchors": ["include/state_estimation/filters/filter_base.hpp:FilterBase::applyMeasurementInput", "include/state_estimation/filters/filter_base.hpp:FilterBase::rewindHistory"]}
{"id": "C79", "title": "The 16-bit counters of the subset functions never matter", "statement": "getSubset, convertSubsetToFull and convertSubsetToFullZeroed (vector, two-map and one-map matrix forms), with the uint16_t loop counters and truncated counts of the program, return and give exactly the mathematical selection or insertion for every index list of fewer than 65536 entries; in particular for every list of distinct valid indices of a model (at most 65535 entries). A longer list (which repeats indices) makes the vector forms loop for ever, and one of exactly 65536 rows is read as an empty one by the two-map form.", "quantifier": "every vector and matrix, every index list of any length below 65536 (and, for the negative part, every longer list)", "why_tests_cant": "Ranges over all lists and sizes up to the wrap-around of the counter.", "anchors": ["src/utilities/data_subset_utilities.cpp: getSubset, convertSubsetToFull, convertSubsetToFullZeroed"]}
{"id": "C80", "title": "Loading a CSV file is all-or-nothing per line", "statement": "loadCsvFields returns true exactly if the file can be opened and every line (after the skipped header) is not empty, has all requested fields, and these parse as numbers; then exactly one vector per line has been appended, in order, holding the requested numbers in the requested order. If it returns false, what the output held before is kept and the rows before the first bad line have been appended. A blank line, also at the end, is never skipped.", "quantifier": "every file content, every list of field numbers, with and without header, every previous content of the output", "why_tests_cant": "Ranges over all file contents.", "anchors": ["examples/data_io.cpp:loadCsvFields"]}
{"id": "C81", "title": "What writeToFile wrote, loadCsvFields reads back", "statement": "Loading with skip_header a file written by writeToFile with a (nonempty, one-line) header and nonempty vectors of one size, asking for all fields, returns true and gives the same number of vectors of the same size in the same order, each number within half a millionth of the written one. Numbers below half a millionth in size come back as zero; without a header the first row is lost.", "quantifier": "every list of vectors, every one-line header, every number parser that understands decimal notation", "why_tests_cant": "Ranges over all real data and sizes.", "anchors": ["examples/data_io.cpp:writeToFile", "examples/data_io.cpp:loadCsvFields"]}
{"id": "C82", "title": "The example program runs to the end and its output is sound", "statement": "On any two input files that loadCsvFields accepts, with at least one data row in total, the example program finishes without assertion or undefined behaviour, whatever order std::sort gives to equal time stamps: the output file has one row per data row, stamped with the seconds since the earliest stamp in ascending order (first 0); each row holds the time, the 18 states and the 18 x 18 covariance; every covariance is positive semidefinite; the inactive states never change (gravity (0,0,9.8062), biases 0, with their initial variances and no correlation). If a file cannot be opened or has a bad line the program ends with exit code 1 and writes nothing. Two files without data rows lead to front() of an empty vector.", "quantifier": "every pair of input files, every number of rows, every tie-breaking of std::sort, every number parser", "why_tests_cant": "Ranges over all input files of all lengths.", "anchors": ["examples/six_d_rates_example.cpp: main", "src/filters/ekf_vs.cpp", "src/system_models/six_d_rates.cpp"]}
{"id": "C83", "title": "The example at rest, and starting to move", "statement": "As long as every reading is below the stationary thresholds, every estimate of the example program equals exactly the initial state with the initial covariance; and once the odometry reports motion above the threshold, the estimated speed follows it (the distance between the estimated and the measured forward speed is bounded).", "quantifier": "every sequence of readings in order of time", "why_tests_cant": "Ranges over sequences of any length; the claimed bound on the error must hold for all of them.", "anchors": ["examples/six_d_rates_example.cpp: isStationarySystem, isStationaryOdom, isStationaryImu, makeStationary, main", "include/state_estimation/filters/filter_base.hpp: applyControlInput"]}
{"id": "C84", "title": "The header of the example output names each column once", "statement": "The header of the example's output has exactly as many names as each row has numbers, and the names are distinct.", "quantifier": "every column of the output", "why_tests_cant": "A statement about all pairs of columns.", "anchors": ["examples/six_d_rates_example.cpp: main (header)"]}
{"id": "C85", "title": "Only time differences matter, and the unit of time is free", "statement": "Adding a constant to every time stamp given to a filter (construction, initialize, predict, correct, queues, revertToState) changes nothing but the times it reports: the same calls are accepted or ignored, the same inputs replayed, the estimates are identical. The same holds for another unit of time, if the models and the history window are converted.", "quantifier": "every filter class and model, every origin and positive unit, every sequence of calls of any length, every parameter setting", "why_tests_cant": "A relation between two runs, over all call sequences and all offsets.", "anchors": ["include/state_estimation/filters/filter_base.hpp"]}
{"id": "C86", "title": "Less certainty in never gives more certainty out", "statement": "Two Kalman filters make the same calls at the same times (predict, correct, queues, revertToState, initialize ...); the second is given at least the uncertainty of the first (initial covariance, process noise, control noise, each measurement covariance, in the Loewner order; the data may differ). Then neither aborts and the covariance the second reports is at least that of the first, likewise for each retained past state.", "quantifier": "every linear model whose matrices do not depend on the data, every pair of ordered noise settings, every sequence of calls of any length, every parameter setting", "why_tests_cant": "Ranges over all pairs of ordered covariance matrices and all histories of calls.", "anchors": ["src/filters/kalman_filter.cpp: KalmanFilter::myPredict, myCorrect", "include/state_estimation/filters/filter_base.hpp"]}
{"id": "C87", "title": "The Kalman filter reports the best explanation of everything it was told", "statement": "Among all histories (first state, process noises, control noises, measurement errors) that agree with the calls made so far, those of least total weighted square misfit end in getState(), and no others do; the least misfit of a history ending in x + P l is l'Pl above the optimum, where P is getCovariance(), and states not of this form cannot be explained. Covers in-order predict(u,t), predict(t), correct at the current time and correct in the future.", "quantifier": "every linear model, every positive semidefinite noise setting (singular ones included), every sequence of in-order calls of any length, every history", "why_tests_cant": "An optimum over a continuum of histories, for call sequences of any length.", "anchors": ["src/filters/kalman_filter.cpp: KalmanFilter::myPredict, myCorrect", "include/state_estimation/filters/filter_base.hpp: predict, correct, applyControlInput, applyMeasurementInput"]}
{"id": "C88", "title": "Kalman filter estimates superpose", "statement": "If three Kalman filters are used in the same way and the data of the third (initial state, controls, measurements) are a times those of the first plus b times those of the second, then its estimate is a times the first plus b times the second and all covariances agree.", "quantifier": "every linear model, all real a and b, all data, every sequence of in-order calls of any length", "why_tests_cant": "Ranges over all data sequences and factors; a test samples a few.", "anchors": ["src/filters/kalman_filter.cpp: KalmanFilter::myPredict, myCorrect", "include/state_estimation/filters/filter_base.hpp: predict, correct"]}
{"id": "C89", "title": "No linear estimator beats the Kalman filter", "statement": "In a world that behaves as the models say (motion with noise of the configured covariances, measurements with noise of the covariances passed to correct(), all noises of mean zero, uncorrelated with the past, of any distribution; controls computed affinely from the measurements so far), among all estimates computed affinely from the measurements the one getState() reports has the least mean square error in every direction of the state space, getCovariance() is exactly that least error, and no other affine estimate attains it.", "quantifier": "every probability space and noise distribution, every linear model, every sequence of in-order calls of any length, every affine estimator", "why_tests_cant": "An optimum over all estimators and an expectation over all outcomes.", "anchors": ["src/filters/kalman_filter.cpp: KalmanFilter::myPredict, myCorrect", "include/state_estimation/filters/filter_base.hpp: predict, correct"]}
{"id": "C90", "title": "Rounding does not make a variance negative", "statement": "In double precision, a Kalman filter with one state never reports a negative variance, correct() never increases the variance, and never moves the estimate away from the measurement.", "quantifier": "every variance, state, measurement and sensor coefficient of type double; every sequence of calls of any length", "why_tests_cant": "Rounding depends on the exact bits of all operands; negative results occur for a few of 2^192 combinations only.", "anchors": ["src/filters/kalman_filter.cpp: KalmanFilter::myPredict, myCorrect", "include/state_estimation/filters/filter_base.hpp"]}
{"id": "C91", "title": "A UKF may know some components exactly", "statement": "If some components of a UKF's state are known exactly (zero variance) and the rest have a positive definite joint covariance, predict() still propagates mean and covariance correctly: with a linear motion model the prediction is A x + b, A P A^T + noise, as in the EKF.", "quantifier": "every number of states, every set of exactly known components, every covariance, control and time step", "why_tests_cant": "The Cholesky factorisation silently stops at the first zero pivot; whether the result is still right depends on where the zero is and on the value of the entries after it.", "anchors": ["src/filters/ukf.cpp: UKF::myPredict, UKF::myCorrect", "src/filters/ukf_vs.cpp"]}
{"id": "C92", "title": "The work of a call is bounded by what is remembered and queued", "statement": "predict(t) runs the filter equations at most once; predict(u,t) at most once and correct() at most twice, plus at most twice for each remembered state at or after the input's time; processQueues() at most twice per queued input and per remembered state at or after a queued input; other calls never run them. Inputs in order of time cost a constant number of runs however long the history is. N calls cost at most N(N+3) runs, and at most 2N when rewinding is off.", "quantifier": "every filter class, models, parameters, histories of calls of any length with time stamps in any order, and every sorting routine", "why_tests_cant": "A real-time user relies on an upper bound over all histories and arrival orders; a timing test sees one arrival order.", "anchors": ["include/state_estimation/filters/filter_base.hpp: predict, correct, processQueues, rewindHistory, applyBatchInputs, applyInput, applyMeasurementInput"]}
{"id": "C93", "title": "Several filters can use the same model objects", "statement": "Filters keep pointers to models that belong to the user. Filters using the same system and measurement model objects give the same estimates as if each had its own copies, whatever the interleaving of the calls.", "quantifier": "any number of filters, every interleaving of calls of any length, every mode, every model whose matrices are functions of its configuration, the state, the control and the time step, and every change the user makes to the models in between", "why_tests_cant": "The claim is about all interleavings of two histories; interference needs a particular order of calls (a cached matrix or a covariance left behind by the other filter).", "anchors": ["include/state_estimation/filters/filter_base.hpp: applyControlInput, applyMeasurementInput, predict", "include/state_estimation/measurement_models/measurement_model.h: setCovariance", "include/state_estimation/system_models/system_model.h: setControlCovariance", "src/filters/kalman_filter.cpp", "src/filters/ekf.cpp", "src/filters/ukf.cpp"]}
{"id": "C94", "title": "The filter is at least as certain as its readings", "statement": "After readings of any number of sensors stamped with the filter's time, the filter's variance of any combination of states is at most that of every unbiased estimate that can be computed from those readings alone; N readings of one sensor leave at most 1/N of its covariance.", "quantifier": "every history before, every number and mix of readings, every covariance, every way of combining readings (KF, and EKF with sensors linear in the state)", "why_tests_cant": "It bounds the filter against every possible competitor and every prior uncertainty, however large.", "anchors": ["src/filters/kalman_filter.cpp: KalmanFilter::myCorrect", "src/filters/ekf.cpp: EKF::myCorrect", "include/state_estimation/filters/filter_base.hpp: correct"]}
{"id": "C95", "title": "A stable system has a bounded covariance", "statement": "If predicting from a covariance Pmax with the largest noise gives at most Pmax, then a filter started at or below Pmax never reports more than Pmax, in its estimate and in every remembered state.", "quantifier": "every history of calls (late, queued, replayed inputs, initialize, revertToState, noise changed by the user within the maxima), every data, KF and EKF with any nonlinear model", "why_tests_cant": "An invariant of unbounded histories.", "anchors": ["src/filters/kalman_filter.cpp", "src/filters/ekf.cpp", "include/state_estimation/filters/filter_base.hpp"]}
{"id": "C96", "title": "UKF results do not depend on uninitialised memory", "statement": "UKF allocates its sigma point matrices uninitialised. The estimates after any calls, and whether a call aborts, are the same whatever that memory held. The same for UKFVS while its sigma point parameters were set for the states that are active (setSigmaPointParameters after every setActiveStates); otherwise not.", "quantifier": "every content of uninitialised memory, every history of calls in every mode, every system and measurement model class that leaves its configuration alone in update, every result of the Cholesky routine", "why_tests_cant": "Fresh heap memory is usually zero in a test; the content of memory cannot be enumerated.", "anchors": ["src/filters/ukf.cpp: UKF::myPredict, UKF::myCorrect", "src/filters/ukf_vs.cpp: UKFVS::myPredict, UKFVS::myCorrect", "src/filters/ukf_vs.cpp: setSigmaPointParameters"]}
{"id": "C97", "title": "Only the ratios of the covariances matter", "statement": "Multiply every covariance the filter is given - initial, process noise, control noise, every measurement - by the same positive number: after any calls, the states of KF, EKF, KalmanFilterVS and EKFVS, current and remembered, are unchanged and their covariances are multiplied by that number; the two runs abort together.", "quantifier": "every positive factor, every history of calls in every mode, every system and measurement model class whose update does not look at the noise covariances (the library's SixDRates, IMU and odometer are), every standstill function that is homogeneous in the covariance", "why_tests_cant": "A relation between two runs over all models, histories and factors; rounding hides it in a numeric test.", "anchors": ["src/filters/kalman_filter.cpp: myPredict, myCorrect", "src/filters/ekf.cpp: myPredict, myCorrect", "src/filters/kalman_filter_vs.cpp", "src/filters/ekf_vs.cpp"]}
{"id": "C98", "title": "Unrelated subsystems do not influence each other", "statement": "One filter may estimate two things that have nothing to do with each other (block-diagonal models, noises and initial covariance). Two runs with the same calls that have everything on one side in common and differ arbitrarily on the other - estimate, covariance, noise, controls, measured values and their covariances - give the same states and covariances on the common side, now and at every remembered moment, and never invent a correlation between the sides. For the Kalman filter and the EKF.", "quantifier": "every partition of states, controls, noises and sensor components, every model class that keeps the sides apart, every history of calls in every mode, every difference on the other side", "why_tests_cant": "A relation between all pairs of runs; the other side ranges over arbitrary data and arbitrary histories, including out-of-order replay.", "anchors": ["src/filters/kalman_filter.cpp: myPredict, myCorrect", "src/filters/ekf.cpp: myPredict, myCorrect", "include/state_estimation/filters/filter_base.hpp: applyInput, rewindHistory"]}
{"id": "C99", "title": "A UKF may be given in other units; the order of its states matters", "statement": "Two UKFs for the same problem, the second with every state multiplied by a positive conversion factor (or, more generally, transformed by a lower triangular matrix with positive diagonal) and with controls and measurements in any other coordinates: through every sequence of API calls both complete and report the same times and corresponding states and covariances. Unlike the Kalman filter and the EKF (C72), listing the states in another order is not such a change: a UKF's estimate depends on the order of the states.", "quantifier": "every lower triangular change of state coordinates with positive diagonal, every change of control and sensor coordinates, every model class, every history of well-formed calls in every mode; for the second half, a concrete model", "why_tests_cant": "A relation between all pairs of corresponding runs for all conversion factors and models; it rests on the uniqueness of the Cholesky factor that Eigen computes.", "anchors": ["src/filters/ukf.cpp: myPredict, myCorrect (llt().matrixL())", "include/state_estimation/filters/filter_base.hpp: applyInput, rewindHistory"]}
{"id": "C100", "title": "A NaN among the data", "statement": "The filter takes doubles from sensors and controllers, which may be NaN. (a) As long as no number handed over is NaN, no state ever contains one. (b) Whatever data is NaN, times, covariances and aborts are those of the run in which each NaN is any number. But nothing guards the state: one NaN in one component of one measurement makes every entry of the state NaN, on time or late, and no further predict, correct or processQueues brings a number back; and a NaN in a control is still in use after initialize, so that the first prediction after a reset makes the whole state NaN.", "quantifier": "every Kalman filter whose matrices do not depend on the data, every history of calls in either mode (for 'never recovers': calls that feed data), every position of the NaN", "why_tests_cant": "'Never recovers' ranges over every continuation of every history, including out-of-order insertion and queue replay; 'no NaN arises' over every history.", "anchors": ["include/state_estimation/filters/filter_base.hpp: correct, predict, processQueues, initialize (hpp:26-40 keeps prev_control_)", "src/filters/kalman_filter.cpp: myPredict, myCorrect"]}
{"id": "C101", "title": "The filter forgets what it believed first", "statement": "Two Kalman filters start from different beliefs and are then used alike. If the first one's covariance is at most l times the second's at the start, it is so at all times: the factor by which two filters disagree about their uncertainty never grows, whatever calls are made. If every motion brings in noise of at least eps times the uncertainty it carries over, the excess of the factor over 1 shrinks by 1 + eps per motion, and two filters that start at different states with the same covariance approach each other at that rate.", "quantifier": "every Kalman filter whose matrices do not depend on the data, every history of calls in every mode (factor never grows); every in-order history of motions and measurements of any length, every eps, every pair of initial states and covariances (rates)", "why_tests_cant": "It compares two runs over every history of unbounded length and every pair of initial covariances; a rate of convergence is a statement about all lengths.", "anchors": ["src/filters/kalman_filter.cpp: myPredict, myCorrect", "include/state_estimation/filters/filter_base.hpp: initialize, predict, correct, processQueues, revertToState"]}
{"id": "C102", "title": "Repeated use settles at one covariance", "statement": "A Kalman filter that goes through the same cycle of motions and measurements again and again, with any data, approaches a steady covariance: if each motion brings in noise of at least eps times the uncertainty it carries over (eps > 0) and a ceiling is not exceeded, there is one covariance, the same for every initial state, initial covariance below the ceiling and data, which is approached by the factor 1 + eps per cycle; and a filter that starts with it reports exactly it after every cycle. Any two filters below the ceiling, used alike (not necessarily in cycles), come within a factor 1 + (1/eps)/(1+eps)^k of each other after k + 1 motions.", "quantifier": "every Kalman filter, every in-order history of predict and correct calls of any length repeating any cycle with at least one motion, every initial state and covariance, every data", "why_tests_cant": "Convergence, and uniqueness of the limit over all initial covariances, are statements about runs of every length.", "anchors": ["src/filters/kalman_filter.cpp: myPredict, myCorrect", "include/state_estimation/filters/filter_base.hpp: predict, correct, getCovariance"]}
{"id": "C103", "title": "A two-state covariance in double precision", "statement": "With every sum and product rounded to double precision, the covariance a two-state Kalman filter reports should remain a covariance: symmetric, with variances that are not negative. What holds: a correction by a sensor that reads only the first state treats the first component exactly as a one-state filter would, so its variance stays non-negative and does not grow (sensor factor a power of two); a prediction by a random-walk or constant-velocity model whose control noise acts on one state keeps the covariance exactly symmetric. What fails: one correction of [4 3; 3 3] by a sensor of variance 1, or one constant-velocity prediction with dt = 0.1 and acceleration variance 0.1, reports an asymmetric covariance; and from 2^60 [45 -30; -30 20] one correction reports a variance of -4096.", "quantifier": "every two-state Kalman filter, every state, covariance, measurement and model made of doubles", "why_tests_cant": "Rounding errors depend on every bit of every operand; a test shows one operand, and does not tell which components are safe.", "anchors": ["src/filters/kalman_filter.cpp: myPredict, myCorrect (covariance lines 14-17, 41-42, 50)", "include/state_estimation/filters/filter_base.hpp: getCovariance"]}
{"id": "C104", "title": "The integration functions follow the motion of a rigid body", "statement": "For a body that turns with constant angular velocity w and accelerates with constant acceleration a, both as measured on board: deltaQuaternion(h, w) is exactly its change of orientation over the time h (for |w| > 1e-9; below it is off by at most 1e-9 |h|); the velocity returned by integrateVelocityRK4 is off by at most |h|^5 |w|^4 |a| / 2880, and the position returned by integratePositionRK4 by at most |h|^5 |w|^4 (|v| / 2880 + |h| |a| / 1152), for every step h, forward or backward (for |w| <= 1e-9 by at most 1e-9 h^2 |a|, and 1e-9 (h^2 |v| + 2 |h|^3 |a|)).", "quantifier": "every angular velocity, acceleration, initial velocity and position, every step of any sign and size, every motion that solves the differential equations", "why_tests_cant": "The order of accuracy and the error constant are bounds over all motions and step sizes; a test compares a few motions with another numerical integration.", "anchors": ["src/utilities/integration.cpp: deltaQuaternion, integrateVelocityRK4, integratePositionRK4", "include/state_estimation/utilities/integration.h"]}
{"id": "C105", "title": "SixDRates predicts the motion of a rigid body", "statement": "From a state that describes a rigid body (velocity, acceleration, angular rate as a gyroscope reads it, gravity, all in the frame of the body), SixDRates should predict the velocity and gravity in the frame of the body after the step. What holds: without rotation both are exact, and with rotation the predicted velocity is the true one up to the error of the RK4 step, but in the frame of the body before the step. What fails: gravity is turned with the body instead of against it, so that it is off by exactly 2 |sin(|w| dt)| |w x g| / |w|, more than if it were left alone for turns of up to 2 radians (a quarter turn predicts the opposite of the true direction); and the velocity is not turned at all: a vehicle that drives in a circle with constant speed is predicted to change its velocity.", "quantifier": "every SixDRates object after any updates, every state, every step, every true motion with the rate and acceleration of the state", "why_tests_cant": "The comparison is with the solutions of differential equations, for all states and steps; the repository's tests only check velocity without rotation and the Jacobian against the function itself.", "anchors": ["src/system_models/six_d_rates.cpp: myUpdate (lines 20-39)", "src/measurement_models/six_d_rates_imu.cpp: myUpdate (gyroscope reads the rate of the state)"]}
{"id": "C106", "title": "The library's own filters give the in-order result for late data", "statement": "In rewind mode, each of the six filter classes (KalmanFilter, EKF, UKF and the variable-state versions), used with model classes whose matrices are functions of their configuration and the arguments of update, gives after initialize the same state, covariance and time for controls with distinct time stamps (after the start and within the history window) in any arrival order as in time order; the same for any mixture of measurements, predictions without a new control and repetitions of the control in use. An EKF on SixDRates with the odometry and the IMU model does so for all readings and predictions, and no assertion trips in either order.", "quantifier": "all six filter classes, every such model class, every number of sensors, every list of inputs and every arrival order; for SixDRates every well-formed estimate and all well-formed readings", "why_tests_cant": "The claim is about all permutations of all input lists and all model classes; the tests swap two inputs of a test filter that has no models.", "anchors": ["include/state_estimation/filters/filter_base.hpp: rewindHistory, applyBatchInputs", "src/filters/*.cpp: myPredict, myCorrect", "src/system_models/six_d_rates.cpp", "src/measurement_models/six_d_rates_odom.cpp", "src/measurement_models/six_d_rates_imu.cpp"]}
{"id": "C107", "title": "Late measurements are not worth less", "statement": "A Kalman filter in rewind mode, on linear models with matrices A(dt), B(dt), W(dt), V(dt), C_j and given noise covariances, constructed with a belief (x0, P0) at t0 and fed with measurements of distinct times after t0 and within the history window in any arrival order: no assertion trips, the reported state is the end of the best explanation of all measurements in time order (the histories of least total misfit, and only those, end there), the covariance says how much worse other states are explained; and if the measurements come from a world that behaves as the models say, the estimate is the best linear one.", "quantifier": "all dimensions, matrices, covariances and sensors, every list of measurements, every arrival order (which may be random), every noise distribution", "why_tests_cant": "Optimality is a statement about all alternative histories and all alternative estimators, for all arrival orders; a test can only compare two runs.", "anchors": ["include/state_estimation/filters/filter_base.hpp: correct, rewindHistory, applyMeasurementInput", "src/filters/kalman_filter.cpp"]}
{"id": "C108", "title": "Asking for predictions in between does not change the estimate", "statement": "predict(t) is how a user looks at the estimate at time t. Inserting such calls between the others does not change what the filter reports later: the state and covariance after the last call are the ones without the questions, and no assertion trips that would not trip without them.", "quantifier": "all sequences of calls, all positions and times of questions, all initial beliefs, all models, all modes", "why_tests_cant": "it compares every history with every way of inserting questions into it, for all models; tests compare a few runs of one model with a tolerance, and the difference (noise counted per call, control applied to the time before it) grows slowly", "anchors": ["include/state_estimation/filters/filter_base.hpp: predict(t) 57-71, applyControlInput 330-374, applyMeasurementInput 376-412", "src/filters/kalman_filter.cpp: myPredict 7-17", "src/system_models/six_d_rates.cpp: myUpdate 62-101"]}
{"id": "C109", "title": "A UKF on the 6-D rates model keeps gravity at its magnitude and its uncertainty", "statement": "SixDRates rescales gravity to 9.8062 m/s^2 whenever states are added, subtracted or averaged. So with an unscented filter on SixDRates the estimated gravity vector keeps that magnitude through every prediction and correction, and predicting a body at rest leaves gravity and its variance (plus process noise) where they were.", "quantifier": "all sequences of predictions, controls, corrections, queue processing and rewinds, all initial beliefs, all sensors, all sigma point parameters, all modes", "why_tests_cant": "the claim is about the magnitude after any sequence of calls and for every belief; the unit tests of SixDRates run only single model updates and no UKF", "anchors": ["src/definitions/six_d_rates.cpp: addState 7-12, subtractState 14-19, weightedSumOfStates 21-33", "src/filters/ukf.cpp: setSigmaPointParameters 18-43, myPredict 50-86, myCorrect 104-156", "src/system_models/six_d_rates.cpp: myUpdate 18-102"]}
{"id": "C110", "title": "Overstating the noise keeps a Kalman filter honest, understating it does not", "statement": "If the covariances told to a Kalman filter (of the initial state, the process and control noise in the model, each measurement) are at least the actual ones, and the noises are uncorrelated with each other, then after every sequence of predict(u,t) and correct(z,R,t,m) the estimate is unbiased and the mean square error of every linear combination of the states is at most the variance getCovariance() gives for it. If they are at most the actual ones, it is at least that variance. (Passing the same reading twice violates the assumption: then the filter is overconfident even with exact covariances.)", "quantifier": "all linear models (changing from call to call), all call sequences, all distributions of the noises, all pairs of told and actual covariances in the Loewner order, all directions in state space", "why_tests_cant": "it is a statement about expectations over all noise distributions and all pairs of covariances; a simulation samples one distribution and one tuning", "anchors": ["src/filters/kalman_filter.cpp: myPredict 7-17, myCorrect 35-51", "include/state_estimation/filters/filter_base.hpp: predict(u,t) 73-114, correct 116-154"]}
{"id": "C111", "title": "The estimate is a function of the data given and not taken back", "statement": "With rewind_history on, after initialize at t0, call predict(u,t), predict(t), correct, enqueuControl, enqueuMeasurement, processQueues, clear*Queue and revertToState in any order. Keep books: direct calls add their data (predict(t) only if it is later than everything given), processQueues adds what waits in the queues, revertToState(t) with t > t0 takes back everything from t on and empties the queues. As long as no two booked pieces share a time stamp and all lie after t0 and within the history window, the state, covariance and time are those obtained by handing over the booked data directly in time order; two call sequences with the same books give the same estimate. Holds for explicit controls, and for readings and predictions under one control in use (not for readings mixed with new controls: C10, C11), on models that compute from their configuration and arguments only.", "quantifier": "all six filters and any other FilterBase subclass with memoryless models, all call sequences of any length, all batchings, arrival orders, reverts and re-deliveries", "why_tests_cant": "the interleavings of direct calls, queue batches, reverts and re-deliveries are unbounded; a test runs a few", "anchors": ["include/state_estimation/filters/filter_base.hpp: predict 57-114, correct 116-154, enqueu* 156-168, processQueues 170-213, clear*Queue 215-223, revertToState 225-242, rewindHistory 251-304, applyBatchInputs 414-420, pruneHistory 422-443, pruneQueue 445-456"]}
{"id": "C112", "title": "Information adds up, and readings of one sensor can be merged beforehand", "statement": "Any number of correct(z,R,t,m) calls of any sensors at a Kalman filter's current time: the inverse of getCovariance() grows by exactly the sum of C^T R^-1 C, and the information vector P^-1 x by the sum of C^T R^-1 z. Readings of one sensor may be replaced by their information-weighted mean with the inverse of the summed information as covariance (N equally good ones: their mean with R/N) without any difference in state, covariance or time.", "quantifier": "all linear models and sensors, all numbers and orders of readings, all positive definite measurement covariances, all estimates (positive definite for the first part, positive semidefinite for the second)", "why_tests_cant": "a test checks a few readings of fixed sizes; the law is about sequences of any length, all matrices and all dimensions", "anchors": ["src/filters/kalman_filter.cpp: myCorrect 35-51", "include/state_estimation/filters/filter_base.hpp: correct 116-154, applyMeasurementInput 376-412"]}
{"id": "C113", "title": "Switching rewind_history during use", "statement": "parameters() lets the user change rewind_history, the window and allow_measurements_in_past between calls. For data in order such changes, at any point and any number of times, change nothing about the estimates. For late data the natural claim (the estimate depends only on the data given) is false: what is given while rewinding is off is not remembered but the older states are kept, so a late reading that arrives after rewinding was switched on again silently takes back everything given in the meantime (except the last piece), and the last piece before the switch.", "quantifier": "all models (memoryless ones for the loss), all call sequences, all parameter changes, all numbers of readings before and in the gap", "why_tests_cant": "a relation between two runs over all interleavings of calls and parameter changes", "anchors": ["include/state_estimation/filters/filter_base.hpp: parameters 16-24, applyInput 306-328, rewindHistory 251-304, pruneHistory 422-443"]}
{"id": "C114", "title": "A longer history window changes nothing about what a shorter one could handle", "statement": "In rewind mode, the same calls (direct, late or not, through queues, reverts, re-initialisations, model changes) made on two filters that differ only in that one has a longer history window give the same state, covariance, time, control in use and models, as long as the one with the shorter window can place every call (it is not before the state's time, or a remembered state is older).", "quantifier": "all models, all windows, all sequences of calls the shorter window can handle, every ordering std::sort may produce", "why_tests_cant": "a relation between two runs over all call sequences and window lengths; pruning happens at data-dependent moments", "anchors": ["include/state_estimation/filters/filter_base.hpp: rewindHistory 251-304, pruneHistory 422-443, pruneQueue 445-456, processQueues 170-213, revertToState 225-242"]}
{"id": "C115", "title": "A history window as long as the longest gap in the data loses nothing", "statement": "In rewind mode, after initialize(x, c, t0): if all data given (and not taken back by a revert) are after t0 and each is at most one history window after another piece or after t0, then every call can be placed however late it is and however long ago t0 is (no call is refused or dropped), the filter remembers one state for t0 and one for every piece of data, it behaves as with any longer window, and (memoryless models, distinct times) the estimate depends only on the set of data given and not taken back.", "quantifier": "all models, windows, initial times, all sequences of direct, queued, late and reverted calls whose books have no gap longer than the window; every ordering std::sort may produce; for the last part all six filter classes", "why_tests_cant": "holds for unboundedly long runs with data arbitrarily many windows late; pruning depends on the newest remembered state only", "anchors": ["include/state_estimation/filters/filter_base.hpp: rewindHistory 251-304, pruneHistory 422-443, pruneQueue 445-456, processQueues 170-213, revertToState 225-242"]}
{"id": "C116", "title": "A correction moves the estimate in proportion to what is measured", "statement": "For every filter class (KF, EKF, UKF and the variable-state ones) with the default vector operations and no stationarity test: if a reading of k components with covariance R is accepted at a time t not before the state's time, then every reading of k components is, and the state after the reading z is x + G (z - zp) with x what predict(t) reports, one matrix G and one expected reading zp that do not depend on z; the covariance, the time and the models afterwards do not depend on z at all.", "quantifier": "all six filter classes, all models with default vector operations, all filter states, covariances, controls in use, times, active subsets, factorisation routines and contents of uninitialised memory, all readings", "why_tests_cant": "a statement about all readings at once and all models; tests look at single readings", "anchors": ["src/filters/kalman_filter.cpp: myCorrect 35-51", "src/filters/ekf.cpp: myCorrect 32-46", "src/filters/ukf.cpp: myCorrect 104-156", "src/filters/kalman_filter_vs.cpp: myCorrect 59-93", "src/filters/ekf_vs.cpp: myCorrect 46-76", "src/filters/ukf_vs.cpp: myCorrect 132-206", "include/state_estimation/filters/filter_base.hpp: applyMeasurementInput 376-412"]}
{"id": "C117", "title": "A measurement with a very large covariance is ignored", "statement": "For every filter class (KF, EKF, UKF and the variable-state ones) with the default vector operations and no stationarity test: let predict(t) report the state x and covariance P for a time t not before the state's. For a positive definite R0, correct(z, r R0, t, sensor) succeeds for all large r, and as r grows each component of the state tends to that of x and each entry of the covariance to that of P - for every reading z, however absurd. The sensor's predicted measurement (and matrix or Jacobian) must not depend on the covariance set in it.", "quantifier": "all six filter classes, all models, states, positive (semi)definite covariances, readings, times, active subsets, sigma point parameters, and all sufficiently large factors r", "why_tests_cant": "a limit over all large covariances and all readings; the tests try one large covariance on one model", "anchors": ["src/filters/kalman_filter.cpp: myCorrect 35-51", "src/filters/ekf.cpp: myCorrect 32-46", "src/filters/ukf.cpp: myCorrect 104-156", "src/filters/kalman_filter_vs.cpp: myCorrect 59-93", "src/filters/ekf_vs.cpp: myCorrect 46-76", "src/filters/ukf_vs.cpp: myCorrect 132-206", "test: veryLargeMeasurementCovarianceMakesMeasurementIgnored"]}
{"id": "C118", "title": "A model configured with its setters does what it was told", "statement": "Construct a linear system model (n states, m controls, p process noises) or measurement model and call any of its public setters (setA, setB, setProcessCovariance, setControlCovariance, setC, setCovariance, setActiveStates, setActiveControls, setActiveMeasurements, setIsStationaryFunction, setMakeStationaryFunction) any number of times in any order. Every setting is the argument of the last call of its kind (zero, all active, no function if there was none); calls of one kind never disturb another; the sequence is stopped by an assertion exactly when some matrix has the wrong size. A Kalman filter on such a model (whose update adds only the noise Jacobians W, V) predicts A x + B u and A P A' + W Rp W' + V Rc V', and corrects with the last C.", "quantifier": "all sizes, all finite sequences of setter calls with all arguments, all noise Jacobians, filter states, controls, readings, covariances", "why_tests_cant": "unboundedly many call sequences; the tests set every matrix once", "anchors": ["src/system_models/linear_system_model.cpp: ctor 7-10, setA 16-19, setB 25-28", "src/system_models/system_model.cpp: ctor 6-15, setActiveControls 39-61, setProcessCovariance 63-66, setControlCovariance 68-71", "src/measurement_models/linear_measurement_model.cpp: setC 14-17", "src/measurement_models/measurement_model.cpp: setActiveMeasurements 31-53, setCovariance 63-66", "src/filters/filter_model.cpp: setActiveStates 40-61, setIsStationaryFunction 77-80, setMakeStationaryFunction 82-85"]}
{"id": "C119", "title": "Small changes in the data and the models make small changes in the estimate", "statement": "A Kalman filter has been constructed and used by any number of in-order calls (predictions with and without control, measurements now or in the future). For every tolerance there is a margin such that any other use with the same kind of calls, in which the initial state and covariance, every model matrix (A, B, C, noise Jacobians), every noise covariance, every control and every reading differs by at most the margin, ends with a state and covariance that differ by at most the tolerance in every entry.", "quantifier": "all linear models, all dimensions, all finite histories of calls, all tolerances, all perturbations of all numbers involved (within the margin), all other model classes", "why_tests_cant": "a continuity statement: uncountably many perturbations of every history", "anchors": ["src/filters/kalman_filter.cpp: myPredict 7-17, myCorrect 35-51", "include/state_estimation/filters/filter_base.hpp: predict 57-114, correct 116-154, applyControlInput 330-374, applyMeasurementInput 376-412"]}
{"id": "C120", "title": "A measurement with a very small covariance is believed", "statement": "KF, EKF and their variable-state variants with default vector operations and no stationarity test: let predict(t) report x and P for a time t not before the state's, and let C P C' (C the sensor's matrix or Jacobian, restricted to the active measurements and states) be positive definite. Then correct(z, r R0, t, sensor) succeeds for small r > 0, and as r shrinks the corrected state's (linearised) predicted reading tends to z in every component and its covariance C P C' tends to zero. (The UKF on affine sensors equals the KF, C35.)", "quantifier": "four filter classes, all models, dimensions, states, covariances, readings, times, active subsets, all sufficiently small factors r", "why_tests_cant": "a limit over all small covariances, all readings and all sensors; the tests try one tiny covariance on an identity sensor", "anchors": ["src/filters/kalman_filter.cpp: myCorrect 35-51", "src/filters/ekf.cpp: myCorrect 32-46", "src/filters/kalman_filter_vs.cpp: myCorrect 59-93", "src/filters/ekf_vs.cpp: myCorrect 46-76"]}
{"id": "C121", "title": "An input that is not used is reported on the error output", "statement": "Whenever the filter does not use an input because it is too old, it writes one message with the input's time stamp to std::cerr; it writes nothing else, and writing changes no estimate.", "quantifier": "all filter classes, all reachable filters, all calls and arguments", "why_tests_cant": "the tests never look at std::cerr, and the claim is about every history and every time stamp", "anchors": ["include/state_estimation/filters/filter_base.hpp: predict 73-114, correct 116-154, processQueues 170-213, pruneQueue 445-456"]}
{"id": "C122", "title": "A filter never becomes certain", "statement": "With a positive definite initial covariance and positive definite measurement covariances, and a motion model under which no combination of the (active) states is wiped out without process noise acting on it, every covariance the KF, EKF, KFVS or EKFVS ever reports or remembers gives every nonzero combination of the (active) states a strictly positive variance; and one prediction of the KF or EKF reports variance zero for a combination exactly when the motion model wipes it out and no noise acts on it.", "quantifier": "all sizes, all models meeting the condition (nonlinear models with any update function), all histories of predictions, measurements, re-initialisations, queues, parameter and model changes, all data, any order of time stamps", "why_tests_cant": "it is a statement about every history and every direction of the state space; a covariance that has lost one direction makes the filter blind there for ever, and no test with a finite number of calls shows it cannot happen", "anchors": ["src/filters/kalman_filter.cpp: myPredict 7-17, myCorrect 35-51", "src/filters/ekf.cpp: myPredict, myCorrect 32-46", "src/filters/kalman_filter_vs.cpp", "src/filters/ekf_vs.cpp", "include/state_estimation/filters/filter_base.hpp"]}
{"id": "C123", "title": "How far off the estimate can be at worst", "statement": "For every true course of the state (no probability assumed): if the initial error, all disturbances and all measurement errors, each in squared standard deviations of what the filter was told about it, add up to J, then in every direction the Kalman filter's state is within sqrt(J) of its own reported standard deviations of the true state. If every motion brings in enough noise, old errors fade by a constant factor per motion: exact data drive the estimate to the true state from any initial belief, and data with bounded errors keep the estimate's error bounded for ever.", "quantifier": "all sizes, all linear models and noise covariances, all in-order histories of predict(u,t), predict(t), correct of any length, all true trajectories and all errors in the data", "why_tests_cant": "it is a bound over all trajectories, all error sequences and histories of unbounded length; tests can only sample noise", "anchors": ["src/filters/kalman_filter.cpp: myPredict 7-17, myCorrect 35-51", "include/state_estimation/filters/filter_base.hpp: predict 57-114, correct 116-154"]}
{"id": "C124", "title": "A variable-state filter is the plain filter of the active states", "statement": "A KalmanFilterVS (EKFVS, UKFVS) with some states, controls and measurement components active, and a KalmanFilter (EKF, UKF with the same sigma point parameters) with models of these alone, given the same calls (each vector and matrix restricted to what is listed): at every moment, current and remembered, the plain filter's state and covariance are the listed entries of the variable-state filter's, at the same time. In particular the values, covariances and correlations of inactive states never influence active ones.", "quantifier": "all sizes, all lists of active states, controls and measurements, all pairs of models of which the second is the part of the first, all filter settings, all sequences of API calls (late data, queues, reverts, reinitialisation, model changes by the user) and all inactive content", "why_tests_cant": "it relates two filters over all histories and all selections of active indices; tests fix one selection and a few steps", "anchors": ["src/filters/kalman_filter_vs.cpp: myPredict 8-41, myCorrect 59-93", "src/filters/ekf_vs.cpp: myPredict, myCorrect 46-76", "src/filters/ukf_vs.cpp: myPredict 51-110, myCorrect 132-206", "src/filters/ukf.cpp: myPredict 50-86, myCorrect 104-156", "src/filters/kalman_filter.cpp: myPredict 7-17, myCorrect 35-51", "src/filters/ekf.cpp: myPredict 7-15, myCorrect 32-46", "include/state_estimation/utilities/data_subset_utilities.h"]}
{"id": "C125", "title": "Leaving out measurements never makes the Kalman filter more certain", "statement": "Two Kalman filters on the same models that are told the same motions, the second only some of the measurements (in-order use): in every direction the variance the first reports is at most that of the second. With linear models in continuous time the same holds in terms of the calls: whichever of a list of readings are left out, no variance reported after a final predict(t) gets smaller; in rewind mode whatever the arrival orders are.", "quantifier": "all linear models and sizes, all initial beliefs, all in-order histories; all lists of readings, all sublists, all arrival orders within the history window", "why_tests_cant": "ranges over all models, histories, selections of measurements left out and arrival orders; a test compares two runs", "anchors": ["src/filters/kalman_filter.cpp: myPredict 7-17, myCorrect 35-51", "include/state_estimation/filters/filter_base.hpp: predict 57-71, correct 116-154, rewindHistory 251-304"]}
{"id": "C126", "title": "The choice of the body axes does not matter (6-D rates EKF)", "statement": "An EKF on SixDRates with the odometry and IMU models, and a second one for the same vehicle in body axes turned by a rotation Q (initial state and covariance turned, process noise covariance turned, sensors mounted with R Q^T instead of R, measurements unchanged): after every sequence of calls the second filter's state is the first one's turned and its covariance is turned accordingly, current and remembered. With noise of one intensity per group of three nothing has to be changed in the noise.", "quantifier": "all rotations Q, all mountings, all process noise covariances and flags, all initial beliefs, all sequences of API calls (late data, rewinding, queues, reverts, stationary handling, moving a sensor anywhere but to the identity), all data", "why_tests_cant": "it relates two filters over all rotations, states and histories; a swapped sign or axis in any of the hand-written formulas breaks it only for some directions", "anchors": ["src/system_models/six_d_rates.cpp: myUpdate 18-102", "src/definitions/six_d_rates.cpp: addState 7-12", "src/measurement_models/six_d_rates_odom.cpp: myUpdate 18-25, postTfUpdate 27-41", "src/measurement_models/six_d_rates_imu.cpp: myUpdate 18-29, postTfUpdate 31-47", "src/filters/ekf.cpp: myPredict 7-15, myCorrect 32-46"]}
{"id": "C127", "title": "Innovations are white, with the covariance the filter claims", "statement": "When the world behaves as the models say, the differences z - C x between the measurements passed to a Kalman filter's correct() and what getState() led to expect have mean zero, have exactly the covariance C P C^T + R computed from getCovariance(), are uncorrelated with one another for any two measurements of any sensors, and are uncorrelated with the error of the estimate from then on. On average their normalised square is the number of components measured, and the normalised square of the estimation error is the number of states.", "quantifier": "all probability spaces and noise distributions with finite second moments (only uncorrelatedness is assumed), all linear models, all in-order histories of predict(u, t) and correct, controls that may depend on the estimates", "why_tests_cant": "it is a statement about expectations over all noise sequences and about all pairs of measurements of a history of any length", "anchors": ["src/filters/kalman_filter.cpp: myPredict 7-17, myCorrect 35-51", "include/state_estimation/filters/filter_base.hpp: predict 73-114, correct 116-154, getters 42-55"]}
{"id": "C128", "title": "How badly the data fit together is the sum of the normalised innovations", "statement": "The least total misfit of any history (first state, noises, measurement errors) that agrees with everything a Kalman filter has been told is zero in the beginning, is not changed by any motion the filter is told of, and grows with each measurement by exactly v^T (C P C^T + R)^-1 v with v = z - C x, where x and P are what getState() and getCovariance() report before the measurement.", "quantifier": "all linear models, initial beliefs, in-order histories of predict(u, t), predict(t) and correct of any length, all data, all next motions and measurements", "why_tests_cant": "it equates a running sum with a minimum over all possible histories of the world", "anchors": ["src/filters/kalman_filter.cpp: myPredict 7-17, myCorrect 35-51", "include/state_estimation/filters/filter_base.hpp: predict 57-114, correct 116-154"]}
{"id": "C129", "title": "A full turn is no turn", "statement": "Let the models treat full turns of their angles as nothing (planar_2d::addState does; planar_2d::weightedSumOfStates does; planar_2d::subtractState and angleDifference do unless the two headings are exactly opposite). Then two runs of an EKF or UKF that differ only by full turns in the initial headings and in the measured headings report the same estimates up to full turns and equal covariances, and fail in the same cases.", "quantifier": "all model classes with this contract, all call sequences in any order and with any time stamps, all multiples of 2 pi added to any angle of any input, all sigma parameters", "why_tests_cant": "it compares two runs of unbounded length for all numbers of turns added to each input", "anchors": ["src/definitions/planar_2d_motion.cpp: addState 7-14, subtractState 16-23, weightedSumOfStates 25-39", "include/state_estimation/utilities/angle_utilities.h: constrainAngle 15-24, angleDifference 44-48, weightedAngleSum 101-107", "src/filters/ekf.cpp: myPredict 7-15, myCorrect 32-46", "src/filters/ukf.cpp: myPredict 50-86, myCorrect 104-156"]}
{"id": "C130", "title": "The UKF is exact on quadratic models", "statement": "If, for the control and the elapsed time, g() is a quadratic function of the state, then UKF predict(u, t) moves the estimate to the expected value of g at any random state whose mean is getState() and whose covariance is getCovariance(), whatever its distribution and the sigma point parameters. A correction with a quadratic h() at the current time compares the measurement with the expected value of h and weighs the difference by the covariance of state and h, for any such state without skew. With one state and beta + alpha^2 kappa = 2 (the constructor's parameters), and a state with the third and fourth moments of a normal distribution, the predicted covariance and the whole correction are exact: the correction is the best linear update and the reported covariance is the covariance of the actual error.", "quantifier": "all quadratic models, any number of states and measurements, all estimates with positive definite covariance, all distributions with the given moments, all admissible sigma parameters, all Cholesky factorisations", "why_tests_cant": "it quantifies over all distributions and all quadratic functions", "anchors": ["src/filters/ukf.cpp: setSigmaPointParameters 18-43, myPredict 50-86, myCorrect 104-156"]}
{"id": "C131", "title": "An EKF that starts close enough follows the true state", "statement": "An EKF on nonlinear models, used in order, on a system that moves as g() says up to bounded disturbances and is measured as h() says up to bounded errors: if the reported covariance stays bounded, the modelled noise is bounded below, and g and h deviate from their linearisation at most quadratically near the estimate, then there is a distance, computed from these bounds alone, such that whenever the true state starts within it (counted in standard deviations of the initial belief, and leaving room for the disturbances), the estimate stays within (1 - eta)^k s0 + kick/eta standard deviations of the true state after k motions, for ever. Without disturbances and errors it converges to the true state geometrically.", "quantifier": "all nonlinear models with the stated bounds, all numbers of states, controls and measurements, all true trajectories, disturbances and errors within the bounds, all in-order call sequences of any length with at most a given number of measurements per motion", "why_tests_cant": "it is a stability statement over all infinite trajectories and all nonlinear models; a test follows one trajectory", "anchors": ["src/filters/ekf.cpp: myPredict 7-15, myCorrect 32-46", "include/state_estimation/filters/filter_base.hpp: predict 73-114, correct 116-154"]}
{"id": "C132", "title": "What the sensors show: bounded covariance from anywhere, settling, convergence", "statement": "A Kalman filter goes through a stretch of motions and measurements (in-order calls). If the readings of the stretch determine the state at its end (a difference of two states that no reading shows is gone at the end), there is one bound on the reported covariance after the stretch that holds whatever the initial state and covariance, whatever came before and whatever the data; if they do not determine it, no such bound exists. If in addition the noise of the motions reaches every state, repeating the stretch makes the reported covariance converge geometrically to one positive definite matrix from every initial covariance (without any ceiling), a filter started with that matrix keeps it exactly, and with exact data the estimate converges to the true state geometrically wherever both start.", "quantifier": "all linear models, all numbers of states, controls and measurements, all stretches of motions and measurements (of any length, with any matrices), all initial beliefs and data, all numbers of repetitions", "why_tests_cant": "it is an asymptotic statement about every initial covariance, every model that meets the conditions and every number of repetitions", "anchors": ["src/filters/kalman_filter.cpp: myPredict 7-17, myCorrect 35-51", "include/state_estimation/filters/filter_base.hpp: predict 73-114, correct 116-154"]}
{"id": "C133", "title": "Bounded disturbances and measurement errors give a bounded estimation error", "statement": "A Kalman filter goes through the same cycle of motions and measurements again and again (in-order calls, any data). If the readings of the cycle determine the state at its end and the noise of its motions reaches every state, then there are a factor M and a rate q < 1, depending on the cycle alone, such that at every moment after the second cycle the estimate is within c q^k (d0 + D + E) + M (D + E) of the true state, provided the true state moves as modelled up to disturbances of length at most D and is measured up to errors of length at most E, whatever these disturbances and errors are (they need not match the noise given to the filter); d0 is the initial distance and c depends on the initial covariance.", "quantifier": "all linear models, all numbers of states, controls and measurements, all cycles that meet the two conditions, all initial beliefs, all true trajectories, all disturbances and errors within the bounds, all times", "why_tests_cant": "the bound must hold for the worst disturbance sequence of any length", "anchors": ["src/filters/kalman_filter.cpp: myPredict 7-17, myCorrect 35-51", "include/state_estimation/filters/filter_base.hpp: predict 73-114, correct 116-154"]}
{"id": "C134", "title": "How far a nonlinear filter's prediction is from the mean of the true state", "statement": "The model's g() is any function of the state. If it is linear about the estimate up to b times the squared distance, then for every distribution of the true state with mean getState() and covariance getCovariance(), an in-order predict(u, t) of the EKF moves the estimate to a point that differs from the mean of g of the true state by at most b times the sum of the reported variances, and one of the UKF to a point that differs by at most twice that; the EKF's bound is attained. If g is quadratic about the estimate up to b times the third power of the distance, the UKF's difference is at most b (E|S - x|^3 + sqrt(alpha^2 (n + kappa) v) v), v the sum of the reported variances.", "quantifier": "all functions g within the curvature bound, all numbers of states and controls, all estimates and positive definite covariances, all distributions with these moments, all sigma point parameters with alpha^2 (n + kappa) > 0, all Cholesky factors", "why_tests_cant": "the bound must hold for all distributions and all functions of bounded curvature", "anchors": ["src/filters/ekf.cpp: myPredict 7-15", "src/filters/ukf.cpp: myPredict 50-86, setSigmaPointParameters 18-43"]}
{"id": "C135", "title": "The mean error after a correction with a nonlinear sensor", "statement": "The sensor's h() is any function of the state that is linear about the estimate up to b times the squared distance; the true state is random with the reported mean and covariance, and the sensor reads h of it plus noise of mean zero (of any distribution, possibly correlated with the state). After an in-order correct(z, R, t, sensor) of the EKF, component i of the error has a mean of at most (sum_j |L_ij|) b v, where L is the gain P H^T (H P H^T + R)^-1 for the reported Jacobian and v the sum of the reported variances; for the UKF it is at most twice that with the gain the UKF uses for every measurement. In particular a sensor that is linear adds no bias.", "quantifier": "all functions h within the curvature bound, all numbers of states and measurements, all estimates and covariances, all distributions of state and noise with these means and covariances, all sigma point parameters with alpha^2 (n + kappa) > 0, all Cholesky factors", "why_tests_cant": "the bound must hold for all distributions and all functions of bounded curvature", "anchors": ["src/filters/ekf.cpp: myCorrect 32-46", "src/filters/ukf.cpp: myCorrect 104-156, setSigmaPointParameters 18-43"]}
{"id": "C136", "title": "How far one measurement can move the estimate", "statement": "In a correct(z, R, t, sensor) at the current time, let dz be the difference (by the model's own subtraction) between the measurement and the predicted one and S the covariance the filter expects it to have. The estimate moves (by the model's own addition) by a dx that is in every direction at most sqrt(dz^T S^-1 dz) standard deviations of the reduction P - P' of the reported covariance, and hence of P: a measurement within s standard deviations of its prediction moves the estimate by at most s standard deviations, and one that tells little moves it little. For KF, EKF and UKF.", "quantifier": "all models, all numbers of states and measurements, all estimates, covariances and measurements; for the UKF all sigma point parameters with alpha^2 (n + kappa) > 0 and beta >= alpha^2 and all Cholesky factors", "why_tests_cant": "a bound over all matrices, measurements and directions", "anchors": ["src/filters/kalman_filter.cpp: myCorrect 35-51", "src/filters/ekf.cpp: myCorrect 32-46", "src/filters/ukf.cpp: myCorrect 104-156"]}
{"id": "C137", "title": "An EKF correction is the best compromise between the belief and the linearised measurement", "statement": "After a correct(z, R, t, sensor) of the EKF at the current time with estimate x' and covariance P', for every state q: (q-x)^T P^-1 (q-x) + (z-h(x)-H(q-x))^T R^-1 (z-h(x)-H(q-x)) = (z-h(x))^T (H P H^T + R)^-1 (z-h(x)) + (q-x')^T P'^-1 (q-x'), h and H being the reported prediction and Jacobian. So x' is the only minimiser of the disagreement with belief and linearised measurement (a Gauss-Newton step), P' its inverse curvature.", "quantifier": "all nonlinear models, all numbers of states and measurements, all estimates, positive definite covariances, measurements and states q", "why_tests_cant": "a minimality statement over all states, for all matrices", "anchors": ["src/filters/ekf.cpp: myCorrect 32-46"]}
{"id": "C138", "title": "How much a correction shrinks the confidence region", "statement": "A correct(z, R, t, sensor) of the Kalman filter or the EKF at the current time multiplies the determinant of the reported covariance by det R / det(C P C^T + R), a number in (0, 1], whatever is measured.", "quantifier": "all models, all numbers of states and measurements, all estimates, positive semidefinite covariances and measurements", "why_tests_cant": "an identity over all matrices", "anchors": ["src/filters/kalman_filter.cpp: myCorrect 35-51", "src/filters/ekf.cpp: myCorrect 32-46"]}
{"id": "C139", "title": "For small uncertainty the UKF predicts what the EKF predicts", "statement": "An EKF and a UKF hold the same model, estimate x, covariance P and time; the model's g() deviates from its reported Jacobian's prediction at x by at most bend times the squared distance, and its noise Jacobians do not depend on the state. After the same in-order predict(u, t), with v the trace of P and c = alpha^2 (n + kappa), the predicted states differ by at most bend v in every component and the covariances by at most 2 gain bend sqrt(c v) v + bend^2 (c + beta - alpha^2) v^2 in every entry, gain bounding the Jacobian.", "quantifier": "all nonlinear models with bounded curvature, all numbers of states, all estimates, positive definite covariances and controls, all sigma point parameters with c > 0 and beta >= alpha^2, all Cholesky factors", "why_tests_cant": "a bound over all models, states and covariances", "anchors": ["src/filters/ekf.cpp: myPredict 7-15", "src/filters/ukf.cpp: setSigmaPointParameters 18-43, myPredict 50-86"]}
{"id": "C140", "title": "The order of simultaneous measurements does not matter to the EKF", "statement": "After any history of calls of an EKF, any number of measurements of any sensors, all stamped with the filter's current time, give the same state and covariance in whatever order they are passed to correct(). (False as stated: the estimate depends on the order when a sensor is not affine; true for affine sensors h(x) = H x + b with any motion model.)", "quantifier": "all histories, all motion models, all numbers of sensors and readings, all permutations of the readings", "why_tests_cant": "ranges over all permutations of all lists of readings after all histories", "anchors": ["src/filters/ekf.cpp: myCorrect 32-46", "include/state_estimation/filters/filter_base.hpp: correct 116-154"]}
{"id": "C141", "title": "A constant offset of a sensor and the bias the filter was told are the same thing", "statement": "If the models carry an offset of the state along (a prediction from x + d is the prediction from x plus d with the same Jacobian, and the reading expected by sensor k then has an offset delta_k), an EKF or a UKF started at x + d and fed with readings z + delta_k reports, after every sequence of calls (late data, queues, rewinding, reverting, changed parameters), exactly the estimate of the original filter plus d, with the same covariance, at the same times, now and at every remembered moment; and it fails exactly when the original does. In particular for SixDRates with any number of odometers and IMUs mounted in any way: taking R da off the accelerations and R dw off the rates that the IMUs report (R the mounting of each) is the same as adding da, dw to the initial bias estimates: all other estimates and every covariance are unchanged.", "quantifier": "all model classes that carry an offset, all offsets, initial estimates, noise covariances, mountings, numbers of sensors, sigma point parameters, parameters and finite sequences of calls with any time stamps", "why_tests_cant": "A test compares two runs for one offset and one sequence of calls; the claim equates two filters for every history, including rewinds.", "anchors": ["include/state_estimation/filters/filter_base.hpp: predict, correct, processQueues, rewindHistory", "src/filters/ekf.cpp", "src/filters/ukf.cpp", "src/system_models/six_d_rates.cpp: myUpdate, addVectors", "src/measurement_models/six_d_rates_imu.cpp: myUpdate", "src/definitions/six_d_rates.cpp: weightedSumOfStates"]}
{"id": "C142", "title": "Readings with the same time stamp may be processed in any order", "statement": "With history rewinding on, a Kalman filter (linear sensors) and an EKF or UKF (any system model, affine sensors) end with the same state, covariance and time whenever two sequences of calls hand in the same data within the history window, even if several readings carry the same time stamp: neither the order of arrival, nor whether they came directly, late or through the queues, nor what the unstable sort does with equal time stamps matters. Only controls and predictions must not share a time stamp with anything else.", "quantifier": "all memoryless models with linear (affine) sensors, all histories of calls (corrections, predictions, queueing, processing) whose data fit the window, all numbers of readings with equal time stamps, any two sorting routines that sort by time", "why_tests_cant": "std::sort is not stable and its treatment of equal elements is unspecified; a test sees one library's choice on one input.", "anchors": ["include/state_estimation/filters/filter_base.hpp: processQueues, rewindHistory, correct, predict", "src/filters/kalman_filter.cpp: myCorrect", "src/filters/ekf.cpp: myCorrect"]}
{"id": "C143", "title": "For small uncertainty the UKF corrects as the EKF corrects", "statement": "An EKF and a UKF with the same models are initialised with the same state x and covariance eps P and corrected with the same reading z of a nonlinear sensor whose h() deviates from its reported linearisation at x by at most bend times the squared distance. There is a constant C, independent of z and eps, such that for all 0 < eps <= 1 the corrected states differ by at most C (1 + |z - h(x)|) eps sqrt(eps) in every component and the covariances by at most C eps^2 sqrt(eps) in every entry, while the corrections themselves are of order eps and eps^2.", "quantifier": "all nonlinear sensors with bounded curvature, all numbers of states and readings, all estimates, positive definite covariances, readings and eps in (0,1], all sigma point parameters with alpha^2 (n + kappa) > 0 and beta >= alpha^2, all Cholesky factors", "why_tests_cant": "an asymptotic statement with one constant for all readings and all scales of the covariance", "anchors": ["src/filters/ekf.cpp: myCorrect 32-46", "src/filters/ukf.cpp: setSigmaPointParameters 18-43, myCorrect 104-156", "include/state_estimation/filters/filter_base.hpp: initialize, correct"]}
{"id": "C144", "title": "Without an IMU the bias estimates stay exactly as they were", "statement": "An EKF on the 6-D rates model uses only sensors whose Jacobian has nothing at the accelerometer and gyroscope biases, such as any number of the library's odometers at any mounting, and starts with biases uncorrelated with the other states. In every sequence of predictions, corrections, queued and late data, reverts and process noise changes, every estimate the filter retains has exactly the initial six biases, exactly the initial 6x6 covariance between them, and zero covariance between a bias and any other state.", "quantifier": "all sequences of calls, all numbers of sensors and mountings, all process noise, all initial states and covariances without bias correlations, both settings of the Jacobian and noise flags, all filter parameters", "why_tests_cant": "an exact invariant of all histories and all sensor mountings; a test observes single runs", "anchors": ["src/system_models/six_d_rates.cpp: SixDRates 11-16, myUpdate 18-102, addVectors 104-107", "src/measurement_models/six_d_rates_odom.cpp: myUpdate 18-25, postTfUpdate 27-41", "src/filters/ekf.cpp: myPredict 7-15, myCorrect 32-46"]}
{"id": "C145", "title": "Estimates can be saved and resumed in a new filter", "statement": "Save what getState, getCovariance and getStateTime return and the parameters, make a new filter of the same class from them with newly made models configured alike, and make the same further calls on the old and the new filter: direct, late and queued data, reverts, re-initialisations. Both give the same estimate, covariance and time, or both abort, provided that the queues were empty when saving, that no control was in use then or the first call supplies one (not older than the estimate), and, with rewinding on, that the new filter can place each call in time, which holds whenever the data are in time order. The provisos are needed: the control in use cannot be read from the filter, and the history is lost.", "quantifier": "all six filter classes, all models configured alike, all histories before saving, all sequences of calls after it, both modes, every sort", "why_tests_cant": "all histories before and all call sequences after the save; a test compares one run", "anchors": ["include/state_estimation/filters/filter_base.hpp: FilterBase 9-14, initialize 26-40, getState, getCovariance, getStateTime, applyInput, rewindHistory, pruneHistory"]}
{"id": "C146", "title": "A quantity that the system conserves and the filter knows stays as it is", "statement": "Suppose the system model conserves some linear quantities L x of the state (neither the dynamics nor the control nor the process and control noise change them, as for the total in connected tanks), and the filter starts with a positive semidefinite covariance C that claims to know them, L C L' = 0. Then, whatever is measured and however it arrives, a Kalman filter or extended Kalman filter never changes them: every retained estimate has the initial value of L x and still claims covariance 0 for it.", "quantifier": "KF and EKF, all conserving models of any dimension, all linear quantities, all initial estimates, all measurement models, all histories of calls (direct, late and queued data, reverts, re-initialisations with the same known value), both modes, every sort", "why_tests_cant": "every history and every measurement; a test follows one run", "anchors": ["src/filters/kalman_filter.cpp: myPredict 7-17, myCorrect 35-51", "src/filters/ekf.cpp: myPredict 7-15, myCorrect 32-46", "include/state_estimation/filters/filter_base.hpp: predict, correct, processQueue, applyInput, rewindHistory"]}
{"id": "C147", "title": "What no sensor sees is never learned", "statement": "Let U be directions in the state space in which a displacement is neither changed by the motion (A U = U) nor seen by any sensor (C U = 0), e.g. the common position of vehicles that only measure distances. If the initial covariance is at least U S U' (in the order of symmetric matrices), then so is the covariance of every estimate a Kalman filter or extended Kalman filter retains, in every history of calls: no linear function w'x is ever claimed to be known better than S allows. For the EKF this needs A U = U and C U = 0 for the reported Jacobians wherever they are evaluated. (That the estimates are displaced with the initial one is C141 with offset 0.)", "quantifier": "KF and EKF, all models of any dimension with such directions, all initial estimates, all histories of calls (direct, late and queued data, reverts, re-initialisations at least as uncertain), both modes, every sort", "why_tests_cant": "every history and every measurement; a test follows one run", "anchors": ["src/filters/kalman_filter.cpp: myPredict 7-17, myCorrect 35-51", "src/filters/ekf.cpp: myPredict 7-15, myCorrect 32-46", "include/state_estimation/filters/filter_base.hpp: predict, correct, processQueue, applyInput, rewindHistory"]}
{"id": "C148", "title": "What is linear in a nonlinear model is treated exactly", "statement": "If some linear combinations L g of a nonlinear system model's prediction are affine in the state, L g(q) = N q + b, however nonlinear the rest is (e.g. a conserved total, or position = position + dt velocity), then a prediction of the UKF and of the EKF treats them exactly as a Kalman filter does: the new estimate has L x' = N x + b and its covariance has L P' L' = N P N' + L (noise) L', for every estimate, covariance and choice of sigma point parameters. If a sensor is affine in the state, the UKF's correction is the Kalman filter's, whatever the system.", "quantifier": "UKF and EKF, all models with such a part, all estimates and positive definite covariances, all admissible sigma point parameters, all controls, time steps, measurements and covariances, after any history", "why_tests_cant": "all models, estimates and parameters; a test checks one", "anchors": ["src/filters/ukf.cpp: UKF::myPredict 50, UKF::myCorrect 104", "src/filters/ekf.cpp: myPredict 7-15"]}
{"id": "C149", "title": "The UKF corrects the prediction to the right side", "statement": "If a linear functional w of the next state is a convex function of the present state, then the UKF predicts a w x' at least as large as the EKF's from the same estimate. This is the side of the truth: for every random state S with the estimate as its mean, w times the EKF's prediction is at most the mean of w g(S) (Jensen). Applied to -w the same holds for concave functions with the signs turned around.", "quantifier": "UKF and EKF, all models (plain vector operations) and functionals w with w g convex, all estimates and positive definite covariances, all admissible sigma point parameters, all controls and time steps, after any history", "why_tests_cant": "all convex models, estimates and distributions; a test checks one", "anchors": ["src/filters/ukf.cpp: myPredict, updateSigmaPoints", "src/filters/ekf.cpp: myPredict 7-15"]}
{"id": "C150", "title": "What is odd about the estimate is predicted exactly, however nonlinear", "statement": "If a linear functional w of the next state is a function of the present state that deviates by opposite amounts at opposite sides of the estimate x (w g(x+d) - w g(x) = -(w g(x-d) - w g(x))), then the UKF and the EKF predict the same w x', and this is exactly the mean of w g(S) for every random state S distributed symmetrically about x, however large its deviations are.", "quantifier": "UKF and EKF, all models (plain vector operations) and functionals w with w g odd about the estimate, all positive definite covariances, all admissible sigma point parameters, all controls and time steps, all symmetric distributions of the true state, after any history", "why_tests_cant": "all odd functions, estimates and distributions; a test checks one", "anchors": ["src/filters/ukf.cpp: myPredict, updateSigmaPoints", "src/filters/ekf.cpp: myPredict 7-15"]}
{"id": "C151", "title": "Readings that do not move a nonlinear filter", "statement": "A reading of a sensor that reads the same at opposite sides of the estimate x (h(x+d) = h(x-d), e.g. a square or a distance at its minimum) leaves the UKF's estimate and covariance exactly as they were, whatever is read; and for every random state distributed symmetrically about x the covariance of state and reading is indeed zero, so that nothing could be learned linearly. An EKF whose sensor reports its true derivative is not moved by such a reading either. A reading equal to h(x) of a sensor that is odd about x leaves the UKF's estimate where it is, however nonlinear the sensor is.", "quantifier": "UKF (and, for sensors that read the same on both sides, EKF), all systems and sensors (plain vector operations), all estimates and positive definite covariances, all admissible sigma point parameters, all readings and measurement covariances, all symmetric distributions of the true state, after any history", "why_tests_cant": "all sensors, estimates and readings; a test checks one", "anchors": ["src/filters/ukf.cpp: myCorrect, updateSigmaPoints"]}
{"id": "C152", "title": "Bounds that the model respects are respected by the predictions", "statement": "If everything a nonlinear model can predict lies in a convex set (all concentrations non-negative, a share between 0 and 1), the estimates that EKF and UKF predict lie in it as well.", "quantifier": "EKF and UKF, all models (plain vector operations) and convex sets that contain all of g's values, all estimates and positive definite covariances, all admissible sigma point parameters, all controls and time steps, after any history", "why_tests_cant": "all models, sets and estimates; a test checks one", "anchors": ["src/filters/ukf.cpp: setSigmaPointParameters, UKF constructor (0.001, 0, 2), myPredict", "src/filters/ekf.cpp: myPredict 7-15"]}
{"id": "C153", "title": "A symmetric problem has symmetric estimates", "statement": "Let a linear change of coordinates be a symmetry of the problem: system model, noise and sensors look the same in the new coordinates (two equal rooms exchanged, left and right mirrored). A Kalman filter or EKF that is started at the mirrored estimate and given the mirrored calls completes if and only if the one with the original data does, and then reports the same times and the mirrored states and covariances, current and remembered. If the initial estimate and all data are their own mirror images, so are all its estimates ever after (T x = x, T P T' = P).", "quantifier": "KF and EKF, all models with such a symmetry, all initial estimates, all sequences of API calls (in any order, late data, rewinding, changes of the models that respect the symmetry), all sorting routines that look only at the time stamps", "why_tests_cant": "all symmetric models, histories and estimates; a test checks one", "anchors": ["src/filters/kf.cpp: myPredict, myCorrect", "src/filters/ekf.cpp: myPredict, myCorrect", "src/filters/filter_base.cpp"]}
{"id": "C154", "title": "What a nonlinear filter learns from one reading depends on its precision, not on what is read", "statement": "Give the same UKF (or the same EKF) a reading z with covariance R, or a reading z' with covariance R' instead. If R is at most R' (as a matrix), then the covariance after the first correction is at most the one after the second. In particular, with R = R' both are the same: the reading itself does not influence the covariance.", "quantifier": "UKF and EKF, all systems and sensors whose function (EKF: Jacobian) does not depend on the measurement covariance, all estimates and positive definite (EKF: semidefinite) covariances, all admissible sigma point parameters, all readings and measurement covariances, after any history", "why_tests_cant": "all sensors, estimates and covariances; a test checks one", "anchors": ["src/filters/ukf.cpp: myCorrect", "src/filters/ekf.cpp: myCorrect"]}
{"id": "C155", "title": "The UKF treats left and right alike", "statement": "If the model and the sensor are the same on both sides (the model's prediction of the mirrored state -x with the mirrored control -u is the mirrored prediction, the sensor's reading of -x is the mirrored reading, the noise is the same), then a UKF at the mirrored estimate makes the mirrored prediction and, with the mirrored reading, the mirrored correction, with the same covariance.", "quantifier": "UKF, all odd nonlinear models and sensors (plain vector operations), all mirrored pairs of estimates with a positive definite covariance, all admissible sigma point parameters, all controls, readings, noise covariances and time steps, after any history", "why_tests_cant": "all models, estimates and readings; a test compares one pair", "anchors": ["src/filters/ukf.cpp: myPredict (noise Jacobians of the last sigma point), myCorrect", "src/filters/ukf.cpp: setSigmaPointParameters"]}
