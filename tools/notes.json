{
 "C06": {
  "note": "processQueues equals the sequence of direct calls for batches whose times strictly increase from the filter time; with equal time stamps the direct calls and the batch differ (C06_tie_triggers_rewind)."
 },
 "C08": {},
 "C10": {
  "note": "Full claim false of the code (C10_refuted): rewinding does not restore the control in use, so a late measurement is reached with a control from its future. Partial: any mixture of measurements, control-free predictions and repetitions of the control in use. C106: all six filters of the library and SixDRates meet the hypotheses."
 },
 "C11": {
  "note": "revertToState restores state, covariance, time; the remembered control is not reverted (C11_refuted_control_not_reverted)."
 },
 "C14": {
  "note": "Full claim false: pruning looks only at the newest end, see C14_refuted, C14_unbounded_memory."
 },
 "C16": {
  "note": "Full claim false: initialize keeps the remembered control (C16_refuted). Partial: everything else is as in a fresh filter."
 },
 "C19": {
  "note": "Full claim false (C19_refuted_predicate: the stationary predicate is shown a different control; C19_refuted_dt: the correction sees a different dt). Partial theorem: holds whenever neither of the two distinguishes."
 },
 "C22": {
  "note": "Full claim false in both modes (refuted); partial theorems give the conditions under which it holds."
 },
 "C23": {
  "note": "Full claim false: std::sort is not stable (C23_refuted); without ties it holds, and with ties among readings only it holds for the KF and for the EKF and UKF with affine sensors (C142)."
 },
 "C24": {
  "note": "Full claim false (C24_refuted): a measurement or predict(t) in between puts the old control covariance back. Partial: the control directly following the setter uses the new value."
 },
 "C38": {
  "note": "Full claim false for state dependent noise Jacobians (C38_refuted); holds when they do not depend on the state."
 },
 "C40": {
  "note": "Full claim false (C40_refuted_kfvs, C40_refuted_ekfvs); partial theorems for correct."
 },
 "C42": {
  "note": "Full claim false (C42_refuted): the full covariance can lose positive semidefiniteness; the active block always keeps it."
 },
 "C45": {
  "note": "Full claim false: a list of only invalid indices activates everything; repeated indices are kept and make KalmanFilterVS overconfident (variance 1/(N^2+1) after one measurement). Partial: invalid indices next to a valid one are ignored."
 },
 "C67": {
  "note": "False (C67_refuted_more_states, C67_refuted_fewer_states). Partial: it holds when setSigmaPointParameters is called after setActiveStates."
 },
 "C68": {
  "extra": [
   "C36_ukf_predict",
   "C37_ukf_correct"
  ],
  "note": "C36_ukf_predict and C37_ukf_correct state the complete equations."
 },
 "C51": {
  "note": "False for six_d_rates (C51_refuted_six_d: two equal columns with weights 1/2 return gravity of twice the magnitude); proved for the default operation and planar_2d; the partial theorem gives the exact six_d_rates result."
 },
 "C55": {
  "note": "Exact derivative proved for the sensor models. For SixDRates the claim is false (C55_refuted_rates); C55_rates_partial and C55_rates_every_direction_partial bound the difference between G() and the derivative of g() in every direction."
 },
 "C56": {
  "note": "False (C56_refuted_odom, C56_refuted_imu): setTf(identity) after another transform leaves H of the old one. h() always refers to the latest transform (proved); H() does unless the last call set the identity after another transform (partial)."
 },
 "C58": {
  "note": "False (C58_refuted*): the velocity transform uses the lever arm R^T t, the acceleration transform t. Partial: holds for pure translations or pure rotations."
 },
 "C60": {
  "note": "Proved for every gravity vector except those pointing exactly along +z, where the code divides by zero (C60_refuted...)."
 },
 "C63": {
  "note": "The error-ellipse geometry is proved; the covariance version is refuted (uses eigenvalues instead of their square roots)."
 },
 "C66": {
  "note": "False for six_d_rates (C66_refuted_six_d: the gravity difference is rescaled to 9.8062); the partial theorem gives what holds; planar_2d proved up to heading normalisation."
 },
 "C64": {
  "note": "False (C64_refuted: from 0.7 an input stamped 2.9 leaves the clock at 2.9000000000000004 and a second input stamped 2.9 is dropped; C64_refuted_clock_goes_back). Proved: rounding never moves the clock back with rewinding off; exact when the stamp is at most twice the state time (Sterbenz) or stamps lie on a common binary grid (all Unix times 2004-2038), then every API run equals the run on an exact clock."
 },
 "C65": {
  "note": "False with rewinding on, with past measurements allowed, and for queued inputs (refuted; the clock becomes NaN and never recovers). Partial: rewinding off without past measurements."
 },
 "C04": {
  "note": "For clocks without rounding (integers, rationals, reals). For doubles see C64_refuted_clock_goes_back and C64_double_clock_monotone."
 },
 "C70": {
  "note": "Full claim false: for every double with |a| > 2^56 constrainAngle never returns (C70_refuted). Partial: for |a| <= 2^56 it returns a double in [-M_PI, M_PI], unchanged if it was already there; for |a| <= 64 no step rounds."
 },
 "C71": {
  "note": "For all doubles the result is the rounded difference plus a whole number of turns 2*M_PI, exactly, in [-M_PI, M_PI], and antisymmetric."
 },
 "C75": {
  "note": "False for the biases (C75_refuted_bias_variance_never_grows: the rows of the noise Jacobian for the biases are zero, so in every run no process noise ever increases a bias variance). Partial: the exact effect on velocity, acceleration and rate, and a third-order bound for gravity."
 },
 "C83": {
  "note": "Second half false of the code (C83_start_refuted: no bound on the error exists; C83_start gives the exact estimates). C83_standstill_partial proves the first half."
 },
 "C84": {
  "note": "Count holds; distinctness is false (C84_header_refuted). Partial: names of states and of the covariances between the first ten states."
 },
 "C90": {
  "note": "Full claim false (C90_negative_variance: variance 5*2^60, sensor coefficient 7, measurement variance 1 give -1280). Partial: sensor coefficients +-2^k (in particular a sensor of the state itself), every variance and every sequence of calls, short of reciprocals that underflow."
 },
 "C91": {
  "note": "Full claim false (C91_refuted): the factorisation stops at the first zero pivot and nobody checks. Partial: positive definite covariances (all sizes, every history), and exactly known components in the last places."
 },
 "C93": {
  "note": "Full for common measurement models (all six filter classes, every interleaving, any change to the private system models). With a common system model: full as long as the user does not change the models between calls; otherwise false (C93_refuted: predict(t) of one filter restores its old control covariance)."
 },
 "C100": {
  "note": "The full claim (a NaN is rejected or heals) is false of the code: C100_refuted_*. C100_partial proves what holds: NaN-free data keeps every state NaN-free, and times and covariances are unaffected by NaN data."
 },
 "C103": {
  "note": "The full claim (symmetric, variances not negative) is false of the code in double precision: C103_refuted_*. Proved: the measured component behaves bit for bit as in a one-state filter (C90), and constant-velocity or random-walk predictions with control noise on one state keep exact symmetry."
 },
 "C105": {
  "note": "The full claim is false of the code: C105_refuted_*. C105_motion_partial states exactly what is predicted: exact without rotation; with rotation the velocity in the old frame and gravity turned twice too far."
 },
 "C09": {
  "note": "Over model classes that are memoryless; C106 shows that the six filters of the library with any stateless model classes are."
 },
 "C108": {
  "note": "Proved for questions before measurements and predictions with models whose predictions compose (without rewind mode; in order in every mode). The full claim is false of the code: questions before a new control (C108_control_refuted), models whose noise does not scale with time (C108_noise_refuted), and SixDRates (C108_six_d_refuted, C108_six_d_steps)."
 },
 "C109": {
  "note": "The full claim is false of the code (C109_at_rest_refuted: one prediction multiplies gravity by about 35 and blows up its variance). Proved: gravity stays below 37 x 9.8062 after every call sequence, and each correction rescales it."
 },
 "C113": {
  "note": "In-order data: proved in full. Late data after switching off and on: the full claim is false of the code (C113_switching_late_refuted), and C113_gap_lost says exactly what is lost."
 },
 "C121": {
  "note": "Proved: with rewinding on, a direct call writes exactly one message (right kind, right time) iff the input is older than everything remembered, and then changes nothing; otherwise it is applied; nothing else ever writes. Full claim false: inputs dropped from the queues, and late inputs with rewinding off, leave no message (refuted on concrete runs)."
 },
 "C146": {
  "note": "The UKF is left out: its Cholesky factorisation needs a positive definite covariance, which L C L' = 0 excludes."
 },
 "C152": {
  "note": "Proved: the EKF always, and the UKF for all parameters with alpha^2 (n + kappa) >= n. Refuted for the UKF's default parameters by C152_defaults_refuted; the full claim is false of the code."
 },
 "C155": {
  "note": "Proved: every correction, and every prediction of a model whose noise Jacobians do not depend on the state. Refuted for noise that depends on the state by C155_refuted; the full claim is false of the code."
 }
}