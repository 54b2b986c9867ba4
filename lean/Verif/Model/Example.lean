import Verif.Model.Csv
import Verif.Model.SixD
import Verif.Model.VS

/-!
# The example program: examples/six_d_rates_example.cpp

Simplifications: exact real arithmetic; the command line, the messages on `std::cout` and the two variables that are never used
(`pos_integrated`, `q_integrated`) are not modelled; the clock of the filter is exact.
-/

namespace StateEstimation.Example

open Csv

/-- `MeasTypes`, six_d_rates_example.cpp:21. -/
inductive Kind where
  | odom
  | imu
deriving DecidableEq

/-- `Meas`, six_d_rates_example.cpp:24-28. -/
structure Reading where
  t : ℝ
  z : DVec
  kind : Kind

/-- `State`, six_d_rates_example.cpp:29-33. -/
structure Output where
  t : ℝ
  x : DVec
  cov : DMat

/-- `v(i)` in the user's predicates.  Simplification: out of range (an `eigen_assert`) reads as zero; the filter only calls them with vectors
of the right size. -/
def at' (v : DVec) (i : Nat) : ℝ := (v.get? i).getD 0

open Classical in
/-- `isStationarySystem(x, z)`, six_d_rates_example.cpp:41-45. -/
noncomputable def isStationarySystem (x _z : DVec) : Bool :=
  decide (|at' x 0| < 0.05) && decide (|at' x 8| < 0.05)

open Classical in
/-- `isStationaryOdom(x, z)`, six_d_rates_example.cpp:47-51. -/
noncomputable def isStationaryOdom (x z : DVec) : Bool :=
  (decide (|at' x 0| < 0.05) && decide (|at' z 0| < 0.05)) && (decide (|at' x 8| < 0.05) && decide (|at' z 3| < 0.05))

open Classical in
/-- `isStationaryImu(x, z)`, six_d_rates_example.cpp:53-57. -/
noncomputable def isStationaryImu (x z : DVec) : Bool :=
  (decide (|at' x 0| < 0.05) && decide (|at' z 0| < 0.30)) && (decide (|at' x 8| < 0.05) && decide (|at' z 5| < 0.30))

/-- `makeStationary(x, cov)`, six_d_rates_example.cpp:59-63. -/
noncomputable def makeStationary (x : DVec) (cov : DMat) : Option (DVec × DMat) := do
  let x ← x.setSeg3? SixDRates.VX 0
  let x ← x.setSeg3? SixDRates.AX 0
  let x ← x.setSeg3? SixDRates.VPHI 0
  some (x, cov)

/-- `v.tail(n)`; out of range is an `eigen_assert`. -/
def tail? (v : DVec) (n : Nat) : Option DVec :=
  if h : n ≤ v.size then some ⟨n, fun i => v.val ⟨v.size - n + i.val, by omega⟩⟩ else none

/-- One row of a data file as a reading, six_d_rates_example.cpp:85 and 89. -/
def toReading (k : Kind) (v : DVec) : Option Reading := do
  let t ← v.get? 0
  let z ← tail? v (match k with | .odom => 4 | .imu => 6)
  some ⟨t, z, k⟩

/-- six_d_rates_example.cpp:83-91. -/
def toReadings (k : Kind) : List DVec → Option (List Reading)
  | [] => some []
  | v :: vs => do
    let r ← toReading k v
    let rs ← toReadings k vs
    some (r :: rs)

/-- Offset and conversion of the time stamps, six_d_rates_example.cpp:98-102; `front()` of an empty vector is undefined. -/
noncomputable def rebase : List Reading → Option (List Reading)
  | [] => none
  | r :: rs => some ((r :: rs).map fun m => { m with t := (m.t - r.t) / 10 ^ 9 })

/-- A diagonal matrix. -/
def diag {n : Nat} (d : Fin n → ℝ) : DMat := .of (Matrix.diagonal d)

/-- `R_p`, six_d_rates_example.cpp:126-131. -/
noncomputable def processCov : DMat :=
  diag ![1e-1, 1e-2, 1e-5, 1e-7, 1e-7, 1e-7, 1e-6, 1e-6, 0.1, 1e-8, 1e-8, 1e-8, 1e-12, 1e-12, 1e-12]

/-- `cov_odom`, six_d_rates_example.cpp:135-136. -/
noncomputable def covOdom : DMat := diag ![1e-5, 1e-4, 1e-6, 5e-1]

/-- `cov_imu`, six_d_rates_example.cpp:138-139. -/
noncomputable def covImu : DMat := diag ![1e-3, 1e-3, 1e-2, 1e-1, 1e-1, 0.0001]

/-- `x_i`, six_d_rates_example.cpp:143-144. -/
noncomputable def initialState : Fin 18 → ℝ := ![0, 0, 0, 0, 0, 0, 0, 0, 0, 0, 0, 9.8062, 0, 0, 0, 0, 0, 0]

/-- The diagonal of `cov_i`, six_d_rates_example.cpp:146-153 (line 149 has `1e43`). -/
noncomputable def initialVar : Fin 18 → ℝ :=
  ![1e-5, 1e-5, 1e-5, 1e-4, 1e43, 1e-4, 1e-5, 1e-5, 1e-5, 1e-9, 1e-9, 1e-9, 1e-6, 1e-6, 1e-6, 1e-3, 1e-3, 1e-3]

/-- The translation of `odom_tf`, six_d_rates_example.cpp:121-122. -/
noncomputable def odomTf : Iso := ⟨1, ![-0.26, 0, 0]⟩

/-- The measurement model classes. -/
noncomputable def sensors : Kind → MeasClass ℝ NonlinMeasData TfData
  | .odom => SixDRatesOdom.cls
  | .imu => SixDRatesImu.cls

/-- The models behind the filter. -/
abbrev Models := Env Kind NonlinSysData SixDRates.Flags NonlinMeasData TfData

/-- Setting the stationary functions, filter_model.cpp:77-85. -/
def setStationary (fm : FilterModel) (is : DVec → DVec → Bool) (make : DVec → DMat → Option (DVec × DMat)) : FilterModel :=
  { fm with isStationaryF := some is, makeStationaryF := some make }

/-- The models as configured before the filter is constructed, six_d_rates_example.cpp:105-132. -/
noncomputable def setup : Option Models := do
  let sys := SixDRates.construct true true
  let odom ← SixDRatesOdom.construct true
  let imu ← SixDRatesImu.construct true
  let sys := { sys with fm := setStationary sys.fm isStationarySystem makeStationary }
  let odom := { odom with fm := setStationary odom.fm isStationaryOdom makeStationary }
  let imu := { imu with fm := setStationary imu.fm isStationaryImu makeStationary }
  let odom ← TfMeas.setTf SixDRatesOdom.postTfUpdate odom odomTf
  let sys ← sys.setProcessCovariance processCov
  some { sys := sys, meas := fun k => match k with | .odom => odom | .imu => imu }

/-- The active states and measurements, chosen after the construction of the filter, six_d_rates_example.cpp:162-188. -/
def activate (e : Models) : Models :=
  { sys := { e.sys with fm := e.sys.fm.setActiveStates [0, 1, 2, 3, 4, 5, 6, 7, 8] }
    meas := fun k => match k with
      | .odom => (e.meas .odom).setActiveMeasurements [0, 1, 2, 3]
      | .imu => (e.meas .imu).setActiveMeasurements [0, 1, 2, 3, 4, 5] }

/-- The filter class: `EKFVS`. -/
noncomputable abbrev plant : Plant ℝ DVec DMat Kind Models := ekfvsPlant SixDRates.cls sensors

/-- The covariance used with a reading, six_d_rates_example.cpp:198 and 200. -/
noncomputable def covOf : Kind → DMat
  | .odom => covOdom
  | .imu => covImu

/-- The loop over the readings, six_d_rates_example.cpp:195-205. -/
noncomputable def loop : List Reading → Filter ℝ DVec DMat Kind Models → Option (List Output)
  | [], _ => some []
  | m :: ms, f => do
    let g ← f.correct plant m.z (covOf m.kind) m.t (some m.kind)
    let rest ← loop ms g
    some (⟨g.getStateTime, g.getState, g.getCovariance⟩ :: rest)

/-- The filter of the example at time `t`: default parameters (filter_base.h:77-86), construction, then the choice of the active states,
six_d_rates_example.cpp:160-188. -/
noncomputable def filterAt (e : Models) (t : ℝ) : Filter ℝ DVec DMat Kind Models :=
  let f := Filter.construct plant { rewindHistory := false, historyWindow := 1, allowPast := false } e
    (.of initialState) (diag initialVar) t
  { f with env := activate f.env }

/-- From the readings (sorted and rebased) to the outputs, six_d_rates_example.cpp:104-205. -/
noncomputable def estimate (ms : List Reading) : Option (List Output) := do
  let e ← setup
  let m ← ms.head?
  loop ms (filterAt e m.t)

/-- A row of the output, six_d_rates_example.cpp:209-226: time, state, covariance row by row.  Simplification: assigning vectors of other sizes
(an `eigen_assert`) is `none`. -/
def toRow (o : Output) : Option DVec :=
  if h : o.x.size = 18 ∧ o.cov.rows = 18 ∧ o.cov.cols = 18 then
    some (vecOf (o.t :: List.ofFn o.x.val ++ (List.ofFn fun i : Fin 18 => List.ofFn fun j : Fin 18 =>
      o.cov.val (Fin.cast h.2.1.symm i) (Fin.cast h.2.2.symm j)).flatten))
  else none

/-- All rows. -/
def toRows : List Output → Option (List DVec)
  | [] => some []
  | o :: os => do
    let r ← toRow o
    let rs ← toRows os
    some (r :: rs)

/-- The names of the first columns, six_d_rates_example.cpp:228-229. -/
def stateNames : List String :=
  ["t", "VX", "VY", "VZ", "AX", "AY", "AZ", "VPHI", "VTHETA", "VPSI", "GX", "GY", "GZ", "B_AX", "B_AY", "B_AZ", "B_WX", "B_WY", "B_WZ"]

/-- The name of the column of the covariance entry `(i, j)`, six_d_rates_example.cpp:232. -/
def covName (i j : Nat) : List Char := ['c', 'o', 'v', '_'] ++ natChars i ++ natChars j

/-- All column names. -/
def columnNames : List (List Char) :=
  stateNames.map String.toList ++ (List.range 18).flatMap fun i => (List.range 18).map fun j => covName i j

/-- The header line, six_d_rates_example.cpp:228-234. -/
def header : List Char := [','].intercalate columnNames

/-- How the program ends: exit code 1 before anything is written, or 0 with the content of the output file. -/
inductive Ended where
  | exit1
  | written (content : List Char)

/-- `main`, six_d_rates_example.cpp:65-239, on the contents of the two input files.  `none` is undefined behaviour or an uncaught exception.
`sort` is `std::sort` with the comparator of line 96. -/
noncomputable def run (stod : List Char → Option ℝ) (sort : List Reading → List Reading) (odomFile imuFile : Option (List Char)) :
    Option Ended :=
  match loadCsvFields stod odomFile true [2, 12, 13, 14, 17] [] with
  | .threw => none
  | .returned false _ => some .exit1
  | .returned true odomData =>
    match loadCsvFields stod imuFile true [2, 11, 12, 13, 8, 9, 10] [] with
    | .threw => none
    | .returned false _ => some .exit1
    | .returned true imuData => do
      let a ← toReadings .odom odomData
      let b ← toReadings .imu imuData
      let ms ← rebase (sort (a ++ b))
      let os ← estimate ms
      let rows ← toRows os
      some (.written (writeToFile header rows))

end StateEstimation.Example
