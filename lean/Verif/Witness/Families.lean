import Verif.Props.LateData
import Verif.Props.Ledger
import Verif.Props.Gaps
import Verif.Props.Sharing
import Verif.Props.SharingVS
import Verif.Props.Frame
import Verif.Props.Scale
import Verif.Props.Response
import Verif.Props.Uninit
import Verif.Examples.Quad

/-!
# Theorems stated for all six filters, applied

Where a property is proved for several filter classes and the file of the theorem shows a concrete case for one of them only, the
others are applied here: to the six-D rates model with odometry and IMU, to a cart with a position sensor (`cvClass`, `posClass`) and to the quadratic
model of Examples/Quad.
-/

namespace StateEstimation.Witness

open Props Filter Examples

/-! ## Stateless models: C106, C111, C115 -/

section stateless

variable (sort : List (FilterInput ℝ DVec DMat Bool) → List (FilterInput ℝ DVec DMat Bool))
variable (f0 : Filter ℝ DVec DMat Bool (Env Bool NonlinSysData SixDRates.Flags NonlinMeasData TfData)) (hr : f0.params.rewindHistory = true)
variable (u0 : Filter ℝ DVec DMat Bool (Env Bool NonlinSysData SixDRates.Flags NonlinMeasData TfData × SigmaParams))
variable (hu : u0.params.rewindHistory = true) (llt : DMat → Option DMat) (junk : Nat → Nat → ℝ)

example := C106_ekf_vs sort SixDRates.config SixDRates.stateless sixDCfg sixDSensors_stateless f0 hr
example := C106_ukf sort llt junk SixDRates.config SixDRates.stateless sixDCfg sixDSensors_stateless u0 hu
example := C106_ukf_vs sort llt junk SixDRates.config SixDRates.stateless sixDCfg sixDSensors_stateless u0 hu
example := C111_ekf_vs SixDRates.config SixDRates.stateless sixDCfg sixDSensors_stateless f0 hr
example := C111_ukf llt junk SixDRates.config SixDRates.stateless sixDCfg sixDSensors_stateless u0 hu
example := C111_ukf_vs llt junk SixDRates.config SixDRates.stateless sixDCfg sixDSensors_stateless u0 hu
example := C115_ekf_vs SixDRates.config SixDRates.stateless sixDCfg sixDSensors_stateless f0 hr
example := C115_ukf llt junk SixDRates.config SixDRates.stateless sixDCfg sixDSensors_stateless u0 hu
example := C115_ukf_vs llt junk SixDRates.config SixDRates.stateless sixDCfg sixDSensors_stateless u0 hu

end stateless

/-- A cart: `x' = x + v dt`, `v' = v + u dt`; state-independent matrices. -/
noncomputable def cart : SysClass ℝ LinSysData Unit :=
  SysClass.plain fun s _ _ dt => (some (⟨.of !![1, dt; 0, 1], .of !![0; dt]⟩, DMat.identity 2, DMat.of !![0; dt])).map fun d =>
    { s with der := d.1, P := d.2.1, V := d.2.2 }

theorem cart_stateless : cart.Stateless sysConfig :=
  stateless_sys fun _ _ _ dt => some ((⟨.of !![1, dt; 0, 1], .of !![0; dt]⟩ : LinSysData), DMat.identity 2, DMat.of !![0; dt])

/-- Its position, measured. -/
noncomputable def cartPos (_ : Bool) : MeasClass ℝ LinMeasData Unit :=
  MeasClass.plain fun m _ _ => (some ⟨.of !![1, 0]⟩).map fun d => { m with der := d }

theorem cartPos_stateless (k : Bool) : (cartPos k).Stateless measConfig := stateless_meas fun _ _ _ => some (⟨.of !![1, 0]⟩ : LinMeasData)

section

variable (sort : List (FilterInput ℝ DVec DMat Bool) → List (FilterInput ℝ DVec DMat Bool)) (hsort : ∀ l, (sort l).Perm l)
variable (f0 : Filter ℝ DVec DMat Bool (Env Bool LinSysData Unit LinMeasData Unit)) (hr : f0.params.rewindHistory = true)

example := C106_kf_vs sort sysConfig cart_stateless (fun _ => measConfig) cartPos_stateless f0 hr
example := C111_kf sysConfig cart_stateless (fun _ => measConfig) cartPos_stateless f0 hr
example := C111_kf_vs sysConfig cart_stateless (fun _ => measConfig) cartPos_stateless f0 hr
example := C115_kf sysConfig cart_stateless (fun _ => measConfig) cartPos_stateless f0 hr
example := C115_kf_vs sysConfig cart_stateless (fun _ => measConfig) cartPos_stateless f0 hr

/-! ## Sharing models: C93.  Two filters, calls in turn. -/

variable (params : Bool → Params ℝ) (x : Bool → DVec) (c : Bool → DMat) (t : Bool → ℝ)

/-- calls of two filters in turn -/
private def turns (E : Type) : List (Bool × Op ℝ DVec DMat Bool E) :=
  [(true, .predictTime 1), (false, .correct (.of ![3]) (.identity 1) 2 (some true)), (true, .correct (.of ![4]) (.identity 1) 2 (some false)),
    (false, .predictControl (.of ![1]) 3)]

private theorem turns_ok {E : Type} (Q : (E → Option E) → Prop) : ∀ c ∈ turns E, c.2.NamesSensor ∧ c.2.ChangesOnly Q := by
  intro c hc
  simp only [turns, List.mem_cons, List.not_mem_nil, or_false] at hc
  rcases hc with rfl | rfl | rfl | rfl
  · exact ⟨trivial, trivial⟩
  · exact ⟨rfl, trivial⟩
  · exact ⟨rfl, trivial⟩
  · exact ⟨trivial, trivial⟩

private theorem turns_leave {E : Type} : ∀ c ∈ turns E, c.2.NamesSensor ∧ c.2.LeavesModels := by
  intro c hc
  simp only [turns, List.mem_cons, List.not_mem_nil, or_false] at hc
  rcases hc with rfl | rfl | rfl | rfl
  · exact ⟨trivial, trivial⟩
  · exact ⟨rfl, trivial⟩
  · exact ⟨rfl, trivial⟩
  · exact ⟨trivial, trivial⟩

variable (sys : Bool → Sys LinSysData Unit) (meas : Bool → Meas LinMeasData Unit)

example := C93_share_sensors_kf (ι := Bool) sort hsort params x c t cart cartPos (fun _ => measConfig) cartPos_stateless sys meas
  (turns _) (turns_ok _)
example := C93_share_sensors_kf_vs (ι := Bool) sort hsort params x c t cart cartPos (fun _ => measConfig) cartPos_stateless sys meas
  (turns _) (turns_ok _)
example (e0 : Env Bool LinSysData Unit LinMeasData Unit) := C93_share_all_kf_partial (ι := Bool) sort hsort params x c t cart cartPos sysConfig
  cart_stateless (fun _ => measConfig) cartPos_stateless e0 (turns _) turns_leave
example (e0 : Env Bool LinSysData Unit LinMeasData Unit) := C93_share_all_kf_vs_partial (ι := Bool) sort hsort params x c t cart cartPos sysConfig
  cart_stateless (fun _ => measConfig) cartPos_stateless e0 (turns _) turns_leave

end

section

variable (sort : List (FilterInput ℝ DVec DMat Bool) → List (FilterInput ℝ DVec DMat Bool)) (hsort : ∀ l, (sort l).Perm l)
variable (params : Bool → Params ℝ) (x : Bool → DVec) (c : Bool → DMat) (t : Bool → ℝ) (llt : DMat → Option DMat) (junk : Nat → Nat → ℝ)
variable (sys : Bool → Sys NonlinSysData SixDRates.Flags) (meas : Bool → Meas NonlinMeasData TfData) (sp : Bool → SigmaParams)
variable (e0 : Env Bool NonlinSysData SixDRates.Flags NonlinMeasData TfData)

example := C93_share_sensors_ekf (ι := Bool) sort hsort params x c t SixDRates.cls sixDSensors sixDCfg sixDSensors_stateless sys meas
  (turns _) (turns_ok _)
example := C93_share_sensors_ukf (ι := Bool) sort hsort params x c t llt junk SixDRates.cls sixDSensors sixDCfg sixDSensors_stateless sys sp meas
  (turns _) (turns_ok _)
example := C93_share_sensors_ukf_vs (ι := Bool) sort hsort params x c t llt junk SixDRates.cls sixDSensors sixDCfg sixDSensors_stateless sys sp meas
  (turns _) (turns_ok _)
example := C93_share_all_ekf_partial (ι := Bool) sort hsort params x c t SixDRates.cls sixDSensors SixDRates.config
  SixDRates.stateless sixDCfg sixDSensors_stateless e0 (turns _) turns_leave
example := C93_share_all_ekf_vs_partial (ι := Bool) sort hsort params x c t SixDRates.cls sixDSensors SixDRates.config
  SixDRates.stateless sixDCfg sixDSensors_stateless e0 (turns _) turns_leave
example := C93_share_all_ukf_partial (ι := Bool) sort hsort params x c t llt junk SixDRates.cls sixDSensors SixDRates.config
  SixDRates.stateless sixDCfg sixDSensors_stateless e0 sp (turns _) turns_leave
example := C93_share_all_ukf_vs_partial (ι := Bool) sort hsort params x c t llt junk SixDRates.cls sixDSensors SixDRates.config
  SixDRates.stateless sixDCfg sixDSensors_stateless e0 sp (turns _) turns_leave

/-! ## Frames: C78.  The odometry is read, the IMU's model stays. -/

/-- readings of the odometry and predictions -/
private def odometry (E : Type) : List (Op ℝ DVec DMat Bool E) :=
  [.predictTime 1, .correct (.zero 6) (.identity 6) 2 (some true), .enqueueMeasurement (.zero 6) (.identity 6) 1 (some true), .processQueues]

private theorem odometry_ok {E : Type} (same : E → E → Prop) : ∀ op ∈ odometry E, NotAbout false same op := by
  intro op hop
  simp only [odometry, List.mem_cons, List.not_mem_nil, or_false] at hop
  rcases hop with rfl | rfl | rfl | rfl
  · exact trivial
  · exact ⟨true, rfl, by decide⟩
  · exact ⟨true, rfl, by decide⟩
  · exact trivial

variable (f0 : Filter ℝ DVec DMat Bool (Env Bool NonlinSysData SixDRates.Flags NonlinMeasData TfData))
variable (l0 : Filter ℝ DVec DMat Bool (Env Bool LinSysData Unit LinMeasData Unit))
variable (u0 : Filter ℝ DVec DMat Bool (Env Bool NonlinSysData SixDRates.Flags NonlinMeasData TfData × SigmaParams))

example (g hg) := C78_other_sensors_ekf SixDRates.cls sixDSensors sort hsort f0 (.zero 18) (.identity 18) 0 false (odometry _) (odometry_ok _) g hg
example (g hg) := C78_other_sensors_ekfvs SixDRates.cls sixDSensors sort hsort f0 (.zero 18) (.identity 18) 0 false (odometry _) (odometry_ok _) g hg
example (g hg) := C78_other_sensors_kfvs cart cartPos sort hsort l0 (.zero 2) (.identity 2) 0 false (odometry _) (odometry_ok _) g hg
example (g hg) := C78_other_sensors_ukf llt junk SixDRates.cls sixDSensors sort hsort u0 (.zero 18) (.identity 18) 0 false (odometry _) (odometry_ok _) g hg
example (g hg) := C78_other_sensors_ukfvs llt junk SixDRates.cls sixDSensors sort hsort u0 (.zero 18) (.identity 18) 0 false (odometry _) (odometry_ok _) g hg

end

/-! ## Proportional response: C116 -/

example : RespondsLinearly (ekfPlant quadClass fun _ : Unit => squareClass) := C116_ekf (plain_ops _) fun _ => plain_mops _
example (llt junk) : RespondsLinearly (ukfPlant llt junk quadClass fun _ : Unit => squareClass) := C116_ukf llt junk (plain_ops _) fun _ => plain_mops _
example : RespondsLinearly (kfvsPlant cvClass fun _ : Unit => posClass) := C116_kf_vs (plain_ops _) fun _ => plain_mops _
example : RespondsLinearly (ekfvsPlant quadClass fun _ : Unit => squareClass) := C116_ekf_vs (plain_ops _) fun _ => plain_mops _
example (llt junk) : RespondsLinearly (ukfvsPlant llt junk quadClass fun _ : Unit => squareClass) :=
  C116_ukf_vs llt junk (plain_ops _) fun _ => plain_mops _

end StateEstimation.Witness
