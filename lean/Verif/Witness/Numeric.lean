import Verif.Props.Believed
import Verif.Props.Vague
import Verif.Props.Doubt
import Verif.Props.VSHistory
import Verif.Props.VariableState
import Verif.Props.PartUKF
import Verif.Props.Unscented

/-!
# Theorems about one correction or prediction, and about positive definiteness, applied

Models: constant velocity with the position sensor (`cvClass`, `posClass`, `posOnly`: only the position active), the quadratic model
(`quadClass`, `squareClass`), and two states of which the first is active (`duoClass`, `duoSquare`, `duoEnv`).
-/

namespace StateEstimation.Witness

open Props Filter Examples Matrix

/-- A `UKF`'s default parameters for `n` states are admissible. -/
theorem admissible (n : Nat) (h : 0 < n) : ∃ sp, SigmaAdmissible n sp := by
  have hn : (0 : ℝ) < n := Nat.cast_pos.mpr h
  have : (setSigma n n 1 0 2).isSome := by
    unfold setSigma
    rw [if_neg (by simpa using h.ne')]
    have e : ∀ (d : Nat) (a b : ℝ), (DVec.const (2 * d + 1) a).set? 0 b = some (.of fun i : Fin (2 * d + 1) => if (i : ℕ) = 0 then b else a) := by
      intro d a b
      simp [DVec.set?, DVec.const]
    simp [DVec.set?, DVec.get?, DVec.const]
  obtain ⟨sp, hsp⟩ := Option.isSome_iff_exists.mp this
  exact ⟨sp, 1, 0, 2, hsp, by simpa using hn, by norm_num⟩

/-- A nonlinear filter at state 1 with variance 1 (so that the sensor `h = x²` sees the state). -/
noncomputable def quadFilter : Filter ℝ DVec DMat Unit (Env Unit NonlinSysData Unit NonlinMeasData Unit) :=
  Filter.construct (ekfPlant quadClass fun _ => squareClass) ⟨true, 10, true⟩ quadEnv (.of ![1]) (.of (1 : Matrix (Fin 1) (Fin 1) ℝ)) 0

theorem now {E : Type} (p : Plant ℝ DVec DMat Unit E) (f : Filter ℝ DVec DMat Unit E) (h : f.getStateTime = 0) :
    f.predictTime p 0 = some f := by
  unfold predictTime
  rw [if_neg]
  rw [LawfulTime.lt_iff, not_lt]
  exact le_of_eq h.symm

/-- The sensor `h = x²` at `x = 1`. -/
theorem square_yields (me : Meas NonlinMeasData Unit) (x : Fin 1 → ℝ) (dt : ℝ) :
    squareClass.Yields NonlinMeasData.Sized me 1 x dt fun d => d = ⟨.of ![x 0 ^ 2], .of !![2 * x 0]⟩ := by
  intro m' r hm' hf ha hr
  change (if m'.stateSize = 1 ∧ m'.measDims = 1 then some { m' with der := (⟨vec1 (head (.of x) ^ 2), mat1 (2 * head (.of x))⟩ : NonlinMeasData) }
    else some m') = some r at hr
  rw [if_pos ⟨hm'.states, hm'.meas⟩, Option.some.injEq, head_of] at hr
  rw [← hr]

example (z : Fin 1 → ℝ) := C120_ekf (sc := quadClass) (plain_ops _) (fun _ => square_contract) (fun _ => plain_mops _) quadFilter quadFilter () 0
    (le_refl (0 : ℝ)) rfl rfl (now _ _ rfl) (x := ![1]) (P := 1) rfl rfl ((quadEnv_ok (Q := EstimatePSD 1)).meas ())
    (square_yields _ _ _) (by
      have : (!![2 * (![1] : Fin 1 → ℝ) 0] : Matrix (Fin 1) (Fin 1) ℝ) * 1 * (!![2 * (![1] : Fin 1 → ℝ) 0])ᵀ = (4 : ℝ) • 1 := by
        ext i j; fin_cases i; fin_cases j; simp [Matrix.mul_apply]; norm_num
      rw [this]
      exact PosDef.one.smul (by norm_num)) z PosDef.one

/-- Two states, first active. -/
noncomputable def duoFilter : Filter ℝ DVec DMat Unit (Env Unit NonlinSysData Unit NonlinMeasData Unit) :=
  Filter.construct (ekfvsPlant duoClass fun _ => duoSquare) ⟨true, 10, true⟩ duoEnv (.of ![1, 5]) (.of !![1, 3; 3, 1]) 0

theorem duo_sub (a b c : ℝ) : (!![1, a; b, c] : Matrix (Fin 2) (Fin 2) ℝ).submatrix sel0 sel0 = 1 := by
  ext i j; fin_cases i; fin_cases j; rfl

theorem duo_yields (me : Meas NonlinMeasData Unit) (x : Fin 2 → ℝ) (dt : ℝ) :
    duoSquare.Yields NonlinMeasData.Sized me 1 x dt fun d => d = ⟨.of ![x 0 ^ 2], .of !![2 * x 0, 0]⟩ := by
  intro m' r hm' hf ha hr
  have hh : head (.of x) = x 0 := by simp [head, DVec.get?]
  change (if m'.stateSize = 2 ∧ m'.measDims = 1 then some { m' with der := (⟨vec1 (head (.of x) ^ 2), .of !![2 * head (.of x), 0]⟩ : NonlinMeasData) }
    else some m') = some r at hr
  rw [if_pos ⟨hm'.states, hm'.meas⟩, Option.some.injEq, hh] at hr
  rw [← hr]

theorem duo_selects : Selects duoEnv.sys.activeStates sel0 := ⟨by decide, by decide⟩

example (z : Fin 1 → ℝ) := C120_ekf_vs duo_contract (plain_ops _) (fun _ => duoSquare_contract) (fun _ => plain_mops _) duoFilter duoFilter () 0
    (le_refl (0 : ℝ)) rfl rfl (now _ _ rfl) (x := ![1, 5]) (P := !![1, 3; 3, 1]) rfl rfl (duoEnv_ok (Q := EstimatePSD 2)).sys
    ((duoEnv_ok (Q := EstimatePSD 2)).meas ()) duo_selects (ρ := id) selects_nil
    (by rw [duo_sub]; exact PosSemidef.one) (duo_yields _ _ _) (by
      rw [duo_sub]
      have : (!![2 * (![1, 5] : Fin 2 → ℝ) 0, 0] : Matrix (Fin 1) (Fin 2) ℝ).submatrix id sel0 * 1 *
          ((!![2 * (![1, 5] : Fin 2 → ℝ) 0, 0] : Matrix (Fin 1) (Fin 2) ℝ).submatrix id sel0)ᵀ = (4 : ℝ) • 1 := by
        ext i j; fin_cases i; fin_cases j; simp [Matrix.mul_apply, sel0]; norm_num
      rw [this]
      exact PosDef.one.smul (by norm_num)) z PosDef.one

/-- The position-only filter. -/
noncomputable def posFilter : Filter ℝ DVec DMat Unit (Env Unit LinSysData Unit LinMeasData Unit) :=
  Filter.construct (kfvsPlant cvClass fun _ => posClass) ⟨true, 10, true⟩ posOnly (.of ![1, 5]) (.of !![1, 3; 3, 1]) 0

theorem pos_yields (me : Meas LinMeasData Unit) (x : Fin 2 → ℝ) (dt : ℝ) :
    posClass.Yields LinMeasData.Sized me 1 x dt fun d => d.C = .of !![1, 0] := by
  intro m' r hm' hf ha hr
  change (if m'.stateSize = 2 ∧ m'.measDims = 1 then some { m' with der := (⟨.of !![1, 0]⟩ : LinMeasData) } else some m') = some r at hr
  rw [if_pos ⟨hm'.states, hm'.meas⟩, Option.some.injEq] at hr
  rw [← hr]

example (z : Fin 1 → ℝ) := C120_kf_vs cv_contract (plain_ops _) (fun _ => pos_contract) (fun _ => plain_mops _) posFilter posFilter () 0
    (le_refl (0 : ℝ)) rfl rfl (now _ _ rfl) (x := ![1, 5]) (P := !![1, 3; 3, 1]) rfl rfl (posOnly_ok (Q := EstimatePSD 2)).sys
    ((posOnly_ok (Q := EstimatePSD 2)).meas ()) posOnly_selects (ρ := id) selects_nil
    (by rw [duo_sub]; exact PosSemidef.one) (pos_yields _ _ _) (by
      rw [duo_sub]
      have : (!![1, 0] : Matrix (Fin 1) (Fin 2) ℝ).submatrix id sel0 * 1 * ((!![1, 0] : Matrix (Fin 1) (Fin 2) ℝ).submatrix id sel0)ᵀ = 1 := by
        ext i j; fin_cases i; fin_cases j; simp [Matrix.mul_apply, sel0]
      rw [this]
      exact PosDef.one) z PosDef.one

/-! ## C117 -/

theorem square_determines (me : Meas NonlinMeasData Unit) : squareClass.Determines NonlinMeasData.Sized me 1 1 id :=
  ⟨fun x _ => ⟨.of ![x 0 ^ 2], .of !![2 * x 0]⟩, fun m' r x dt hm' hf ha hr => square_yields me x dt m' r hm' hf ha hr⟩

theorem square_determines_h (me : Meas NonlinMeasData Unit) : squareClass.Determines NonlinMeasData.Sized me 1 1 NonlinMeasData.h :=
  ⟨fun x _ => .of ![x 0 ^ 2], fun m' r x dt hm' hf ha hr => by rw [square_yields me x dt m' r hm' hf ha hr]⟩

theorem duo_determines (me : Meas NonlinMeasData Unit) : duoSquare.Determines NonlinMeasData.Sized me 2 1 id :=
  ⟨fun x _ => ⟨.of ![x 0 ^ 2], .of !![2 * x 0, 0]⟩, fun m' r x dt hm' hf ha hr => duo_yields me x dt m' r hm' hf ha hr⟩

theorem duo_determines_h (me : Meas NonlinMeasData Unit) : duoSquare.Determines NonlinMeasData.Sized me 2 1 NonlinMeasData.h :=
  ⟨fun x _ => .of ![x 0 ^ 2], fun m' r x dt hm' hf ha hr => by rw [duo_yields me x dt m' r hm' hf ha hr]⟩

theorem pos_determines (me : Meas LinMeasData Unit) : posClass.Determines LinMeasData.Sized me 2 1 LinMeasData.C :=
  ⟨fun _ _ => .of !![1, 0], fun m' r x dt hm' hf ha hr => pos_yields me x dt m' r hm' hf ha hr⟩

example (z : Fin 1 → ℝ) := C117_ekf (sc := quadClass) (plain_ops _) (fun _ => square_contract) (fun _ => plain_mops _) quadFilter quadFilter () 0
    (le_refl (0 : ℝ)) rfl rfl (now _ _ rfl) (x := ![1]) (P := 1) rfl rfl PosSemidef.one ((quadEnv_ok (Q := EstimatePSD 1)).meas ())
    (square_determines _) z PosDef.one

example (z : Fin 1 → ℝ) := C117_kf_vs cv_contract (plain_ops _) (fun _ => pos_contract) (fun _ => plain_mops _) posFilter posFilter () 0
    (le_refl (0 : ℝ)) rfl rfl (now _ _ rfl) (x := ![1, 5]) (P := !![1, 3; 3, 1]) rfl rfl (posOnly_ok (Q := EstimatePSD 2)).sys
    ((posOnly_ok (Q := EstimatePSD 2)).meas ()) posOnly_selects (ρ := id) selects_nil (by rw [duo_sub]; exact PosSemidef.one)
    (pos_determines _) z PosDef.one

example (z : Fin 1 → ℝ) := C117_ekf_vs duo_contract (plain_ops _) (fun _ => duoSquare_contract) (fun _ => plain_mops _) duoFilter duoFilter () 0
    (le_refl (0 : ℝ)) rfl rfl (now _ _ rfl) (x := ![1, 5]) (P := !![1, 3; 3, 1]) rfl rfl (duoEnv_ok (Q := EstimatePSD 2)).sys
    ((duoEnv_ok (Q := EstimatePSD 2)).meas ()) duo_selects (ρ := id) selects_nil (by rw [duo_sub]; exact PosSemidef.one)
    (duo_determines _) z PosDef.one

example (junk : Nat → Nat → ℝ) (sp : SigmaParams) (hsp : SigmaAdmissible 1 sp) (z : Fin 1 → ℝ) :=
  C117_ukf (sc := quadClass) someLlt_spec junk (plain_ops _) (fun _ => square_contract) (fun _ => plain_mops _)
    (Filter.construct (ukfPlant someLlt junk quadClass fun _ : Unit => squareClass) ⟨true, 10, true⟩ (quadEnv, sp) (.of ![1]) (.of (1 : Matrix (Fin 1) (Fin 1) ℝ)) 0) _ () 0
    (le_refl (0 : ℝ)) rfl rfl (now _ _ rfl) (x := ![1]) (P := 1) rfl rfl PosDef.one hsp (quadEnv_ok (Q := EstimatePSD 1)).sys
    ((quadEnv_ok (Q := EstimatePSD 1)).meas ()) (square_determines_h _) z PosDef.one

example (junk : Nat → Nat → ℝ) (sp : SigmaParams) (hsp : SigmaAdmissible 1 sp) (z : Fin 1 → ℝ) :=
  C117_ukf_vs (sc := duoClass) someLlt_spec junk (plain_ops _) (fun _ => duoSquare_contract) (fun _ => plain_mops _)
    (Filter.construct (ukfvsPlant someLlt junk duoClass fun _ : Unit => duoSquare) ⟨true, 10, true⟩ (duoEnv, sp) (.of ![1, 5]) (.of !![1, 3; 3, 1]) 0) _ () 0
    (le_refl (0 : ℝ)) rfl rfl (now _ _ rfl) (x := ![1, 5]) (P := !![1, 3; 3, 1]) rfl rfl hsp (duoEnv_ok (Q := EstimatePSD 2)).sys
    ((duoEnv_ok (Q := EstimatePSD 2)).meas ()) duo_selects (ρ := id) selects_nil (by rw [duo_sub]; exact PosDef.one) (duo_determines_h _) z PosDef.one

/-! ## C41: one step of the filters with selected states -/

example (u : Fin 1 → ℝ) := C41_kfvs_predict (mc := fun _ => posClass) cv_contract posFilter (posOnly_ok (Q := EstimatePSD 2)).sys posOnly_selects (τ := id) selects_nil
    (x := ![1, 5]) (P := !![1, 3; 3, 1]) rfl rfl u Nat.one_pos 7 (by show (0 : ℝ) ≤ 7; norm_num) rfl
example (u : Fin 1 → ℝ) := C41_ekfvs_predict (mc := fun _ => duoSquare) duo_contract duoFilter (duoEnv_ok (Q := EstimatePSD 2)).sys duo_selects (τ := id) selects_nil
    (x := ![1, 5]) (P := !![1, 3; 3, 1]) rfl rfl u Nat.one_pos 7 (by show (0 : ℝ) ≤ 7; norm_num) rfl
example (z : Fin 1 → ℝ) := C41_kfvs_correct cv_contract (fun _ => pos_contract) posFilter () (posOnly_ok (Q := EstimatePSD 2)).sys
    ((posOnly_ok (Q := EstimatePSD 2)).meas ()) posOnly_selects (ρ := id) selects_nil (x := ![1, 5]) (P := !![1, 3; 3, 1]) rfl rfl
    (by rw [duo_sub]; exact PosSemidef.one) z 1 PosDef.one rfl
example (z : Fin 1 → ℝ) := C41_ekfvs_correct duo_contract (fun _ => duoSquare_contract) duoFilter () (duoEnv_ok (Q := EstimatePSD 2)).sys
    ((duoEnv_ok (Q := EstimatePSD 2)).meas ()) duo_selects (ρ := id) selects_nil (x := ![1, 5]) (P := !![1, 3; 3, 1]) rfl rfl
    (by rw [duo_sub]; exact PosSemidef.one) z 1 PosDef.one rfl

/-! ## Whole histories: C26, C29, C42, C122 -/

/-- Predictions, late and early measurements, re-initialisation, queues. -/
noncomputable def script {E : Type} (x : DVec) (c : DMat) : List (Op ℝ DVec DMat Unit E) :=
  [.predictControl (.const 1 3) 2, .correct (.const 1 7) (.identity 1) 1 (some ()), .predictControl .empty 4, .predictTime 6,
   .init x c 9, .enqueueMeasurement (.const 1 7) (.identity 1) 11 (some ()), .enqueueControl (.const 1 3) 10, .processQueues]

theorem script_ok {E : Type} {Q : DVec → DMat → Prop} {G : E → Prop} {R : DMat → Prop} {x : DVec} {c : DMat} (h : Q x c) (hR : R (.identity 1)) :
    ∀ op ∈ (script x c : List (Op ℝ DVec DMat Unit E)), op.WellFormed Q G 1 (fun _ => 1) R := by
  intro op hop
  simp only [script, List.mem_cons, List.not_mem_nil, or_false] at hop
  rcases hop with rfl | rfl | rfl | rfl | rfl | rfl | rfl | rfl
  · exact Or.inl rfl
  · exact ⟨(), rfl, rfl, ⟨rfl, rfl⟩, hR⟩
  · exact Or.inr rfl
  · trivial
  · exact h
  · exact ⟨(), rfl, rfl, ⟨rfl, rfl⟩, hR⟩
  · exact Or.inl rfl
  · trivial

/-- State (1, 5), the two states correlated (3: not even positive semidefinite as a whole). -/
noncomputable abbrev x15 : DVec := .of ![1, 5]
noncomputable abbrev P13 : DMat := .of !![1, 3; 3, 1]

theorem p13_active : ActivePSD sel0 x15 P13 :=
  ⟨rfl, _, rfl, by ext i j; fin_cases i <;> fin_cases j <;> rfl, by rw [duo_sub]; exact PosSemidef.one⟩

theorem p13_activePD : ActivePD sel0 x15 P13 :=
  ⟨rfl, _, rfl, by ext i j; fin_cases i <;> fin_cases j <;> rfl, by rw [duo_sub]; exact PosDef.one⟩

theorem one_separated : SeparatedPSD sel0 x15 (.identity 2) :=
  ⟨rfl, 1, rfl, PosSemidef.one, fun i b hb => Matrix.one_apply_ne fun h => hb i h⟩

theorem one_separatedPD : SeparatedPD sel0 x15 (.identity 2) :=
  ⟨one_separated, rfl, 1, rfl, Matrix.transpose_one, by rw [Matrix.submatrix_one _ (fun a b _ => Subsingleton.elim a b)]; exact PosDef.one⟩

section histories

variable (sort : List (FilterInput ℝ DVec DMat Unit) → List (FilterInput ℝ DVec DMat Unit)) (hsort : ∀ l, (sort l).Perm l)
variable (junk : Nat → Nat → ℝ) (sp : SigmaParams) (hsp : SigmaAdmissible 1 sp) (pa : Params ℝ)

theorem duoEnv_psd {Q : DVec → DMat → Prop} : duoEnv.Ok NonlinSysData.Sized NonlinMeasData.Sized NoisePSD Q 2 1 (fun _ => 1) :=
  ⟨duoEnv_ok.sys (Q := Q), ⟨(duoEnv_ok (Q := Q)).noise.2.1.psd, (duoEnv_ok (Q := Q)).noise.2.2⟩, duoEnv_ok.sysMake, duoEnv_ok.meas (Q := Q), duoEnv_ok.measMake⟩

theorem quadEnv_psd {Q : DVec → DMat → Prop} : quadEnv.Ok NonlinSysData.Sized NonlinMeasData.Sized NoisePSD Q 1 1 (fun _ => 1) :=
  ⟨quadEnv_ok.sys (Q := Q), ⟨(quadEnv_ok (Q := Q)).noise.2.1.psd, (quadEnv_ok (Q := Q)).noise.2.2⟩, quadEnv_ok.sysMake, quadEnv_ok.meas (Q := Q), quadEnv_ok.measMake⟩

theorem quadEnv_any {Q : DVec → DMat → Prop} : quadEnv.Ok NonlinSysData.Sized NonlinMeasData.Sized AnyNoise Q 1 1 (fun _ => 1) :=
  ⟨quadEnv_ok.sys (Q := Q), trivial, quadEnv_ok.sysMake, quadEnv_ok.meas (Q := Q), quadEnv_ok.measMake⟩

theorem cvEnv_any {Q : DVec → DMat → Prop} : cvEnv.Ok LinSysData.Sized LinMeasData.Sized AnyNoise Q 2 1 (fun _ => 1) :=
  ⟨cvEnv_ok.sys (Q := Q), trivial, cvEnv_ok.sysMake, cvEnv_ok.meas (Q := Q), cvEnv_ok.measMake⟩

theorem duo_selecting : duoEnv.Selecting sel0 1 (fun _ => 1) :=
  ⟨duo_selects, ⟨1, id, selects_nil⟩, fun _ => ⟨1, id, selects_nil⟩⟩

include hsort

example := C26_C29_ekf quad_contract (fun _ : Unit => square_contract) (fun _ => 1) sort hsort pa quadEnv quadEnv_psd (.const 1 7) (.identity 1) 0
  ⟨⟨rfl, rfl, rfl⟩, (identity_pd 1).psd⟩ (script (.const 1 5) (.identity 1)) (script_ok ⟨⟨rfl, rfl, rfl⟩, (identity_pd 1).psd⟩ (identity_pd 1))

example := C26_ekf_sizes quad_contract (fun _ : Unit => square_contract) (fun _ => 1) sort hsort pa quadEnv quadEnv_any (.const 1 7) (.identity 1) 0
  ⟨rfl, rfl, rfl⟩ (script (.const 1 5) (.of !![-3])) (script_ok ⟨rfl, rfl, rfl⟩ trivial)

example := C26_kf_sizes cv_contract (fun _ : Unit => pos_contract) (fun _ => 1) sort hsort pa cvEnv cvEnv_any (.const 2 7) (.identity 2) 0
  ⟨rfl, rfl, rfl⟩ (script (.const 2 5) (.of !![-3, 1; 0, 2])) (script_ok ⟨rfl, rfl, rfl⟩ trivial)

example := C42_kfvs_active_partial cv_contract (fun _ : Unit => pos_contract) (fun _ => 1) sel0 sort hsort pa posOnly posOnly_ok posOnly_selecting
  x15 P13 0 p13_active (script x15 P13) (script_ok p13_active (identity_pd 1))
example := C42_kfvs_separated_partial cv_contract (fun _ : Unit => pos_contract) (fun _ => 1) sel0 sort hsort pa posOnly posOnly_ok posOnly_selecting
  x15 _ 0 one_separated (script x15 (.identity 2)) (script_ok one_separated (identity_pd 1))
example := C42_ekfvs_active_partial duo_contract (fun _ : Unit => duoSquare_contract) (fun _ => 1) sel0 sort hsort pa duoEnv duoEnv_psd duo_selecting
  x15 P13 0 p13_active (script x15 P13) (script_ok p13_active (identity_pd 1))
example := C42_ekfvs_separated_partial duo_contract (fun _ : Unit => duoSquare_contract) (fun _ => 1) sel0 sort hsort pa duoEnv duoEnv_psd duo_selecting
  x15 _ 0 one_separated (script x15 (.identity 2)) (script_ok one_separated (identity_pd 1))
include hsp in
example := C42_ukfvs_active_partial someLlt_spec junk duo_contract (plain_ops _) duo_spreads (fun _ : Unit => duoSquare_contract) (fun _ => plain_mops _)
  (fun _ => 1) sel0 sort hsort pa (duoEnv, sp) duoEnv_ok duo_selecting hsp x15 P13 0 p13_activePD (script x15 P13) (script_ok p13_activePD (identity_pd 1))
include hsp in
example := C42_ukfvs_separated_partial someLlt_spec junk duo_contract (plain_ops _) duo_spreads (fun _ : Unit => duoSquare_contract) (fun _ => plain_mops _)
  (fun _ => 1) sel0 sort hsort pa (duoEnv, sp) duoEnv_ok duo_selecting hsp x15 _ 0 one_separatedPD (script x15 (.identity 2)) (script_ok one_separatedPD (identity_pd 1))

omit hsort in
/-- Unit process noise reaches every state of `duoClass`. -/
theorem duo_keepsDoubt : duoClass.KeepsDoubt NonlinSysData.Sized NonlinSysData.G (fun Rp => Rp.Is 2 2 ∧ Rp.PD) sel0 1 := by
  intro s x u dt s' p A W Rp hs hN hx hu h1 hA hW hRp v _ hv
  change (if _ then _ else _) = _ at h1
  rw [if_pos ⟨hs.states, hs.controls, hN.1.1⟩] at h1
  have h1 := Option.some.inj h1
  subst h1
  obtain ⟨e, h⟩ := hN
  obtain ⟨e, -⟩ := e
  rw [hRp] at e h
  change p = 2 at e
  subst e
  have hW' := DMat.of_inj.mp hW
  subst hW'
  rw [DMat.PD_of] at h
  have hz : v ᵥ* (!![1, 0; 0, 1] : Matrix (Fin 2) (Fin 2) ℝ).submatrix sel0 id = 0 := by
    have := congrArg (fun y => y ᵥ* Rp⁻¹) hv
    rw [Matrix.zero_vecMul, Matrix.vecMul_vecMul, Matrix.mul_nonsing_inv _ ((Matrix.isUnit_iff_isUnit_det _).mp h.isUnit), Matrix.vecMul_one] at this
    exact this
  funext i
  have h0 := congrFun hz 0
  simp [Matrix.vecMul, dotProduct, sel0] at h0
  fin_cases i
  exact h0

omit hsort in
theorem quad_keepsDoubt : quadClass.KeepsDoubt NonlinSysData.Sized NonlinSysData.G (fun Rp => Rp.Is 1 1 ∧ Rp.PD) (id : Fin 1 → Fin 1) 1 := by
  intro s x u dt s' p A W Rp hs hN hx hu h1 hA hW hRp v _ hv
  change (if _ then _ else _) = _ at h1
  rw [if_pos ⟨hs.states, hs.controls, hN.1.1⟩] at h1
  have h1 := Option.some.inj h1
  subst h1
  obtain ⟨e, h⟩ := hN
  obtain ⟨e, -⟩ := e
  rw [hRp] at e h
  change p = 1 at e
  subst e
  have hW' := DMat.of_inj.mp hW
  subst hW'
  rw [DMat.PD_of] at h
  have hz : v ᵥ* (!![1] : Matrix (Fin 1) (Fin 1) ℝ).submatrix id id = 0 := by
    have := congrArg (fun y => y ᵥ* Rp⁻¹) hv
    rw [Matrix.zero_vecMul, Matrix.vecMul_vecMul, Matrix.mul_nonsing_inv _ ((Matrix.isUnit_iff_isUnit_det _).mp h.isUnit), Matrix.vecMul_one] at this
    exact this
  funext i
  have h0 := congrFun hz 0
  simp [Matrix.vecMul, dotProduct] at h0
  fin_cases i
  exact h0

omit hsort in
theorem cv_keepsDoubt0 : cvClass.KeepsDoubt LinSysData.Sized LinSysData.A (fun Rp => Rp.Is 2 2 ∧ Rp.PSD) sel0 1 := by
  intro s x u dt s' p A W Rp hs hN hx hu h1 hA hW hRp v hv _
  change (if _ then _ else _) = _ at h1
  rw [if_pos ⟨hs.states, hs.controls, hN.1.1⟩] at h1
  have h1 := Option.some.inj h1
  subst h1
  have hA' := DMat.of_inj.mp hA
  subst hA'
  funext i
  have h0 := congrFun hv 0
  simp [Matrix.vecMul, dotProduct, sel0] at h0
  fin_cases i
  exact h0

example := C122_ekf quad_contract (fun _ : Unit => square_contract) (N := fun Rp => Rp.Is 1 1 ∧ Rp.PD) (fun _ h => h.2.psd) quad_keepsDoubt (fun _ => 1) sort hsort pa quadEnv
  ⟨quadEnv_ok.sys (Q := EstimatePD 1), ⟨⟨⟨rfl, rfl⟩, identity_pd 1⟩, (quadEnv_ok (Q := EstimatePD 1)).noise.2.2⟩, quadEnv_ok.sysMake, quadEnv_ok.meas (Q := EstimatePD 1), quadEnv_ok.measMake⟩
  (.zero 1) (.identity 1) 0 quad_estimate (script (.zero 1) (.identity 1)) (script_ok quad_estimate (identity_pd 1))

example := C122_ekf_vs duo_contract (fun _ : Unit => duoSquare_contract) (fun _ h => h.2.psd) sel0 duo_keepsDoubt (fun _ => 1) sort hsort pa duoEnv
  ⟨duoEnv_ok.sys (Q := ActivePD sel0), ⟨⟨⟨rfl, rfl⟩, identity_pd 2⟩, (duoEnv_ok (Q := ActivePD sel0)).noise.2.2⟩, duoEnv_ok.sysMake, duoEnv_ok.meas (Q := ActivePD sel0), duoEnv_ok.measMake⟩
  duo_selecting x15 P13 0 p13_activePD (script x15 P13) (script_ok p13_activePD (identity_pd 1))

example := C122_kf_vs cv_contract (fun _ : Unit => pos_contract) (fun _ h => h.2) sel0 cv_keepsDoubt0 (fun _ => 1) sort hsort pa posOnly
  ⟨posOnly_ok.sys (Q := ActivePD sel0), ⟨⟨⟨rfl, rfl⟩, (cvEnv_ok (Q := EstimatePD 2)).noise.1⟩, (cvEnv_ok (Q := EstimatePD 2)).noise.2⟩, posOnly_ok.sysMake, posOnly_ok.meas (Q := ActivePD sel0), posOnly_ok.measMake⟩
  posOnly_selecting x15 P13 0 p13_activePD (script x15 P13) (script_ok p13_activePD (identity_pd 1))

end histories

example (u : Fin 1 → ℝ) := C122_kf_sharp (mc := fun _ => posClass) cv_contract cvFilter (cvEnv_ok (Q := EstimatePSD 2)).sys (x := 0) (P := 1) rfl rfl PosDef.one
  (cvEnv_ok (Q := EstimatePSD 2)).noise.1 (cvEnv_ok (Q := EstimatePSD 2)).noise.2 u Nat.one_pos 7 (by show (0 : ℝ) ≤ 7; norm_num) rfl
example (u : Fin 1 → ℝ) := C122_ekf_sharp (mc := fun _ => squareClass) quad_contract quadFilter (quadEnv_ok (Q := EstimatePSD 1)).sys (x := ![1]) (P := 1) rfl rfl PosDef.one
  (quadEnv_psd (Q := EstimatePSD 1)).noise.1 (quadEnv_ok (Q := EstimatePSD 1)).noise.2.2 u Nat.one_pos 7 (by show (0 : ℝ) ≤ 7; norm_num) rfl
example (u : Fin 1 → ℝ) := C27_ekf_predict (mc := fun _ => squareClass) quad_contract quadFilter (quadEnv_ok (Q := EstimatePSD 1)).sys (x := ![1]) (P := 1) rfl rfl
  u Nat.one_pos 7 (by show (0 : ℝ) ≤ 7; norm_num) rfl
example (z : Fin 1 → ℝ) := C28_C30_ekf_correct quad_contract (fun _ => square_contract) quadFilter () (quadEnv_ok (Q := EstimatePSD 1)).sys
  ((quadEnv_ok (Q := EstimatePSD 1)).meas ()) (x := ![1]) (P := 1) rfl rfl PosSemidef.one z 1 PosDef.one rfl
example (z₁ z₂ : Fin 1 → ℝ) := C31_covariance_independent_of_value cv_contract (fun _ => pos_contract) cvFilter () (cvEnv_ok (Q := EstimatePSD 2)).sys
  ((cvEnv_ok (Q := EstimatePSD 2)).meas ()) (x := 0) (P := 1) rfl rfl PosSemidef.one z₁ z₂ 1 PosDef.one rfl
example := C31_expected_measurement cv_contract (fun _ => pos_contract) (plain_ops _) (fun _ => plain_mops _) cvFilter () (cvEnv_ok (Q := EstimatePSD 2)).sys
  ((cvEnv_ok (Q := EstimatePSD 2)).meas ()) (x := 0) (P := 1) rfl rfl PosSemidef.one (1 : Matrix (Fin 1) (Fin 1) ℝ) PosDef.one !![1, 0]
  (by
    intro s x dt s' hs h
    change (if s.stateSize = 2 ∧ s.measDims = 1 then some { s with der := (⟨.of !![1, 0]⟩ : LinMeasData) } else some s) = some s' at h
    rw [if_pos ⟨hs.states, hs.meas⟩, Option.some.injEq] at h
    rw [← h]) rfl

end StateEstimation.Witness
