import Verif.Props.Conserved
import Verif.Props.Unseen
import Verif.Examples.Quad

/-!
# Non-vacuity of C146 and C147 for the EKF: two rooms that exchange heat

The state is the heat in two equal rooms.  What flows over in a step is the third power of the difference, more or less; a heat
pump moves some from the second room to the first.  The sensor shows the square of the difference.  The total is conserved
(C146), and no sensor sees a displacement of both alike (C147).
-/

namespace StateEstimation
namespace Props

open Matrix

/-- the entries of a state with two entries -/
noncomputable def entry (x : DVec) (i : Nat) : ℝ := (x.get? i).getD 0

@[simp] theorem entry_of0 (v : Fin 2 → ℝ) : entry (.of v) 0 = v 0 := by simp [entry, DVec.get?]
@[simp] theorem entry_of1 (v : Fin 2 → ℝ) : entry (.of v) 1 = v 1 := by simp [entry, DVec.get?]

/-- `g = (a + (b - a)³ + u, b - (b - a)³ - u)`. -/
noncomputable def roomsClass : SysClass ℝ NonlinSysData Unit :=
  SysClass.plain fun s x u _ =>
    if s.stateSize = 2 ∧ s.controlDims = 1 ∧ s.Rp.rows = 1 then
      some { s with
        der := ⟨.of ![entry x 0 + (entry x 1 - entry x 0) ^ 3 + Examples.head u, entry x 1 - (entry x 1 - entry x 0) ^ 3 - Examples.head u],
          .of !![1 - 3 * (entry x 1 - entry x 0) ^ 2, 3 * (entry x 1 - entry x 0) ^ 2;
            3 * (entry x 1 - entry x 0) ^ 2, 1 - 3 * (entry x 1 - entry x 0) ^ 2]⟩
        P := .of !![1; -1], V := .of !![1; -1] }
    else some s

theorem rooms_contract : SysContract NonlinSysData.Sized roomsClass := by
  apply Examples.plain_contract
  intro n m s x u dt hs hx hu
  split
  next h =>
    obtain ⟨h1, h2, h3⟩ := h
    have hn : n = 2 := by rw [← hs.states]; exact h1
    have hm : m = 1 := by rw [← hs.controls]; exact h2
    subst hn hm
    exact ⟨_, rfl, ⟨hs.states, hs.controls, ⟨rfl, rfl, rfl⟩, ⟨rfl, h3.symm⟩, hs.Rp, ⟨rfl, rfl⟩, hs.Rc⟩,
      ⟨rfl, rfl, rfl, rfl, rfl⟩⟩
  next => exact ⟨s, rfl, hs, Sys.SameConfig.refl s⟩

/-- `h = (a - b)²`. -/
noncomputable def contrastClass : MeasClass ℝ NonlinMeasData Unit :=
  MeasClass.plain fun s x _ =>
    if s.stateSize = 2 ∧ s.measDims = 1 then
      some { s with der := ⟨.of ![(entry x 0 - entry x 1) ^ 2],
        .of !![2 * (entry x 0 - entry x 1), -(2 * (entry x 0 - entry x 1))]⟩ }
    else some s

theorem contrast_contract : MeasContract NonlinMeasData.Sized contrastClass := by
  apply Examples.plain_mcontract
  intro n k s x dt hs hx
  split
  next h =>
    have hn : n = 2 := by rw [← hs.states]; exact h.1
    have hk : k = 1 := by rw [← hs.meas]; exact h.2
    subst hn hk
    exact ⟨_, rfl, ⟨hs.states, hs.meas, ⟨rfl, rfl, rfl⟩, hs.cov⟩, ⟨rfl, rfl, rfl, rfl⟩⟩
  next => exact ⟨s, rfl, hs, Meas.SameConfig.refl s⟩

theorem rooms_conserve : NonlinConserves total 1 (fun Rp => Rp.Is 1 1) roomsClass := by
  intro s x u dt s' hs hu hN h
  change (if s.stateSize = 2 ∧ s.controlDims = 1 ∧ s.Rp.rows = 1 then _ else _) = some s' at h
  rw [if_pos ⟨hs.states, hs.controls, hN.1⟩] at h
  injection h with h
  subst h
  obtain ⟨Rp, hRp⟩ := hN.exists_of
  have e1 : total * (!![1; -1] : Matrix (Fin 2) (Fin 1) ℝ) = 0 := by
    ext i j; fin_cases i; fin_cases j; simp [total, Matrix.mul_apply, Fin.sum_univ_two]
  refine ⟨1, _, _, !![1; -1], !![1; -1], Rp, rfl, rfl, rfl, hRp, rfl, ?_, ?_, ?_, e1⟩
  · ext i; fin_cases i; simp [total, Matrix.mulVec, dotProduct, Fin.sum_univ_two]
  · ext i j; fin_cases i; fin_cases j <;> simp [total, Matrix.mul_apply, Fin.sum_univ_two]
  · rw [← Matrix.mul_assoc, ← Matrix.mul_assoc, e1]; simp

/-- as `roomsClass`, but one process noise for each room, which the models are set up with -/
noncomputable def noisyRoomsClass : SysClass ℝ NonlinSysData Unit :=
  SysClass.plain fun s x u _ =>
    if s.stateSize = 2 ∧ s.controlDims = 1 then
      some { s with
        der := ⟨.of ![entry x 0 + (entry x 1 - entry x 0) ^ 3 + Examples.head u, entry x 1 - (entry x 1 - entry x 0) ^ 3 - Examples.head u],
          .of !![1 - 3 * (entry x 1 - entry x 0) ^ 2, 3 * (entry x 1 - entry x 0) ^ 2;
            3 * (entry x 1 - entry x 0) ^ 2, 1 - 3 * (entry x 1 - entry x 0) ^ 2]⟩
        V := .of !![1; -1] }
    else some s

theorem noisyRooms_contract : SysContract NonlinSysData.Sized noisyRoomsClass := by
  apply Examples.plain_contract
  intro n m s x u dt hs hx hu
  split
  next h =>
    obtain ⟨h1, h2⟩ := h
    have hn : n = 2 := by rw [← hs.states]; exact h1
    have hm : m = 1 := by rw [← hs.controls]; exact h2
    subst hn hm
    exact ⟨_, rfl, ⟨hs.states, hs.controls, ⟨rfl, rfl, rfl⟩, hs.P, hs.Rp, ⟨rfl, rfl⟩, hs.Rc⟩,
      ⟨rfl, rfl, rfl, rfl, rfl⟩⟩
  next => exact ⟨s, rfl, hs, Sys.SameConfig.refl s⟩

theorem rooms_keep : NonlinKeepsDir together 1 noisyRoomsClass := by
  intro s x u dt s' hs hx hu h
  change (if s.stateSize = 2 ∧ s.controlDims = 1 then _ else _) = some s' at h
  rw [if_pos ⟨hs.states, hs.controls⟩] at h
  injection h with h
  subst h
  refine ⟨_, rfl, ?_⟩
  ext i j; fin_cases i <;> fin_cases j <;> simp [together, Matrix.mul_apply, Fin.sum_univ_two]

theorem contrast_blind : NonlinBlind together 1 contrastClass := by
  intro s x dt s' hs hx h
  change (if s.stateSize = 2 ∧ s.measDims = 1 then _ else _) = some s' at h
  rw [if_pos ⟨hs.states, hs.meas⟩] at h
  injection h with h
  subst h
  refine ⟨_, rfl, ?_⟩
  ext i j; fin_cases i; fin_cases j; simp [together, Matrix.mul_apply, Fin.sum_univ_two]

/-- the rooms, process and control noise 1 -/
noncomputable def roomsEnv : Env Unit NonlinSysData Unit NonlinMeasData Unit :=
  { sys := { Sys.constructNonlinear 2 1 1 () with Rp := .of (1 : Matrix (Fin 1) (Fin 1) ℝ), Rc := .of (1 : Matrix (Fin 1) (Fin 1) ℝ) }
    meas := fun _ => Meas.constructNonlinear 2 1 () }

noncomputable def noisyRoomsEnv : Env Unit NonlinSysData Unit NonlinMeasData Unit :=
  { sys := { Sys.constructNonlinear 2 1 2 () with
      P := .of (1 : Matrix (Fin 2) (Fin 2) ℝ), Rp := .of (1 : Matrix (Fin 2) (Fin 2) ℝ), Rc := .of (1 : Matrix (Fin 1) (Fin 1) ℝ) }
    meas := fun _ => Meas.constructNonlinear 2 1 () }

/-- the calls: the pump, readings of which one is late, a wait, going back -/
noncomputable def roomsOps : List (Op ℝ DVec DMat Unit (Env Unit NonlinSysData Unit NonlinMeasData Unit)) :=
  [.predictControl (.of ![2]) 1, .correct (.of ![9]) (.identity 1) 2 (some ()), .correct (.of ![5]) (.identity 1) 1.5 (some ()),
    .predictTime 4, .revertToState 3]

theorem roomsOps_wf (Q : DVec → DMat → Prop) (RE : Env Unit NonlinSysData Unit NonlinMeasData Unit → Prop) :
    ∀ op ∈ roomsOps, op.WellFormed Q RE 1 (fun _ => 1) DMat.PD := by
  intro op hop
  simp only [roomsOps, List.mem_cons, List.not_mem_nil, or_false] at hop
  rcases hop with rfl | rfl | rfl | rfl | rfl
  · exact Or.inl rfl
  · exact ⟨(), rfl, rfl, ⟨rfl, rfl⟩, ⟨rfl, PosDef.one⟩⟩
  · exact ⟨(), rfl, rfl, ⟨rfl, rfl⟩, ⟨rfl, PosDef.one⟩⟩
  · trivial
  · trivial

/-- Non-vacuity of C146 for the EKF: the total of 10 is kept. -/
example (sort : List (FilterInput ℝ DVec DMat Unit) → List (FilterInput ℝ DVec DMat Unit)) (hsort : ∀ l, (sort l).Perm l) :
    ∃ g, (Filter.construct (ekfPlant roomsClass fun _ => contrastClass) { rewindHistory := true, historyWindow := 5, allowPast := false }
        roomsEnv (.of ![6, 4]) (.of unknownSplit) 0).run (ekfPlant roomsClass fun _ => contrastClass) sort roomsOps = some g ∧
      ∀ s ∈ g.retained, Knows total ![10] s.x s.covariance := by
  have he : NonlinKnowing total (total *ᵥ ![6, 4]) (fun Rp => Rp.Is 1 1) 1 (fun _ => 1) roomsEnv := by
    refine ⟨⟨rfl, rfl, ⟨rfl, rfl, rfl⟩, ⟨rfl, rfl⟩, ⟨rfl, rfl⟩, ⟨rfl, rfl⟩, ⟨rfl, rfl⟩⟩, ⟨⟨?_, ?_⟩, rfl, rfl⟩,
      fun x c h => ⟨x, c, rfl, h⟩, fun _ => ⟨rfl, rfl, ⟨rfl, rfl, rfl⟩, rfl, rfl⟩, fun _ x c h => ⟨x, c, rfl, h⟩⟩
    · exact DMat.PSD_of.mpr PosSemidef.one
    · exact DMat.PSD_of.mpr PosSemidef.one
  obtain ⟨g, h1, -, h2⟩ := C146_ekf rooms_contract (fun _ => contrast_contract) ⟨fun _ => rfl, fun _ => rfl, fun _ => rfl⟩ total
    (fun Rp => Rp.Is 1 1) rooms_conserve sort hsort { rewindHistory := true, historyWindow := 5, allowPast := false } roomsEnv ![6, 4]
    unknownSplit 0 unknownSplit_psd (by
      ext i j; fin_cases i; fin_cases j; simp [total, unknownSplit, Matrix.mul_apply, Fin.sum_univ_two, Matrix.transpose_apply]) he
    roomsOps (roomsOps_wf _ _)
  rw [total_split] at h2
  exact ⟨g, h1, h2⟩

/-- Non-vacuity of C147 for the EKF: the variance claimed for the heat in the first room never falls below 9/2. -/
example (sort : List (FilterInput ℝ DVec DMat Unit) → List (FilterInput ℝ DVec DMat Unit)) (hsort : ∀ l, (sort l).Perm l) :
    ∃ g, (Filter.construct (ekfPlant noisyRoomsClass fun _ => contrastClass) { rewindHistory := true, historyWindow := 5, allowPast := false }
        noisyRoomsEnv (.of ![0, 3]) (.of ((9 : ℝ) • (1 : Matrix (Fin 2) (Fin 2) ℝ))) 0).run (ekfPlant noisyRoomsClass fun _ => contrastClass)
        sort roomsOps = some g ∧
      ∀ s ∈ g.retained, ∃ v, s.covariance.get? 0 0 = some v ∧ 9 / 2 ≤ v := by
  have he : NonlinUnsure together ((9 / 2 : ℝ) • (1 : Matrix (Fin 1) (Fin 1) ℝ)) 1 (fun _ => 1) noisyRoomsEnv := by
    refine ⟨⟨rfl, rfl, ⟨rfl, rfl, rfl⟩, ⟨rfl, rfl⟩, ⟨rfl, rfl⟩, ⟨rfl, rfl⟩, ⟨rfl, rfl⟩⟩, ⟨?_, ?_⟩,
      fun x c h => ⟨x, c, rfl, h⟩, fun _ => ⟨rfl, rfl, ⟨rfl, rfl, rfl⟩, rfl, rfl⟩, fun _ x c h => ⟨x, c, rfl, h⟩⟩
    · exact DMat.PSD_of.mpr PosSemidef.one
    · exact DMat.PSD_of.mpr PosSemidef.one
  obtain ⟨g, h1, -, h2⟩ := C147_ekf noisyRooms_contract (fun _ => contrast_contract) together
    ((9 / 2 : ℝ) • (1 : Matrix (Fin 1) (Fin 1) ℝ)) rooms_keep (fun _ => contrast_blind) sort hsort
    { rewindHistory := true, historyWindow := 5, allowPast := false } noisyRoomsEnv ![0, 3] ((9 : ℝ) • (1 : Matrix (Fin 2) (Fin 2) ℝ)) 0
    (PosSemidef.one.smul (by norm_num)) pair_start he roomsOps (roomsOps_wf _ _)
  refine ⟨g, h1, fun s hs => ?_⟩
  have h := h2 s hs
  obtain ⟨v, C, -, hC, -⟩ := id h
  rw [hC] at h ⊢
  refine ⟨C 0 0, rfl, ?_⟩
  have := h.variance ![1, 0]
  simpa [together, Matrix.mulVec, dotProduct, Fin.sum_univ_two, Matrix.transpose_apply] using this

end Props
end StateEstimation
