import Verif.Lemmas.ExampleStuck
import Verif.Props.Example
import Mathlib.Algebra.Order.Archimedean.Basic

/-!
# C83: the example at rest and when it starts to move; C84: the header of its output
-/

namespace StateEstimation.Props

open Example Csv Matrix

/-- **C83 (at rest).**  Any sequence of readings in order of time (either sensor) whose forward speed, turn rate and forward
acceleration are below the thresholds of the program: every estimate is exactly the initial state with exactly the initial
covariance. -/
theorem C83_standstill_partial (ms : List Reading) (hne : ms ≠ []) (hs : ms.Pairwise fun a b => a.t ≤ b.t) (hz : ∀ m ∈ ms, Idle m) :
    ∃ os, estimate ms = some os ∧ os.map Output.t = ms.map Reading.t ∧
      ∀ o ∈ os, o.x = .of initialState ∧ o.cov = .of (Matrix.diagonal initialVar) := by
  obtain ⟨m, rest, rfl⟩ := List.exists_cons_of_ne_nil hne
  obtain ⟨os, h1, h2, h3⟩ := idle_loop (m :: rest) (filterAt exEnv m.t) rfl rfl watching_start hz
    (by
      intro k hk
      rcases List.mem_cons.mp hk with rfl | hk
      · exact le_refl _
      · exact (List.pairwise_cons.mp hs).1 k hk) hs
  exact ⟨os, by unfold estimate; exact bind_step setup_eq (bind_step rfl h1), h2, h3⟩

/-- Non-vacuity: two readings of a vehicle at rest, not exactly zero. -/
example : ∀ m ∈ [(⟨0, vecOf [0.01, 0, 0, 0], .odom⟩ : Reading), ⟨1, vecOf [0.2, 0, 9.8, 0, 0, 0.1], .imu⟩], Idle m := by
  intro m hm
  simp only [List.mem_cons, List.not_mem_nil, or_false] at hm
  rcases hm with rfl | rfl
  · show |(0.01 : ℝ)| < 0.05 ∧ |(0 : ℝ)| < 0.05
    norm_num [abs_of_pos]
  · show |(0.2 : ℝ)| < 0.30 ∧ |(0.1 : ℝ)| < 0.30
    norm_num [abs_of_pos]

/-- The readings of straight driving: time and forward speed, nothing else. -/
noncomputable def driving (ms : List (ℝ × ℝ)) : List Reading := ms.map fun p => ⟨p.1, vecOf [p.2, 0, 0, 0], .odom⟩

/-- **C83 (starting to move, what really happens).**  Odometry of straight driving with increasing time stamps, the `n`-th
speed (from 0) at least 0.05 but less than 0.05 (n + 2): the prediction to each reading stops the vehicle and does not
inflate the covariance, so the `n`-th estimate of the speed is the `n`-th reading divided by n + 2, and its variance
1e-5 / (n + 2). -/
theorem C83_start (ms : List (ℝ × ℝ)) (hne : ms ≠ []) (hs : ms.Pairwise fun a b => a.1 < b.1)
    (hv : ∀ (n : Nat) (p : ℝ × ℝ), ms[n]? = some p → 0.05 ≤ |p.2| ∧ |p.2| < 0.05 * ((n : ℝ) + 2)) :
    ∃ os, estimate (driving ms) = some os ∧ os.length = ms.length ∧
      ∀ (n : Nat) (p : ℝ × ℝ) (o : Output), ms[n]? = some p → os[n]? = some o → o.t = p.1 ∧ o.x.get? 0 = some (p.2 / ((n : ℝ) + 2)) ∧
        o.cov.get? 0 0 = some (1e-5 / ((n : ℝ) + 2)) := by
  obtain ⟨m, rest, rfl⟩ := List.exists_cons_of_ne_nil hne
  obtain ⟨os, h1, h2, h3⟩ := stuck_loop (m :: rest) 0 (filterAt exEnv m.1) (stuck_start _)
    (by
      intro p hp
      obtain rfl : m = p := by simpa using hp
      exact Or.inr ⟨rfl, by rw [speed_zero]; rfl⟩) hs
    (by intro i p hi; rw [Nat.zero_add]; exact hv i p hi)
  have e : ∀ l : List (ℝ × ℝ), (l.map fun p => (⟨p.1, .of (straight p.2), .odom⟩ : Reading)) = driving l := by
    intro l
    unfold driving
    congr 1
    funext p
    congr 1
    show DVec.of (straight p.2) = vecOf [p.2, 0, 0, 0]
    unfold DVec.of vecOf straight
    congr 1
    funext i
    fin_cases i <;> rfl
  rw [e] at h1
  refine ⟨os, by unfold estimate; exact bind_step setup_eq (bind_step rfl h1), h2, ?_⟩
  intro n p o hn ho
  obtain ⟨k1, k2, P, k3, k4⟩ := h3 n p o hn ho
  rw [Nat.zero_add] at k2 k4
  refine ⟨k1, ?_, ?_⟩
  · rw [k2]; rfl
  · rw [k3]
    have := k4 0
    rw [if_pos rfl] at this
    rw [← this]; rfl

/-- A vehicle that speeds up by 0.04 every reading. -/
noncomputable def ramp (N : Nat) : List (ℝ × ℝ) := (List.range N).map fun n : Nat => ((n : ℝ), 0.08 + 0.04 * (n : ℝ))

theorem ramp_get {N n : Nat} {p : ℝ × ℝ} (h : (ramp N)[n]? = some p) : n < N ∧ p = ((n : ℝ), 0.08 + 0.04 * (n : ℝ)) := by
  unfold ramp at h
  rw [List.getElem?_map, Option.map_eq_some_iff] at h
  obtain ⟨k, h1, h2⟩ := h
  by_cases hn : n < N
  · rw [List.getElem?_range hn] at h1
    cases h1
    exact ⟨hn, h2.symm⟩
  · rw [List.getElem?_eq_none (by simpa using hn)] at h1
    cases h1

/-- **C83 (refuted).**  "The estimated speed follows the odometry" is false, however large the error allowed: for a vehicle that
accelerates steadily from rest, whose forward speed is the only thing measured, the program estimates 0.04 for ever (more and
more surely), while the readings grow without bound. -/
theorem C83_start_refuted :
    (∀ N, ∃ os, estimate (driving (ramp (N + 1))) = some os ∧ os.length = N + 1 ∧
      ∀ (n : Nat) (o : Output), os[n]? = some o → o.x.get? 0 = some 0.04 ∧ o.cov.get? 0 0 = some (1e-5 / ((n : ℝ) + 2))) ∧
    ¬ ∃ C : ℝ, ∀ ms : List (ℝ × ℝ), ms ≠ [] → ms.Pairwise (fun a b => a.1 < b.1) → ∀ os, estimate (driving ms) = some os →
      ∀ (n : Nat) (p : ℝ × ℝ) (o : Output) (a : ℝ), ms[n]? = some p → os[n]? = some o → o.x.get? 0 = some a → |p.2 - a| ≤ C := by
  have hpw : ∀ N, (ramp (N + 1)).Pairwise fun a b => a.1 < b.1 := by
    intro N
    unfold ramp
    rw [List.pairwise_map]
    refine List.pairwise_lt_range.imp ?_
    intro a b h
    show (a : ℝ) < b
    exact_mod_cast h
  have hne : ∀ N, ramp (N + 1) ≠ [] := by
    intro N h
    have := congrArg List.length h
    simp [ramp] at this
  have key : ∀ N, ∃ os, estimate (driving (ramp (N + 1))) = some os ∧ os.length = N + 1 ∧
      ∀ (n : Nat) (o : Output), os[n]? = some o → o.x.get? 0 = some 0.04 ∧ o.cov.get? 0 0 = some (1e-5 / ((n : ℝ) + 2)) := by
    intro N
    obtain ⟨os, h1, h2, h3⟩ := C83_start (ramp (N + 1)) (hne N) (hpw N) (by
      intro n p hp
      obtain ⟨_, rfl⟩ := ramp_get hp
      have h0 : (0 : ℝ) ≤ n := Nat.cast_nonneg n
      rw [abs_of_pos (by positivity)]
      constructor <;> dsimp only <;> linarith)
    have hl : (ramp (N + 1)).length = N + 1 := by simp [ramp]
    refine ⟨os, h1, h2.trans hl, ?_⟩
    intro n o ho
    have hn : n < os.length := by
      by_contra hc
      rw [List.getElem?_eq_none (by omega)] at ho
      cases ho
    rw [h2] at hn
    obtain ⟨_, k2, k3⟩ := h3 n _ o (List.getElem?_eq_getElem hn) ho
    obtain ⟨_, hp⟩ := ramp_get (List.getElem?_eq_getElem hn)
    rw [hp] at k2
    refine ⟨?_, k3⟩
    rw [k2]
    congr 1
    have : ((n : ℝ) + 2) ≠ 0 := by positivity
    field_simp
    ring
  refine ⟨key, ?_⟩
  rintro ⟨C, hC⟩
  obtain ⟨N, hN⟩ := exists_nat_gt (C / 0.04)
  obtain ⟨os, h1, h2, h3⟩ := key N
  have hN1 : N < os.length := by omega
  have hN2 : N < (ramp (N + 1)).length := by simp [ramp]
  obtain ⟨_, hp⟩ := ramp_get (List.getElem?_eq_getElem hN2)
  have := hC _ (hne N) (hpw N) os h1 N _ _ _ (List.getElem?_eq_getElem hN2) (List.getElem?_eq_getElem hN1)
    (h3 N _ (List.getElem?_eq_getElem hN1)).1
  rw [hp] at this
  have h0 : (0 : ℝ) ≤ N := Nat.cast_nonneg N
  rw [abs_of_pos (by dsimp only; linarith)] at this
  rw [div_lt_iff₀ (by norm_num)] at hN
  dsimp only at this
  linarith

/-- **C84 (refuted).**  The output has 343 columns and 343 names in its header, but the names are not distinct: the entries (1, 11) and
(11, 1) of the covariance, among others, have the same name. -/
theorem C84_header_refuted :
    columnNames.length = 343 ∧ covName 1 11 = covName 11 1 ∧ covName 1 10 = covName 11 0 ∧ ¬ columnNames.Nodup := by
  refine ⟨by decide +kernel, by decide +kernel, by decide +kernel, by decide +kernel⟩

/-- **C84 (what holds).**  The names of the states and of the covariances between the first ten states are all distinct. -/
theorem C84_header_partial :
    (stateNames.map String.toList ++ (List.range 10).flatMap fun i => (List.range 10).map fun j => covName i j).Nodup := by
  decide +kernel

end StateEstimation.Props
