import Verif.Lemmas.Example
import Verif.Props.Csv
import Mathlib.Tactic.IntervalCases

/-!
# C82: the example program, from the two input files to the output file
-/

namespace StateEstimation.Props

open Example Csv Matrix

/-- Specification of `std::sort` by time: some permutation ordered by time (not stable). -/
def SortsByTime (sort : List Reading → List Reading) : Prop := ∀ l, (sort l).Perm l ∧ (sort l).Pairwise fun a b => a.t ≤ b.t

/-- Specification of a row of the output: time, the 18 states, the covariance row by row. -/
def RowOf (o : Output) (r : DVec) : Prop :=
  r.size = 343 ∧ r.get? 0 = some o.t ∧ (∀ i < 18, ∃ a, o.x.get? i = some a ∧ r.get? (1 + i) = some a) ∧
    ∀ i < 18, ∀ j < 18, ∃ a, o.cov.get? i j = some a ∧ r.get? (19 + 18 * i + j) = some a

/-- Specification of what a data row means: stamp first, then the measurement; the stamp in seconds since `t0`. -/
noncomputable def readingOf (t0 : ℝ) (k : Kind) (v : DVec) : Reading :=
  ⟨((v.get? 0).getD 0 - t0) / 10 ^ 9, .of fun i : Fin (dims k) => (v.get? (i.val + 1)).getD 0, k⟩

theorem toReadings_readingOf (k : Kind) : ∀ (l : List DVec) (ms : List Reading), (∀ v ∈ l, v.size = dims k + 1) → toReadings k l = some ms →
    ∀ t0, ms.map (fun m => { m with t := (m.t - t0) / 10 ^ 9 }) = l.map (readingOf t0 k)
  | [], ms, _, h, t0 => by cases h; rfl
  | v :: l, ms, hl, h, t0 => by
    have hv := hl v (by simp)
    unfold toReadings at h
    obtain ⟨r, h1, h⟩ := Option.bind_eq_some_iff.mp h
    obtain ⟨rs, h2, h⟩ := Option.bind_eq_some_iff.mp h
    cases h
    rw [List.map_cons, List.map_cons, toReadings_readingOf k l rs (fun w hw => hl w (by simp [hw])) h2 t0]
    congr 1
    unfold toReading at h1
    obtain ⟨t, k1, h1⟩ := Option.bind_eq_some_iff.mp h1
    obtain ⟨z, k2, h1⟩ := Option.bind_eq_some_iff.mp h1
    cases h1
    unfold readingOf
    rw [k1]
    dsimp only [Option.getD]
    congr 1
    have hz : tail? v (dims k) = some z := by cases k <;> exact k2
    unfold tail? at hz
    rw [dif_pos (by omega)] at hz
    cases hz
    unfold DVec.of
    congr 1
    funext i
    show _ = (DVec.get? v (i.val + 1)).getD 0
    unfold DVec.get?
    rw [dif_pos (by omega)]
    show _ = v.val _
    congr 1
    apply Fin.ext
    show v.size - dims k + i.val = i.val + 1
    omega

theorem tail_ok {v : DVec} {n : Nat} (h : n ≤ v.size) : ∃ z, tail? v n = some z ∧ z.size = n := by
  unfold tail?
  rw [dif_pos h]
  exact ⟨_, rfl, rfl⟩

theorem toReadings_ok (k : Kind) : ∀ (l : List DVec), (∀ v ∈ l, v.size = dims k + 1) →
    ∃ ms, toReadings k l = some ms ∧ ms.map (fun m => some m.t) = l.map (DVec.get? · 0) ∧ ∀ m ∈ ms, m.z.size = dims m.kind
  | [], _ => ⟨[], rfl, rfl, by simp⟩
  | v :: l, h => by
    obtain ⟨ms, h1, h2, h3⟩ := toReadings_ok k l (fun w hw => h w (by simp [hw]))
    have hv := h v (by simp)
    have h0 : ∃ t, v.get? 0 = some t := by
      unfold DVec.get?
      rw [dif_pos (show 0 < v.size by omega)]
      exact ⟨_, rfl⟩
    obtain ⟨t, h0⟩ := h0
    have hz : ∃ z, tail? v (match k with | .odom => 4 | .imu => 6) = some z ∧ z.size = dims k := by
      cases k
      · exact tail_ok (by rw [hv]; decide)
      · exact tail_ok (by rw [hv]; decide)
    obtain ⟨z, hz1, hz2⟩ := hz
    refine ⟨⟨t, z, k⟩ :: ms, ?_, ?_, ?_⟩
    · unfold toReadings toReading
      cases k <;> simp only [Option.bind_eq_bind, h0, Option.bind_some, hz1, h1]
    · rw [List.map_cons, List.map_cons, h2, h0]
    · intro m hm
      rcases List.mem_cons.mp hm with rfl | hm
      · exact hz2
      · exact h3 m hm

theorem estimate_ok (ms : List Reading) (hne : ms ≠ []) (hs : ms.Pairwise fun a b => a.t ≤ b.t) (hz : ∀ m ∈ ms, m.z.size = dims m.kind) :
    ∃ os, estimate ms = some os ∧ os.map Output.t = ms.map Reading.t ∧ ∀ o ∈ os, Kept o.x o.cov := by
  obtain ⟨m, rest, rfl⟩ := List.exists_cons_of_ne_nil hne
  have hf : FOk (filterAt exEnv m.t) := ⟨kept_initial, exEnv_ok, fun h => absurd h (Nat.lt_irrefl 0)⟩
  obtain ⟨os, h1, h2, h3⟩ := loop_ok (m :: rest) (filterAt exEnv m.t) hf
    (inOrder_of (fun k hk => ⟨by
      rcases List.mem_cons.mp hk with rfl | hk
      · exact le_refl _
      · exact (List.pairwise_cons.mp hs).1 k hk, hz k hk⟩) hs)
  refine ⟨os, ?_, h2, h3⟩
  unfold estimate
  exact bind_step setup_eq (bind_step rfl h1)

theorem vecOf_get (l : List ℝ) (i : Nat) : (vecOf l).get? i = l[i]? := by
  unfold DVec.get? vecOf
  dsimp only
  split
  next h => exact (List.getElem?_eq_getElem h).symm
  next h => exact (List.getElem?_eq_none (by omega)).symm

theorem flatten_get {α : Type} (n : Nat) : ∀ (L : List (List α)), (∀ l ∈ L, l.length = n) → ∀ i j, i < L.length → j < n →
    L.flatten[n * i + j]? = L[i]?.bind (·[j]?)
  | [], _, i, j, hi, _ => absurd hi (Nat.not_lt_zero _)
  | l :: L, h, 0, j, _, hj => by
    have hl : l.length = n := h l (by simp)
    rw [List.flatten_cons, List.getElem?_append_left (by omega)]
    simp
  | l :: L, h, i + 1, j, hi, hj => by
    have hl : l.length = n := h l (by simp)
    rw [List.flatten_cons, List.getElem?_append_right (by rw [hl, Nat.mul_succ]; omega), List.getElem?_cons_succ,
      ← flatten_get n L (fun l' hl' => h l' (by simp [hl'])) i j (by simpa using hi) hj]
    congr 1
    rw [hl, Nat.mul_succ]; omega

theorem flatten_length {α : Type} (n : Nat) : ∀ (L : List (List α)), (∀ l ∈ L, l.length = n) → L.flatten.length = n * L.length
  | [], _ => rfl
  | l :: L, h => by
    rw [List.flatten_cons, List.length_append, flatten_length n L (fun l' hl' => h l' (by simp [hl'])), h l (by simp), List.length_cons]
    ring

theorem row_ok {o : Output} (h : Kept o.x o.cov) : ∃ r, toRow o = some r ∧ RowOf o r := by
  obtain ⟨t, x, c⟩ := o
  obtain ⟨v, P, rfl, rfl, _⟩ := h
  refine ⟨_, dif_pos ⟨rfl, rfl, rfl⟩, ?_⟩
  have hall : ∀ l ∈ (List.ofFn fun i : Fin 18 => List.ofFn fun j : Fin 18 => P i j), l.length = 18 := by
    intro l hl
    rw [List.mem_ofFn] at hl
    obtain ⟨i, rfl⟩ := hl
    exact List.length_ofFn
  have hlen : (List.ofFn fun i : Fin 18 => List.ofFn fun j : Fin 18 => P i j).flatten.length = 324 := by
    rw [flatten_length 18 _ hall, List.length_ofFn]
  refine ⟨?_, ?_, ?_, ?_⟩
  · show (t :: List.ofFn v ++ (List.ofFn fun i : Fin 18 => List.ofFn fun j : Fin 18 => P i j).flatten).length = 343
    rw [List.length_append, hlen]; simp
  · rw [vecOf_get]; rfl
  · intro i hi
    refine ⟨v ⟨i, hi⟩, dif_pos hi, ?_⟩
    rw [vecOf_get]
    show (t :: List.ofFn v ++ (List.ofFn fun i : Fin 18 => List.ofFn fun j : Fin 18 => P i j).flatten)[1 + i]? = _
    rw [List.getElem?_append_left (by simp; omega), Nat.add_comm, List.getElem?_cons_succ, List.getElem?_ofFn, dif_pos hi]
  · intro i hi j hj
    refine ⟨P ⟨i, hi⟩ ⟨j, hj⟩, dif_pos ⟨hi, hj⟩, ?_⟩
    rw [vecOf_get]
    show (t :: List.ofFn v ++ (List.ofFn fun i : Fin 18 => List.ofFn fun j : Fin 18 => P i j).flatten)[19 + 18 * i + j]? = _
    rw [List.getElem?_append_right (by simp; omega)]
    have : 19 + 18 * i + j - (t :: List.ofFn v).length = 18 * i + j := by simp; omega
    rw [this, flatten_get 18 _ hall i j (by simpa using hi) hj, List.getElem?_ofFn, dif_pos hi, Option.bind_some, List.getElem?_ofFn,
      dif_pos hj]

theorem rows_ok : ∀ {os : List Output}, (∀ o ∈ os, Kept o.x o.cov) → ∃ rows, toRows os = some rows ∧ List.Forall₂ RowOf os rows
  | [], _ => ⟨[], rfl, .nil⟩
  | o :: os, h => by
    obtain ⟨r, h1, h2⟩ := row_ok (h o (by simp))
    obtain ⟨rs, h3, h4⟩ := rows_ok (os := os) (fun o' ho' => h o' (by simp [ho']))
    refine ⟨r :: rs, ?_, .cons h2 h4⟩
    unfold toRows
    simp only [Option.bind_eq_bind, h1, Option.bind_some, h3]

theorem loaded_sizes {stod : List Char → Option ℝ} {file : Option (List Char)} {idx : List Nat} {rows : List DVec}
    (h : loadCsvFields stod file true idx [] = .returned true rows) : ∀ v ∈ rows, v.size = idx.length := by
  obtain ⟨cs, lines, rows', _, _, h3, h4⟩ := (C80_load stod file true idx [] rows).mp h
  rw [List.nil_append] at h4
  subst h4
  intro v hv
  have : ∀ {L : List (List Char)} {R : List DVec}, List.Forall₂ (fun line v => line ≠ [] ∧ ∃ fields, Pieces ',' line fields ∧
      RowReads stod idx fields v) L R → ∀ v ∈ R, v.size = idx.length := by
    intro L R hLR
    induction hLR with
    | nil => simp
    | cons hab _ ih =>
      intro w hw
      rcases List.mem_cons.mp hw with rfl | hw
      · obtain ⟨_, f, _, hf⟩ := hab; exact hf.1
      · exact ih w hw
  exact this h3 v hv

/-- **C82.**  The example program on two input files that `loadCsvFields` accepts (C80 says which these are), at least one of
which has a data row, and whatever order `std::sort` gives to equal time stamps: no assertion trips, no undefined
behaviour; the output file has one row per data row of the two inputs: the estimates after each of these readings (as requested
columns, stamp in seconds since the earliest one) in order of time; the times in it are the time stamps of the data
rows in seconds since the earliest one, in increasing order (the first is 0); each row holds the time, 18 states and 18 × 18
covariances; every covariance is positive semidefinite; gravity stays exactly (0, 0, 9.8062) and the biases exactly 0, with
the variances they started with and no correlation with anything. -/
theorem C82_run (stod : List Char → Option ℝ) (sort : List Reading → List Reading) (hsort : SortsByTime sort)
    (odomFile imuFile : Option (List Char)) (odomRows imuRows : List DVec)
    (h1 : loadCsvFields stod odomFile true [2, 12, 13, 14, 17] [] = .returned true odomRows)
    (h2 : loadCsvFields stod imuFile true [2, 11, 12, 13, 8, 9, 10] [] = .returned true imuRows)
    (hne : odomRows ++ imuRows ≠ []) :
    ∃ (outs : List Output) (rows : List DVec) (stamps : List ℝ) (t0 : ℝ),
      run stod sort odomFile imuFile = some (.written (writeToFile header rows)) ∧
      List.Forall₂ RowOf outs rows ∧ outs.length = odomRows.length + imuRows.length ∧
      (odomRows ++ imuRows).map (DVec.get? · 0) = stamps.map some ∧
      t0 ∈ stamps ∧ (∀ s ∈ stamps, t0 ≤ s) ∧
      (outs.map Output.t).Perm (stamps.map fun s => (s - t0) / 10 ^ 9) ∧ (outs.map Output.t).Pairwise (· ≤ ·) ∧
      (outs.map Output.t).head? = some 0 ∧
      (∃ ms, estimate ms = some outs ∧ ms.Perm (odomRows.map (readingOf t0 .odom) ++ imuRows.map (readingOf t0 .imu)) ∧
        ms.Pairwise fun a b => a.t ≤ b.t) ∧
      ∀ o ∈ outs, Kept o.x o.cov := by
  obtain ⟨a, a1, a2, a3⟩ := toReadings_ok .odom odomRows (loaded_sizes h1)
  obtain ⟨b, b1, b2, b3⟩ := toReadings_ok .imu imuRows (loaded_sizes h2)
  obtain ⟨hp, hs⟩ := hsort (a ++ b)
  have hlen : (a ++ b).length = odomRows.length + imuRows.length := by
    have l1 := congrArg List.length a2
    have l2 := congrArg List.length b2
    simp only [List.length_map] at l1 l2
    rw [List.length_append, l1, l2]
  have hstamps : (odomRows ++ imuRows).map (DVec.get? · 0) = ((a ++ b).map Reading.t).map some := by
    rw [List.map_append, ← a2, ← b2, List.map_append, List.map_append, List.map_map, List.map_map]; rfl
  have hne' : sort (a ++ b) ≠ [] := by
    intro h
    have := hp.length_eq
    rw [h, hlen] at this
    apply hne
    have e1 : odomRows.length = 0 := by simp at this; omega
    have e2 : imuRows.length = 0 := by simp at this; omega
    rw [List.length_eq_zero_iff] at e1 e2
    rw [e1, e2]; rfl
  obtain ⟨m, rest, hmr⟩ := List.exists_cons_of_ne_nil hne'
  set g : Reading → Reading := fun k => { k with t := (k.t - m.t) / 10 ^ 9 } with hg
  have hreb : rebase (sort (a ++ b)) = some ((sort (a ++ b)).map g) := by rw [hmr]; rfl
  have hpw : ((sort (a ++ b)).map g).Pairwise fun a b => a.t ≤ b.t := by
    rw [List.pairwise_map]
    refine hs.imp ?_
    intro x y hxy
    show (x.t - m.t) / 10 ^ 9 ≤ (y.t - m.t) / 10 ^ 9
    gcongr
  obtain ⟨os, o1, o2, o3⟩ := estimate_ok ((sort (a ++ b)).map g) (by rw [hmr]; simp) hpw (by
    intro k hk
    obtain ⟨k', hk', rfl⟩ := List.mem_map.mp hk
    have : k' ∈ a ++ b := hp.mem_iff.mp hk'
    rcases List.mem_append.mp this with h | h
    · exact a3 k' h
    · exact b3 k' h)
  obtain ⟨rows, r1, r2⟩ := rows_ok o3
  have hot : os.map Output.t = (sort (a ++ b)).map fun k => (k.t - m.t) / 10 ^ 9 := by
    rw [o2, List.map_map]; rfl
  refine ⟨os, rows, (a ++ b).map Reading.t, m.t, ?_, r2, ?_, hstamps, ?_, ?_, ?_, ?_, ?_, ?_, o3⟩
  · unfold run
    rw [h1, h2]
    dsimp only
    exact bind_step a1 (bind_step b1 (bind_step hreb (bind_step o1 (bind_step r1 rfl))))
  · have := congrArg List.length hot
    simp only [List.length_map] at this
    rw [this, hp.length_eq, hlen]
  · exact List.mem_map.mpr ⟨m, hp.mem_iff.mp (by rw [hmr]; simp), rfl⟩
  · intro s hs'
    obtain ⟨k, hk, rfl⟩ := List.mem_map.mp hs'
    have hk' : k ∈ sort (a ++ b) := hp.mem_iff.mpr hk
    rw [hmr] at hk' hs
    rcases List.mem_cons.mp hk' with rfl | h
    · exact le_refl _
    · exact (List.pairwise_cons.mp hs).1 k h
  · rw [hot, List.map_map]
    exact hp.map _
  · rw [o2, List.pairwise_map]; exact hpw
  · rw [hot, hmr]; simp
  · refine ⟨_, o1, ?_, hpw⟩
    rw [← toReadings_readingOf .odom odomRows a (loaded_sizes h1) a1, ← toReadings_readingOf .imu imuRows b (loaded_sizes h2) b1,
      ← List.map_append]
    exact hp.map _

/-- **C82 (no output).**  If one of the files cannot be opened or has a bad line, the program ends with exit code 1 and writes
nothing. -/
theorem C82_bad_input (stod : List Char → Option ℝ) (sort : List Reading → List Reading) (odomFile imuFile : Option (List Char))
    (data : List DVec) :
    (loadCsvFields stod odomFile true [2, 12, 13, 14, 17] [] = .returned false data → run stod sort odomFile imuFile = some .exit1) ∧
    (∀ rows, loadCsvFields stod odomFile true [2, 12, 13, 14, 17] [] = .returned true rows →
      loadCsvFields stod imuFile true [2, 11, 12, 13, 8, 9, 10] [] = .returned false data → run stod sort odomFile imuFile = some .exit1) := by
  constructor
  · intro h; unfold run; rw [h]
  · intro rows h h'; unfold run; rw [h, h']

/-- **C82 (pitfall).**  Two files with a header and no data row are accepted and then `measurements.front()` of an empty
vector is read: undefined behaviour. -/
theorem C82_empty (stod : List Char → Option ℝ) (sort : List Reading → List Reading) (hsort : SortsByTime sort)
    (odomFile imuFile : Option (List Char))
    (h1 : loadCsvFields stod odomFile true [2, 12, 13, 14, 17] [] = .returned true [])
    (h2 : loadCsvFields stod imuFile true [2, 11, 12, 13, 8, 9, 10] [] = .returned true []) :
    run stod sort odomFile imuFile = none := by
  unfold run
  rw [h1, h2]
  dsimp only
  refine bind_step (a := []) rfl (bind_step (a := []) rfl ?_)
  have : sort ([] ++ []) = [] := (hsort _).1.eq_nil
  rw [this]
  rfl

/-- The files of `C82_empty` exist: a header line only. -/
example (stod : List Char → Option ℝ) : loadCsvFields stod (some ['t', ',', 'x', '\n']) true [2, 12, 13, 14, 17] [] = .returned true [] :=
  (C80_load _ _ _ _ _ _).mpr ⟨_, [['t', ',', 'x']], [], rfl, ⟨by simp, Or.inl rfl⟩, .nil, rfl⟩

/-- Non-vacuity of `C82_run`: a header and one line of eighteen fields. -/
example : loadCsvFields (fun _ => some 1) (some (['t', '\n'] ++ [','].intercalate (List.replicate 18 ['1']) ++ ['\n'])) true
    [2, 12, 13, 14, 17] [] = .returned true [vecOf [1, 1, 1, 1, 1]] := by
  refine (C80_load _ _ _ _ _ _).mpr ⟨_, [['t'], [','].intercalate (List.replicate 18 ['1'])], _, rfl, ⟨by decide, Or.inl rfl⟩,
    .cons ⟨by decide, List.replicate 18 ['1'], ⟨by decide, Or.inr ⟨List.replicate 17 ['1'], ['1'], by decide, by decide, by decide⟩⟩, rfl, ?_⟩ .nil, rfl⟩
  intro j i h
  have hj : j < 5 := by
    by_contra hc
    rw [List.getElem?_eq_none (by simp; omega)] at h
    cases h
  interval_cases j <;> cases h <;> exact ⟨['1'], rfl, by decide, rfl⟩

end StateEstimation.Props
