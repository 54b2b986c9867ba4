import Verif.Lemmas.Float
import Verif.Lemmas.TimeMap
import Verif.Lemmas.Queues
import Verif.Examples.Toy
import Verif.Examples.Counter
import Verif.Props.Clock
import Mathlib.Data.Rat.Lemmas

/-! # C64: double precision time stamps -/

namespace StateEstimation
namespace Props

open Filter

variable {V M K E : Type}

deriving instance DecidableEq for Double

/-- The counting filter of `Examples/Counter.lean` on a double precision clock. -/
abbrev toyD : Plant Double (List ℤ) ℤ Unit ℤ := counter Double

/-- a double from significand and exponent -/
def dbl (m e : ℤ) (hm : |m| < 2 ^ 53 := by decide) (he : -1074 ≤ e := by decide) : Double := ⟨m * 2 ^ e, m, e, hm, he, rfl⟩

/-- the double nearest to 0.7 -/
def d07 : Double := dbl 6305039478318694 (-53)
/-- the double nearest to 2.9 -/
def d29 : Double := dbl 6530219459687219 (-51)
/-- the double nearest to 1.5 -/
def d15 : Double := dbl 3 (-1)
/-- 100 -/
def d100 : Double := dbl 100 0

/-- these are the literals of a C++ program -/
example : d07.1 = roundDouble (7 / 10) ∧ d29.1 = roundDouble (29 / 10) ∧ d15.1 = 3 / 2 := by decide +kernel

/-- a filter at time 0.7, rewinding off -/
def dPlain : Filter Double (List ℤ) ℤ Unit ℤ := Filter.construct toyD ⟨false, d100, false⟩ 1 [0] 0 d07
/-- a filter at time 0.7, rewinding on -/
def dRewind : Filter Double (List ℤ) ℤ Unit ℤ := Filter.construct toyD ⟨true, d100, false⟩ 1 [0] 0 d07

/-- after `predict([1], 2.9)` -/
def dAfter : Filter Double (List ℤ) ℤ Unit ℤ := (dPlain.predictControl toyD [1] d29).getD dPlain

/-- **C64** is false: a filter at time 0.7 is given a control stamped 2.9; its time is then later than 2.9
(2.9000000000000004), and a second control with the same stamp 2.9 is silently ignored, although with exact time
stamps it would be applied. -/
theorem C64_refuted :
    dPlain.predictControl toyD [1] d29 = some dAfter ∧ dAfter.getState = [1] ∧ d29 < dAfter.getStateTime ∧
    dAfter.predictControl toyD [10] d29 = some dAfter := by
  refine ⟨by decide +kernel, by decide +kernel, by decide +kernel, ?_⟩
  exact C02_past_control_ignored toyD dAfter [10] d29 (by decide +kernel) (by decide +kernel)

/-- the same stamps on an exact clock: both controls are applied and the time is the stamp -/
example : (estimate (Filter.run toy insSort toyPlain [.predictControl [1] 29, .predictControl [10] 29])).map
    (fun e => e.2.2) = some 29 := by decide

/-- **C04** and **C64** fail together with rewinding on: the filter is at 2.9000000000000004 after an input stamped
2.9; a late input stamped 1.5 rewinds to 0.7 and replays, and the time afterwards is 2.9: the clock went backwards. -/
theorem C64_refuted_clock_goes_back :
    ∃ f g : Filter Double (List ℤ) ℤ Unit ℤ, dRewind.predictControl toyD [1] d29 = some f ∧
      f.predictControl toyD [10] d15 = some g ∧ g.getStateTime < f.getStateTime := by
  refine ⟨(dRewind.predictControl toyD [1] d29).getD dRewind,
    (((dRewind.predictControl toyD [1] d29).getD dRewind).predictControl toyD [10] d15).getD dRewind, ?_, ?_, ?_⟩ <;>
    decide +kernel

/-- With rewinding off the clock never goes backwards, for all finite doubles, whatever the rounding errors. -/
theorem C64_double_clock_monotone (P : Plant Double V M K E) (f g : Filter Double V M K E) (sort)
    (hr : f.params.rewindHistory = false) (op : Op Double V M K E) (hop : op.IsDirect)
    (hg : f.step P sort op = some g) : f.getStateTime ≤ g.getStateTime := by
  have hadd : ∀ s t : Double, t ≤ s → t ≤ TimeOps.add t (TimeOps.sub s t) := by
    intro s t h
    show t.1 ≤ roundDouble (t.1 + roundDouble (s.1 - t.1))
    have h1 : 0 ≤ roundDouble (s.1 - t.1) := roundDouble_nonneg (sub_nonneg.mpr h)
    have h2 := roundDouble_mono (p := t.1) (q := t.1 + roundDouble (s.1 - t.1)) (by linarith)
    rwa [roundDouble_exact t.2] at h2
  have hap : ∀ (i : FilterInput Double V M K) (g' : Filter Double V M K E), Filter.applyInput P f i = some g' →
      (i.isControl = true → f.state.timestamp ≤ i.timestamp) → f.state.timestamp ≤ g'.state.timestamp := by
    intro i g' h hi
    rw [applyInput_eq, Option.map_eq_some_iff] at h
    obtain ⟨c, hc, rfl⟩ := h
    have := Core.apply_ts_raw P _ _ _ hc
    show f.state.timestamp ≤ c.ts
    rw [this]
    split
    · rename_i h1
      rw [Bool.or_eq_true] at h1
      rcases h1 with h1 | h1
      · exact hadd _ _ (hi h1)
      · rw [LawfulTime.lt_iff, LawfulTime.sub_pos_iff] at h1
        exact hadd _ _ h1.le
    · exact le_refl _
  show f.state.timestamp ≤ g.state.timestamp
  cases op with
  | predictTime t =>
    rcases predictTime_some P f g t hg with ⟨_, rfl⟩ | ⟨h1, g', h2, rfl⟩
    · exact le_refl _
    · rw [LawfulTime.lt_iff] at h1
      rw [pruned_state]; exact hap _ g' h2 fun _ => h1.le
  | predictControl u t =>
    rcases predictControl_some P f g u t hg with ⟨_, _, rfl⟩ | ⟨_, h1, g', h2, rfl⟩ | ⟨hp, h2⟩
    · exact le_refl _
    · rw [LawfulTime.le_iff] at h1
      rw [pruned_state]; exact hap _ g' h2 fun _ => h1
    · simp [hr] at hp
  | correct z c t m =>
    rcases correct_some P f g z c t m hg with ⟨_, _, _, rfl⟩ | ⟨_, _, g', h2, rfl⟩ | ⟨hp, h2⟩
    · exact le_refl _
    · rw [pruned_state]; exact hap _ g' h2 fun h => by simp at h
    · simp [hr] at hp
  | _ => exact absurd hop (by simp [Op.IsDirect])

/-- **C64** where it does hold (rewinding off, or on with inputs in order): an input whose stamp is at most twice the state
time, and not before it, sets the clock to exactly that stamp; the same if the state time is 0.  Missing: larger jumps,
where it can fail. -/
theorem C64_partial (P : Plant Double V M K E) (f g : Filter Double V M K E) (sort) (s : Double)
    (h1 : f.getStateTime ≤ s) (h2 : s.1 ≤ 2 * f.getStateTime.1 ∨ f.getStateTime.1 = 0) :
    (∀ u, f.step P sort (.predictControl u s) = some g → g.getStateTime = s) ∧
    (∀ z R m, f.step P sort (.correct z R s m) = some g → g.getStateTime = s) ∧
    (f.step P sort (.predictTime s) = some g → g.getStateTime = s) := by
  have hadd : TimeOps.add f.state.timestamp (TimeOps.sub s f.state.timestamp) = s := by
    apply Subtype.ext
    show roundDouble (f.state.timestamp.1 + roundDouble (s.1 - f.state.timestamp.1)) = s.1
    have h1' : f.state.timestamp.1 ≤ s.1 := h1
    have hd : IsDouble (s.1 - f.state.timestamp.1) := by
      rcases h2 with h2 | h2
      · have h2' : s.1 ≤ 2 * f.state.timestamp.1 := h2
        exact sterbenz s.2 f.state.timestamp.2 h2' (by linarith)
      · have h2' : f.state.timestamp.1 = 0 := h2
        rw [h2', sub_zero]; exact s.2
    rw [roundDouble_exact hd, add_sub_cancel, roundDouble_exact s.2]
  have hap : ∀ (i : FilterInput Double V M K) (g' : Filter Double V M K E), i.timestamp = s →
      Filter.applyInput P f i = some g' → g'.state.timestamp = s := by
    intro i g' hi h
    rw [applyInput_eq, Option.map_eq_some_iff] at h
    obtain ⟨c, hc, rfl⟩ := h
    have := Core.apply_ts_raw P _ _ _ hc
    show c.ts = s
    rw [this, hi]
    split
    · exact hadd
    · rename_i h3
      rw [Bool.or_eq_true, not_or, LawfulTime.lt_iff, LawfulTime.sub_pos_iff] at h3
      exact le_antisymm h1 (not_lt.mp h3.2)
  have hins : ∀ (i : FilterInput Double V M K), i.timestamp = s → Filter.insertInput P f i = some g →
      g.state.timestamp = s := by
    intro i hi h
    unfold Filter.insertInput at h
    have hlt : ¬ TimeOps.lt i.timestamp f.state.timestamp = true := by
      rw [LawfulTime.lt_iff, not_lt, hi]; exact h1
    rw [if_neg hlt] at h
    obtain ⟨g', h3, rfl⟩ := applyBatchInputs_some P f g _ h
    rw [pruned_state]
    simp only [applyAll] at h3
    split at h3
    · simp at h3
    · rename_i g2 h4
      simp only [Option.some.injEq] at h3
      subst h3
      exact hap i g2 hi h4
  refine ⟨?_, ?_, ?_⟩
  · intro u hg
    rcases predictControl_some P f g u s hg with ⟨_, h3, _⟩ | ⟨_, _, g', h3, rfl⟩ | ⟨_, h3⟩
    · exact absurd ((LawfulTime.le_iff _ _).mpr h1) (by simp [getStateTime, h3])
    · show g'.pruned.state.timestamp = s
      rw [pruned_state]; exact hap _ g' rfl h3
    · exact hins _ rfl h3
  · intro z R m hg
    rcases correct_some P f g z R s m hg with ⟨_, _, h3, _⟩ | ⟨_, _, g', h3, rfl⟩ | ⟨_, h3⟩
    · exact absurd ((LawfulTime.le_iff _ _).mpr ((LawfulTime.sub_nonneg_iff _ _).mpr h1)) (by simp [getStateTime, h3])
    · show g'.pruned.state.timestamp = s
      rw [pruned_state]; exact hap _ g' rfl h3
    · exact hins _ rfl h3
  · intro hg
    rcases predictTime_some P f g s hg with ⟨h3, rfl⟩ | ⟨_, g', h3, rfl⟩
    · rw [lt_false_iff] at h3; exact le_antisymm h1 h3
    · show g'.pruned.state.timestamp = s
      rw [pruned_state]; exact hap _ g' rfl h3

/-- hypotheses met: from 1.5 to 2.9 -/
example : (Filter.construct toyD ⟨true, d100, false⟩ 1 [0] 0 d15).getStateTime ≤ d29 ∧
    d29.1 ≤ 2 * (Filter.construct toyD ⟨true, d100, false⟩ 1 [0] 0 d15).getStateTime.1 := by decide +kernel

/-- All doubles from `2^m` on are multiples of `2^(m-52)`. -/
theorem double_multiple {t : ℚ} (h : IsDouble t) (m : ℤ) (h1 : 2 ^ m ≤ t) (hm : -1022 ≤ m) :
    ∃ n : ℤ, t = n * 2 ^ (m - 52) := by
  obtain ⟨a, e, ha, he, rfl⟩ := h
  by_cases hle : m - 52 ≤ e
  · refine ⟨a * 2 ^ (e - (m - 52)).toNat, ?_⟩
    push_cast
    rw [mul_assoc, ← zpow_natCast, ← zpow_add₀ (by norm_num), Int.toNat_of_nonneg (by omega)]
    congr 2
    ring
  · exfalso
    have h2 : (a : ℚ) * 2 ^ e < 2 ^ (53 + e) := by
      rw [zpow_add₀ (by norm_num)]
      have h3 : (a : ℚ) < 2 ^ (53 : ℤ) := by
        have : a < 2 ^ 53 := lt_of_le_of_lt (le_abs_self a) ha
        exact_mod_cast this
      exact mul_lt_mul_of_pos_right h3 (two_zpow_pos e)
    have h3 := lt_of_le_of_lt h1 h2
    have := (zpow_lt_zpow_iff_right₀ (by norm_num : (1 : ℚ) < 2)).mp h3
    omega

/-- Time stamps (not negative) with resolution `2^-k` seconds and magnitude below `2^(53-k)` seconds. -/
def OnGrid (k : ℤ) (t : Double) : Prop := ∃ n : ℤ, 0 ≤ n ∧ n < 2 ^ 53 ∧ t.1 = n * 2 ^ (-k)

/-- Unix times: every double between `2^30` (January 2004) and `2^31` (January 2038), whatever its fractional part, has
resolution `2^-22`. -/
theorem onGrid_unix (t : Double) (h1 : 2 ^ 30 ≤ t.1) (h2 : t.1 < 2 ^ 31) : OnGrid 22 t := by
  obtain ⟨n, hn⟩ := double_multiple t.2 30 h1 (by norm_num)
  refine ⟨n, ?_, ?_, hn⟩
  · by_contra hc
    have : (n : ℚ) < 0 := by exact_mod_cast not_le.mp hc
    have := mul_neg_of_neg_of_pos this (two_zpow_pos (30 - 52))
    rw [← hn] at this
    linarith
  · rw [hn] at h2
    have h3 : (n : ℚ) * 2 ^ ((30 : ℤ) - 52) < 2 ^ 53 * 2 ^ ((30 : ℤ) - 52) := by
      refine lt_of_lt_of_eq h2 ?_
      norm_num
    have := lt_of_mul_lt_mul_right h3 (two_zpow_pos _).le
    exact_mod_cast this

/-- times such as 0, 10 and 0.25 are on that grid too -/
example : OnGrid 22 (dbl 0 0) ∧ OnGrid 22 (dbl 10 0) ∧ OnGrid 22 (dbl 1 (-2)) :=
  ⟨⟨0, by decide +kernel⟩, ⟨10 * 2 ^ 22, by decide +kernel⟩, ⟨2 ^ 20, by decide +kernel⟩⟩

/-- The same models on an exact clock: the step length is rounded to double before the models see it. -/
def exactClock (P : Plant Double V M K E) : Plant ℚ V M K E :=
  { P with
    myPredict := fun e x c u dt => P.myPredict e x c u ⟨roundDouble dt, roundDouble_isDouble dt⟩
    myCorrect := fun e x c z m dt => P.myCorrect e x c z m ⟨roundDouble dt, roundDouble_isDouble dt⟩ }

theorem exactClock_onClock (P : Plant Double V M K E) : (exactClock P).onClock Subtype.val = P := by
  have h : ∀ dt : Double, (⟨roundDouble dt.1, roundDouble_isDouble dt.1⟩ : Double) = dt :=
    fun dt => Subtype.ext (roundDouble_exact dt.2)
  have h1 : (fun e x c u (dt : Double) => P.myPredict e x c u ⟨roundDouble dt.1, roundDouble_isDouble dt.1⟩) = P.myPredict := by
    funext e x c u dt
    rw [h]
  have h2 : (fun e x c z m (dt : Double) => P.myCorrect e x c z m ⟨roundDouble dt.1, roundDouble_isDouble dt.1⟩)
      = P.myCorrect := by
    funext e x c z m dt
    rw [h]
  show ({ P with
      myPredict := fun e x c u (dt : Double) => P.myPredict e x c u ⟨roundDouble dt.1, roundDouble_isDouble dt.1⟩
      myCorrect := fun e x c z m (dt : Double) => P.myCorrect e x c z m ⟨roundDouble dt.1, roundDouble_isDouble dt.1⟩ } :
      Plant Double V M K E) = P
  rw [h1, h2]

/-- double precision on a grid is exact -/
def gridEmb (k : ℤ) (hk : k ≤ 1074) : TimeEmb Double ℚ where
  φ := Subtype.val
  D := OnGrid k
  lt_eq _ _ := rfl
  le_eq _ _ := rfl
  ψ := Subtype.val
  pos_eq _ := rfl
  nonneg_eq _ := rfl
  back_eq a b ha hb := by
    obtain ⟨n, hn0, hn, ha⟩ := ha
    obtain ⟨m, hm0, hm, hb⟩ := hb
    show roundDouble (a.1 - b.1) = a.1 - b.1
    apply roundDouble_exact
    refine ⟨n - m, -k, ?_, by omega, ?_⟩
    · rw [abs_lt]; constructor <;> omega
    · rw [ha, hb]; push_cast; ring
  sub_eq a b ha hb := by
    obtain ⟨n, hn0, hn, ha⟩ := ha
    obtain ⟨m, hm0, hm, hb⟩ := hb
    show roundDouble (a.1 - b.1) = a.1 - b.1
    apply roundDouble_exact
    refine ⟨n - m, -k, ?_, by omega, ?_⟩
    · rw [abs_lt]; constructor <;> omega
    · rw [ha, hb]; push_cast; ring
  add_eq a b ha hb := by
    obtain ⟨n, hn0, hn, ha'⟩ := ha
    obtain ⟨m, hm0, hm, hb'⟩ := hb
    apply Subtype.ext
    show roundDouble (b.1 + roundDouble (a.1 - b.1)) = a.1
    rw [roundDouble_exact (q := a.1 - b.1), add_sub_cancel, roundDouble_exact a.2]
    refine ⟨n - m, -k, ?_, by omega, ?_⟩
    · rw [abs_lt]; constructor <;> omega
    · rw [ha', hb']; push_cast; ring
  add_eq' a b := by
    show b.1 + (a.1 - b.1) = a.1
    ring

/-- a sort on the exact clock that agrees with a given one on doubles -/
theorem exists_exact_sort (sort : List (FilterInput Double V M K) → List (FilterInput Double V M K))
    (hsort : IsTimeSort sort) : ∃ sort' : List (FilterInput ℚ V M K) → List (FilterInput ℚ V M K), IsTimeSort sort' ∧
      ∀ l, sort' (l.map (·.mapTime Subtype.val)) = (sort l).map (·.mapTime Subtype.val) := by
  classical
  have hinj : Function.Injective (fun i : FilterInput Double V M K => i.mapTime Subtype.val) := by
    rintro ⟨a1, a2, a3, a4, a5⟩ ⟨b1, b2, b3, b4, b5⟩ h
    simp only [FilterInput.mapTime, FilterInput.mk.injEq] at h
    obtain ⟨h1, h2, h3, h4, h5⟩ := h
    rw [FilterInput.mk.injEq]
    exact ⟨h1, h2, Subtype.ext h3, h4, h5⟩
  let le : FilterInput ℚ V M K → FilterInput ℚ V M K → Bool := fun a b => decide (a.timestamp ≤ b.timestamp)
  refine ⟨fun l => if h : ∃ l0 : List (FilterInput Double V M K), l0.map (·.mapTime Subtype.val) = l
    then (sort h.choose).map (·.mapTime Subtype.val) else l.mergeSort le, ?_, ?_⟩
  · intro l
    dsimp only
    split
    · rename_i h
      obtain ⟨p1, p2⟩ := hsort h.choose
      refine ⟨?_, ?_⟩
      · have := p1.map (fun i : FilterInput Double V M K => i.mapTime Subtype.val)
        rwa [h.choose_spec] at this
      · rw [List.pairwise_map]
        exact p2
    · refine ⟨List.mergeSort_perm l le, ?_⟩
      have h1 := List.pairwise_mergeSort (le := le)
        (fun a b c h1 h2 => by
          simp only [le, decide_eq_true_eq] at *
          exact le_trans h1 h2)
        (fun a b => by
          simp only [le, Bool.or_eq_true, decide_eq_true_eq]
          exact le_total _ _) l
      refine h1.imp fun {a b} h => ?_
      simp only [le, decide_eq_true_eq] at h
      rw [lt_false_iff]
      exact h
  · intro l
    have h : ∃ l0 : List (FilterInput Double V M K), l0.map (·.mapTime Subtype.val) = l.map (·.mapTime Subtype.val) := ⟨l, rfl⟩
    dsimp only
    rw [dif_pos h]
    have : h.choose = l := List.map_injective_iff.mpr hinj h.choose_spec
    rw [this]

/-- **C64** for time stamps of limited resolution (`2^-k` s, up to `2^(53-k)` s), history window included: every sequence of
API calls on the double precision filter does exactly what the same sequence does on a filter with an exact rational
clock, so that everything proved for exact clocks (C03, C04, C06-C25) applies.  Missing: time stamps that are not on a
common grid. -/
theorem C64_grid_partial (k : ℤ) (hk : k ≤ 1074) (P : Plant Double V M K E)
    (sort : List (FilterInput Double V M K) → List (FilterInput Double V M K)) (hsort : IsTimeSort sort) :
    ∃ sort', IsTimeSort sort' ∧ ∀ (f : Filter Double V M K E) (ops : List (Op Double V M K E)),
      f.Times (OnGrid k) → (∀ op ∈ ops, op.Times (OnGrid k)) →
      (f.mapTime Subtype.val Subtype.val).run (exactClock P) sort' (ops.map (·.mapTime Subtype.val Subtype.val)) =
        (f.run P sort ops).map (·.mapTime Subtype.val Subtype.val) := by
  obtain ⟨sort', h1, h2⟩ := exists_exact_sort sort hsort
  refine ⟨sort', h1, fun f ops hf hops => ?_⟩
  have h := ((gridEmb k hk).run (exactClock P) sort sort' hsort (fun l _ => h2 l) ops f hf hops).1
  have hP : (exactClock P).onClock (gridEmb k hk).ψ = P := exactClock_onClock P
  rw [hP] at h
  exact h

/-- `initialize` on a filter with default time stamps meets the hypothesis about the filter -/
example : (Filter.construct toyD ⟨true, dbl 10 0, false⟩ 1 [0] 0 (dbl 3 0)).Times (OnGrid 22) where
  window := ⟨10 * 2 ^ 22, by decide +kernel⟩
  state := ⟨3 * 2 ^ 22, by decide +kernel⟩
  prev := ⟨0, by decide +kernel⟩
  history := by intro s hs; simp [Filter.construct, Filter.init, Filter.clear] at hs
  queued := by intro s hs; simp [Filter.construct, Filter.init, Filter.clear] at hs

/-- Consequence of C64 on a grid: after any run whatsoever, in either mode, an input that is not older than the state sets
the clock to exactly its stamp. -/
theorem C64_grid_clock_partial (k : ℤ) (hk : k ≤ 1074) (P : Plant Double V M K E)
    (sort : List (FilterInput Double V M K) → List (FilterInput Double V M K)) (hsort : IsTimeSort sort)
    (f f' g : Filter Double V M K E) (ops : List (Op Double V M K E)) (hf : f.Times (OnGrid k))
    (hops : ∀ op ∈ ops, op.Times (OnGrid k)) (hrun : f.run P sort ops = some f') (s : Double) (hs : OnGrid k s)
    (h1 : f'.getStateTime ≤ s) :
    (∀ u, f'.predictControl P u s = some g → g.getStateTime = s) ∧
    (∀ z R m, f'.correct P z R s m = some g → g.getStateTime = s) := by
  obtain ⟨sort', h2, h3⟩ := C64_grid_partial k hk P sort hsort
  have hr := h3 f ops hf hops
  rw [hrun] at hr
  have key : ∀ op : Op Double V M K E, op.Times (OnGrid k) → f'.step P sort op = some g →
      (f'.mapTime Subtype.val Subtype.val).step (exactClock P) sort' (op.mapTime Subtype.val Subtype.val) = some (g.mapTime Subtype.val Subtype.val) := by
    intro op hop hg
    have h4 := h3 f (ops ++ [op]) hf (by
      intro o ho
      rcases List.mem_append.mp ho with ho | ho
      · exact hops o ho
      · rw [List.mem_singleton.mp ho]; exact hop)
    rw [List.map_append, run_append, run_append, hr, hrun] at h4
    simp only [Option.map_some, Option.bind_some, List.map_singleton, Filter.run, hg] at h4
    split at h4
    · simp at h4
    · rename_i g' hg'
      simp only [Option.map_some, Option.some.injEq] at h4
      rw [hg', h4]
  refine ⟨fun u hg => ?_, fun z R m hg => ?_⟩
  · have h4 := key (.predictControl u s) hs hg
    have h5 := (C03_inorder_sets_clock (exactClock P) (f'.mapTime Subtype.val Subtype.val) (g.mapTime Subtype.val Subtype.val) s.1).2.1 u h1 h4
    exact Subtype.ext h5
  · have h4 := key (.correct z R s m) hs hg
    have h5 := (C03_inorder_sets_clock (exactClock P) (f'.mapTime Subtype.val Subtype.val) (g.mapTime Subtype.val Subtype.val) s.1).2.2 z R m h1 h4
    exact Subtype.ext h5

end Props
end StateEstimation
