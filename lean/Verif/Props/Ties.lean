import Verif.Lemmas.Ties
import Verif.Props.Ledger
import Verif.Props.Simultaneous
import Verif.Props.Doubt
import Verif.Lemmas.UKFAffine

/-!
# C142: readings with the same time stamp

C111 says that only the books matter as long as no two pieces of data have the same time stamp.  With a Kalman filter, or an EKF
or UKF with affine sensors, readings may share their time stamps: neither their arrival order, nor the way they arrive (directly, through
the queues, late), nor what the (unstable) sort does with equal time stamps has an influence on the estimate.
-/

set_option linter.unusedSectionVars false

namespace StateEstimation
namespace Props

open Filter Matrix Kalman

section general
variable {T V M K E : Type} [LinearOrder T] [ExactTime T]

/-- As `OnlyBooksMatter.same`, with readings that may share a time stamp: any two sequences of calls, with any two sorting routines,
that start from an admissible estimate and end with the same data in the books end with the same state, covariance and time. -/
def TiesDoNotMatter (P : Plant T V M K E) (f0 : Filter T V M K E) (Q : V → M → Prop) (kind : Given T V M K → Prop) : Prop :=
  ∀ sort sort', IsTimeSort sort → IsTimeSort sort' → ∀ (x : V) (c : M) (t0 : T), Q x c → ∀ (ops ops' : List (Op T V M K E)),
    (∀ op ∈ ops ++ ops', op.IsBooked) →
    (∀ n, ((Ledger.mk t0 [] []).after (ops.take n)).Fits kind f0.params.historyWindow) →
    (∀ n, ((Ledger.mk t0 [] []).after (ops'.take n)).Fits kind f0.params.historyWindow) →
    ((Ledger.mk t0 [] []).after ops).OnlyReadingsTie →
    ((Ledger.mk t0 [] []).after ops).applied.Perm ((Ledger.mk t0 [] []).after ops').applied →
    ∀ g g', (f0.init x c t0).run P sort ops = some g → (f0.init x c t0).run P sort' ops' = some g' →
      g.getState = g'.getState ∧ g.getCovariance = g'.getCovariance ∧ g.getStateTime = g'.getStateTime

theorem tiesDoNotMatter {P : Plant T V M K E} {G : V → M → E → Prop} {A : FilterInput T V M K → Prop}
    {F : V → M → T → FilterInput T V M K → Option (V × M)} (hF : PureStep P G A F) (R : M)
    (hrc : ∀ pc pcc e, G pc pcc e → P.rc e = R) (f0 : Filter T V M K E)
    (hr : f0.params.rewindHistory = true) (hG : G f0.prevControl f0.prevControlCov f0.env) (kind : Given T V M K → Prop)
    (hkind : ∀ a, kind a → A (a.input P.emptyV R)) {Good : V → M → Prop} (hk : KeepsGood Good A F) (hc : TiesCommute Good A F) :
    TiesDoNotMatter P f0 Good kind := by
  have key : ∀ sort, IsTimeSort sort → ∀ (x : V) (c : M) (t0 : T) (ops : List (Op T V M K E)), (∀ op ∈ ops, op.IsBooked) →
      (∀ n, ((Ledger.mk t0 [] []).after (ops.take n)).Fits kind f0.params.historyWindow) →
      ∀ g, (f0.init x c t0).run P sort ops = some g →
      Booked G A F (f0.init x c t0).state P.emptyV R f0.params.historyWindow ((Ledger.mk t0 [] []).after ops) g := by
    intro sort hsort x c t0 ops hops hL g hg
    refine Booked.run hF sort hsort R hrc hkind ops hops ?_ hL hg
    exact ⟨⟨[], List.Perm.nil, init_holds f0 hr x c t0 hG⟩, rfl, rfl, rfl, rfl⟩
  intro sort sort' hsort hsort' x c t0 hQ ops ops' hops hL hL' hties hperm g g' hg hg'
  obtain ⟨is, hp, hh⟩ := (key sort hsort x c t0 ops (fun o ho => hops o (by simp [ho])) hL g hg).holds
  obtain ⟨is', hp', hh'⟩ := (key sort' hsort' x c t0 ops' (fun o ho => hops o (by simp [ho])) hL' g' hg').holds
  have hLf := hL ops.length
  rw [List.take_length] at hLf
  refine hh.same_despite_ties hk hc hQ hh' (hp.trans ((hperm.map _).trans hp'.symm)) ?_ ?_
  · refine hp.symm.pairwise (R := fun a b => a.timestamp = b.timestamp → a.isControl = false ∧ b.isControl = false) ?_ ?_
    · rw [List.pairwise_map]
      refine (List.pairwise_append.mp hties).1.imp ?_
      intro a b hab h
      rw [Given.input_time, Given.input_time] at h
      obtain ⟨h1, h2⟩ := hab h
      constructor
      · cases a <;> simp_all [Given.isReading, Given.input]
      · cases b <;> simp_all [Given.isReading, Given.input]
    · intro a b h1 h2
      exact (h1 h2.symm).symm
  · intro i hi
    obtain ⟨a, ha, rfl⟩ := List.mem_map.mp (hp.mem_iff.mp hi)
    rw [Given.input_time]
    have := (hLf a (List.mem_append_left _ ha)).2.1
    rw [after_start] at this
    exact this.le

end general

section numeric

variable {T K E : Type} [LinearOrder T] [ExactTime T] {n m : Nat} {kd : K → Nat}

/-- Well-formed readings (of the right size, with a positive definite covariance), predictions, and the one control `pc`
(or an empty one). -/
def SoundUnderControl (kd : K → Nat) (pc : DVec) : Given T DVec DMat K → Prop
  | .reading z R _ mdl => ∃ j, mdl = some j ∧ z.size = kd j ∧ R.Is (kd j) (kd j) ∧ R.PD
  | .advance _ => True
  | .control u _ => u.size = 0 ∨ u = pc

/-- The stored form of `SoundUnderControl`. -/
private def Sound (kd : K → Nat) (pc : DVec) (pcc : DMat) (i : FilterInput T DVec DMat K) : Prop :=
  (i.isControl = true → i.data.size = 0 ∨ i.data = pc ∧ i.covariance = pcc) ∧
  (i.isControl = false → ∃ j, i.model = some j ∧ i.data.size = kd j ∧ i.covariance.Is (kd j) (kd j) ∧ i.covariance.PD)

/-- two readings commute -/
private theorem post_comm (C : (j : K) → Matrix (Fin (kd j)) (Fin n) ℝ) (r s : Reading K kd) (x : Fin n → ℝ)
    (P : Matrix (Fin n) (Fin n) ℝ) (hP : P.PosSemidef) (hr : r.R.PosDef) (hs : s.R.PosDef) :
    postStateAll C x P [r, s] = postStateAll C x P [s, r] ∧ postAll C P [r, s] = postAll C P [s, r] := by
  have h1 : ∀ q ∈ [r, s], q.R.PosDef := by simp [hr, hs]
  have h2 : ∀ q ∈ [s, r], q.R.PosDef := by simp [hr, hs]
  have hp : [r, s].Perm [s, r] := List.Perm.swap _ _ _
  obtain ⟨W, w1, w2, w3⟩ := all_closed C [r, s] x P hP h1
  obtain ⟨W', v1, v2, v3⟩ := all_closed C [s, r] x P hP h2
  rw [(hp.map _).sum_eq] at w1 w3
  have hW : W = W' := by rw [← Matrix.inv_eq_left_inv w1, ← Matrix.inv_eq_left_inv v1]
  exact ⟨by rw [w3, v3, hW], by rw [w2, v2, hW]⟩

/-- The plant-independent part: corrections are textbook corrections at the initial models `e0`. -/
private theorem sound_ties {P : Plant T DVec DMat K E} {eqv : E → E → Prop} (hM : Memoryless P eqv) (hv : P.vsize = DVec.size)
    (hE : P.emptyV.size = 0) {Ge : E → Prop} {RR : DMat → Prop} {S : DVec → DMat → Prop} {Gd : Matrix (Fin n) (Fin n) ℝ → Prop}
    (hS : ∀ x c, S x c → ∃ (y : Fin n → ℝ) (Q : Matrix (Fin n) (Fin n) ℝ), x = .of y ∧ c = .of Q ∧ Gd Q)
    (hGd : ∀ Q, Gd Q → Q.PosSemidef)
    (hinv : PlantInv P True S Ge (fun u => u.size = m) RR
      (fun z c k => z.size = kd k ∧ c.Is (kd k) (kd k) ∧ c.PD))
    (f0 : Filter T DVec DMat K E) (hr : f0.params.rewindHistory = true) (hGe : Ge f0.env)
    (hpc : f0.prevControl.size > 0 → f0.prevControl.size = m ∧ f0.prevControlCov = P.rc f0.env)
    (C : (j : K) → Matrix (Fin (kd j)) (Fin n) ℝ) (b : (j : K) → Fin (kd j) → ℝ)
    (hmeas : ∀ (x : Fin n → ℝ) (Pm : Matrix (Fin n) (Fin n) ℝ) (j : K) (z : Fin (kd j) → ℝ)
      (R : Matrix (Fin (kd j)) (Fin (kd j)) ℝ) (t s dt : T), Gd Pm → R.PosDef →
      (Core.meas P ⟨.of x, .of Pm, t, f0.prevControl, f0.prevControlCov, f0.env⟩ ⟨.of z, .of R, s, false, some j⟩ dt).map
        (fun d => (d.x, d.cov)) = some (.of (postState x Pm (C j) R (z - b j)), .of (post Pm (C j) R)))
    (hpost : ∀ (Pm : Matrix (Fin n) (Fin n) ℝ) (j : K) (R : Matrix (Fin (kd j)) (Fin (kd j)) ℝ), Gd Pm → R.PosDef → Gd (post Pm (C j) R)) :
    TiesDoNotMatter P f0 S (SoundUnderControl kd f0.prevControl) := by
  have hpcc : P.vsize f0.prevControl > 0 → f0.prevControlCov = P.rc f0.env := fun h => (hpc (by rwa [hv] at h)).2
  have hpcR : P.vsize f0.prevControl > 0 → f0.prevControl.size = m ∧ RR f0.prevControlCov := fun h =>
    ⟨(hpc (by rwa [hv] at h)).1, by rw [hpcc h]; exact hinv.rc _ hGe⟩
  have hpure := hM.pure_fixed f0.env f0.prevControl f0.prevControlCov hpcc
  have hF : PureStep P (fun pc pcc e => pc = f0.prevControl ∧ pcc = f0.prevControlCov ∧ eqv f0.env e)
      (Sound kd f0.prevControl f0.prevControlCov)
      (fun x c t i => (Core.apply P ⟨x, c, t, f0.prevControl, f0.prevControlCov, f0.env⟩ i).map fun d => (d.x, d.cov)) :=
    fun c i hG hi => hpure c i hG (by rw [hv]; exact hi.1)
  refine tiesDoNotMatter hF (P.rc f0.env) (fun _ _ e he => (hM.rc _ _ he.2.2).symm) f0 hr ⟨rfl, rfl, hM.refl _⟩ _ ?_ ?_ ?_
  · intro a ha
    cases a with
    | control u t =>
      refine ⟨fun _ => ?_, fun h => by simp [Given.input] at h⟩
      rcases ha with ha | ha
      · exact Or.inl ha
      · by_cases h0 : u.size > 0
        · subst ha; exact Or.inr ⟨rfl, (hpc h0).2.symm⟩
        · exact Or.inl (by show u.size = 0; omega)
    | reading z R t mdl => exact ⟨fun h => by simp [Given.input] at h, fun _ => ha⟩
    | advance t => exact ⟨fun _ => Or.inl hE, fun h => by simp [Given.input] at h⟩
  · -- the estimate stays admissible
    intro x c t i r hx hi hFi
    have hin : InputOk P (fun u => u.size = m) RR (fun z c k => z.size = kd k ∧ c.Is (kd k) (kd k) ∧ c.PD) i := by
      unfold InputOk
      by_cases hc : i.isControl = true
      · rw [if_pos hc]
        intro h0
        rcases hi.1 hc with h1 | ⟨h1, h2⟩
        · rw [hv] at h0; omega
        · rw [h1, h2]; exact hpcR (by rw [← h1]; exact h0)
      · rw [if_neg hc]
        exact hi.2 (by simpa using hc)
    have := hinv.apply ⟨x, c, t, f0.prevControl, f0.prevControlCov, f0.env⟩ i ⟨hx, hGe, hpcR⟩ hin
    obtain ⟨d, hd, rfl⟩ := Option.map_eq_some_iff.mp hFi
    rw [hd] at this
    exact this.1
  · -- readings with the same time stamp commute
    intro x p t i j hx hi hj hci hcj htie hle
    obtain ⟨zi, Ri, τ, ci, mi⟩ := i
    obtain ⟨zj, Rj, τ', cj, mj⟩ := j
    dsimp only at hci hcj htie hle
    subst hci hcj htie
    obtain ⟨ki, hki, si, di, pi⟩ := hi.2 rfl
    obtain ⟨kj, hkj, sj, dj, pj⟩ := hj.2 rfl
    dsimp only at hki hkj si sj di dj pi pj
    subst hki hkj
    obtain ⟨zi, rfl⟩ := zi.exists_of si
    obtain ⟨zj, rfl⟩ := zj.exists_of sj
    obtain ⟨Ri, rfl⟩ := di.exists_of
    obtain ⟨Rj, rfl⟩ := dj.exists_of
    rw [DMat.PD_of] at pi pj
    -- at the time of the reading
    have now : ∀ (y : Fin n → ℝ) (Q : Matrix (Fin n) (Fin n) ℝ) (k : K) (z : Fin (kd k) → ℝ)
        (R : Matrix (Fin (kd k)) (Fin (kd k)) ℝ), Gd Q → R.PosDef →
        (Core.apply P ⟨.of y, .of Q, τ, f0.prevControl, f0.prevControlCov, f0.env⟩ ⟨.of z, .of R, τ, false, some k⟩).map
          (fun d => (d.x, d.cov)) = some (.of (postState y Q (C k) R (z - b k)), .of (post Q (C k) R)) := by
      intro y Q k z R hQ hR
      unfold Core.apply
      dsimp only
      rw [if_neg (by simp), if_neg (by rw [LawfulTime.lt_iff, LawfulTime.sub_pos_iff]; exact lt_irrefl _)]
      exact hmeas y Q k z R τ τ _ hQ hR
    -- from before: advance first
    obtain ⟨B, hB1, hB2⟩ : ∃ B : Option (Core T DVec DMat E),
        (∀ k (z : Fin (kd k) → ℝ) (R : Matrix (Fin (kd k)) (Fin (kd k)) ℝ),
          Core.apply P ⟨x, p, t, f0.prevControl, f0.prevControlCov, f0.env⟩ ⟨.of z, .of R, τ, false, some k⟩
            = B.bind fun d => Core.meas P d ⟨.of z, .of R, τ, false, some k⟩ (TimeOps.sub τ t)) ∧
        ∀ d, B = some d → S d.x d.cov ∧ d.pc = f0.prevControl ∧ d.pcc = f0.prevControlCov ∧ eqv f0.env d.env := by
      by_cases hlt : TimeOps.lt TimeOps.zero (TimeOps.sub τ t) = true
      · refine ⟨(Core.control P ⟨x, p, t, f0.prevControl, f0.prevControlCov, f0.env⟩
          ⟨f0.prevControl, f0.prevControlCov, τ, true, none⟩).map (·.tick (TimeOps.sub τ t)), ?_, ?_⟩
        · intro k z R
          unfold Core.apply
          dsimp only
          rw [if_neg (by simp), if_pos hlt]
          rfl
        · intro d' hd'
          obtain ⟨d, hd, rfl⟩ := Option.map_eq_some_iff.mp hd'
          have h1 := hinv.control ⟨x, p, t, f0.prevControl, f0.prevControlCov, f0.env⟩
            ⟨f0.prevControl, f0.prevControlCov, τ, true, none⟩ ⟨hx, hGe, hpcR⟩ hpcR
          rw [hd] at h1
          have h2 := hM.control f0.env x p t f0.prevControl f0.prevControl f0.prevControlCov f0.prevControlCov f0.env f0.env
            (hM.refl _) (hM.refl _) (⟨f0.prevControl, f0.prevControlCov, τ, true, none⟩ : FilterInput T DVec DMat K) (by
              by_cases h0 : P.vsize f0.prevControl > 0
              · exact Or.inl ⟨h0, hpcc h0⟩
              · exact Or.inr ⟨by show P.vsize f0.prevControl = 0; omega, rfl, rfl, hpcc⟩)
          rw [hd] at h2
          obtain ⟨_, _, _, _, q1, _, q2, _, q3, _⟩ := h2
          refine ⟨h1.1, ?_, ?_, q3⟩
          · rw [show (d.tick (TimeOps.sub τ t)).pc = d.pc from rfl, q1]; simp
          · rw [show (d.tick (TimeOps.sub τ t)).pcc = d.pcc from rfl, q2]; simp
      · refine ⟨some ⟨x, p, t, f0.prevControl, f0.prevControlCov, f0.env⟩, ?_, ?_⟩
        · intro k z R
          unfold Core.apply
          dsimp only
          rw [if_neg (by simp), if_neg hlt]
          rfl
        · intro d hd
          rw [Option.some.injEq] at hd
          subst hd
          exact ⟨hx, rfl, rfl, hM.refl _⟩
    dsimp only
    rw [hB1 ki zi Ri, hB1 kj zj Rj]
    cases B with
    | none => rfl
    | some d =>
      obtain ⟨e1, e4, e5, e6⟩ := hB2 d rfl
      obtain ⟨dx, dc, dt', dpc, dpcc, de⟩ := d
      dsimp only at e1 e4 e5 e6
      subst e4 e5
      obtain ⟨y, Q, rfl, rfl, e3⟩ := hS _ _ e1
      have first : ∀ (k : K) (z : Fin (kd k) → ℝ) (R : Matrix (Fin (kd k)) (Fin (kd k)) ℝ), R.PosDef →
          (Core.meas P ⟨.of y, .of Q, dt', f0.prevControl, f0.prevControlCov, de⟩ ⟨.of z, .of R, τ, false, some k⟩
            (TimeOps.sub τ t)).map (fun d => (d.x, d.cov))
            = some (.of (postState y Q (C k) R (z - b k)), .of (post Q (C k) R)) := by
        intro k z R hR
        have h1 := hM.meas_core f0.env (.of y) (.of Q) dt' f0.prevControl f0.prevControl f0.prevControlCov f0.prevControlCov de f0.env
          e6 (hM.refl _) (⟨.of z, .of R, τ, false, some k⟩ : FilterInput T DVec DMat K) (TimeOps.sub τ t)
        have h2 := hmeas y Q k z R dt' τ (TimeOps.sub τ t) e3 hR
        obtain ⟨d2, h3, h4⟩ := Option.map_eq_some_iff.mp h2
        rw [h3] at h1
        cases h5 : Core.meas P ⟨.of y, .of Q, dt', f0.prevControl, f0.prevControlCov, de⟩ ⟨.of z, .of R, τ, false, some k⟩
            (TimeOps.sub τ t) with
        | none => rw [h5] at h1; exact False.elim h1
        | some d1 =>
          rw [h5] at h1
          rw [Option.map_some, h1.1, h1.2.1, h4]
      rw [Option.bind_some, Option.bind_some, first ki zi Ri pi, first kj zj Rj pj, Option.bind_some, Option.bind_some]
      rw [now _ _ kj zj Rj (hpost _ _ _ e3 pi) pj, now _ _ ki zi Ri (hpost _ _ _ e3 pj) pi]
      obtain ⟨c1, c2⟩ := post_comm C ⟨ki, zi - b ki, Ri⟩ ⟨kj, zj - b kj, Rj⟩ y Q (hGd Q e3) pi pj
      simp only [postStateAll, postAll] at c1 c2
      rw [c1, c2]

private theorem psd_estimate (x : DVec) (c : DMat) (h : EstimatePSD n x c) :
    ∃ (y : Fin n → ℝ) (Q : Matrix (Fin n) (Fin n) ℝ), x = .of y ∧ c = .of Q ∧ Q.PosSemidef := by
  obtain ⟨⟨e1, e2⟩, e3⟩ := h
  obtain ⟨y, rfl⟩ := x.exists_of e1
  obtain ⟨Q, rfl⟩ := e2.exists_of
  exact ⟨y, Q, rfl, rfl, DMat.PSD_of.mp e3⟩

private theorem pd_estimate (x : DVec) (c : DMat) (h : EstimatePD n x c) :
    ∃ (y : Fin n → ℝ) (Q : Matrix (Fin n) (Fin n) ℝ), x = .of y ∧ c = .of Q ∧ Q.PosDef := by
  obtain ⟨⟨e1, e2⟩, e3⟩ := h
  obtain ⟨y, rfl⟩ := x.exists_of e1
  obtain ⟨Q, rfl⟩ := e2.exists_of
  exact ⟨y, Q, rfl, rfl, DMat.PD_of.mp e3⟩

end numeric

section filters

variable {T K X Y Gm Gs : Type} [LinearOrder T] [ExactTime T] [DecidableEq K] {n m : Nat} {kd : K → Nat}

/-- **C142 (Kalman filter).**  Sensors whose `C` does not depend on the state, no stationary mode of the sensors. -/
theorem C142_kf {sc : SysClass T LinSysData X} {mc : K → MeasClass T LinMeasData Y} (hsc : SysContract LinSysData.Sized sc)
    (hmc : ∀ j, MeasContract LinMeasData.Sized (mc j)) (hso : sc.PlainOps) (hmo : ∀ j, (mc j).PlainOps)
    (cfgS : Sys LinSysData X → Gs) (hss : sc.Stateless cfgS) (cfg : K → Meas LinMeasData Y → Gm)
    (hms : ∀ k, (mc k).Stateless (cfg k)) (C : (j : K) → Matrix (Fin (kd j)) (Fin n) ℝ)
    (hC : ∀ j s x dt s', s.Sized LinMeasData.Sized n (kd j) → (mc j).myUpdate s x dt = some s' → s'.der.C = .of (C j))
    (f0 : Filter T DVec DMat K (Env K LinSysData X LinMeasData Y)) (hr : f0.params.rewindHistory = true)
    (he : f0.env.Ok LinSysData.Sized LinMeasData.Sized NoisePSD (EstimatePSD n) n m kd)
    (hst : ∀ j, (f0.env.meas j).fm.checkStationary = false)
    (hpc : f0.prevControl.size > 0 → f0.prevControl.size = m ∧ f0.prevControlCov = f0.env.sys.Rc) :
    TiesDoNotMatter (kfPlant sc mc) f0 (EstimatePSD n) (SoundUnderControl kd f0.prevControl) := by
  refine sound_ties (kf_memoryless cfgS hss cfg hms) rfl rfl psd_estimate (fun _ h => h) (kf_inv_psd hsc hmc kd) f0 hr he hpc C (fun _ => 0) ?_
    (fun _ _ _ h hR => post_psd h _ hR)
  intro x P j z R t s dt hP hR
  have hsz : ((f0.env.meas j).withCov (.of R)).Sized LinMeasData.Sized n (kd j) :=
    ⟨(he.meas j).states, (he.meas j).meas, (he.meas j).der, rfl, rfl⟩
  obtain ⟨ms, hup, hms', hcfg⟩ := hsz.update (hmc j) (x := .of x) rfl dt
  have hup' := hup
  unfold Meas.update at hup'
  rw [if_pos (by rw [hsz.states])] at hup'
  have hCj := hC j _ _ _ _ hsz hup'
  have hcov : ms.cov = .of R := hcfg.cov
  have hset := mkPlant_setMeasCov (sc := sc) (mc := mc)
    (pr := fun e x cov u dt => kfPredict sc e.sys x cov u dt fun s => { e with sys := s })
    (co := fun e x cov z k dt => kfCorrect sc (mc k) e.sys (e.meas k) x cov z dt (e.setMeas k))
    f0.env j (.of R) (by rw [(he.meas j).meas]; exact ⟨rfl, rfl⟩)
  unfold Core.meas
  dsimp only
  rw [show (kfPlant sc mc).setMeasCov f0.env j (.of R) = some (f0.env.setMeas j ((f0.env.meas j).withCov (.of R))) from hset]
  dsimp only
  have hq : (((f0.env.setMeas j ((f0.env.meas j).withCov (.of R))).meas j).fm.checkStationary) = false := by
    rw [Env.setMeas_meas]; exact hst j
  have hcor : kfCorrect sc (mc j) f0.env.sys ((f0.env.setMeas j ((f0.env.meas j).withCov (.of R))).meas j) (.of x) (.of P) (.of z) dt
      ((f0.env.setMeas j ((f0.env.meas j).withCov (.of R))).setMeas j)
      = some (.of (postState x P (C j) R (z - 0)), .of (post P (C j) R), f0.env.setMeas j ms) := by
    rw [Env.setMeas_meas]
    unfold kfCorrect
    simp only [Option.bind_eq_bind, hup, Option.bind_some, hCj, hcov, kalmanGain_of _ _ _ (pd_isUnit_det (innov_pd hP (C j) hR)),
      DMat.mulVec_of, (hmo j).sub, hso.add, DVec.sub_of, DVec.add_of, shrinkCov_of, Env.setMeas_setMeas, sub_zero]
    rfl
  rw [if_pos (by
    show (!(((f0.env.setMeas j ((f0.env.meas j).withCov (.of R))).meas j).fm.checkStationary && _)) = true
    rw [hq]; rfl)]
  rw [show (kfPlant sc mc).myCorrect (f0.env.setMeas j ((f0.env.meas j).withCov (.of R))) (.of x) (.of P) (.of z) j dt
      = _ from hcor]
  rfl

/-- **C142 (EKF).**  Affine sensors, any motion model. -/
theorem C142_ekf {sc : SysClass T NonlinSysData X} {mc : K → MeasClass T NonlinMeasData Y} (hsc : SysContract NonlinSysData.Sized sc)
    (hmc : ∀ j, MeasContract NonlinMeasData.Sized (mc j)) (hso : sc.PlainOps) (hmo : ∀ j, (mc j).PlainOps)
    (cfgS : Sys NonlinSysData X → Gs) (hss : sc.Stateless cfgS) (cfg : K → Meas NonlinMeasData Y → Gm)
    (hms : ∀ k, (mc k).Stateless (cfg k)) (H : (j : K) → Matrix (Fin (kd j)) (Fin n) ℝ) (b : (j : K) → Fin (kd j) → ℝ)
    (hH : ∀ j s (q : Fin n → ℝ) dt s', s.Sized NonlinMeasData.Sized n (kd j) → (mc j).myUpdate s (.of q) dt = some s' →
      s'.der.h = .of (H j *ᵥ q + b j) ∧ s'.der.H = .of (H j))
    (f0 : Filter T DVec DMat K (Env K NonlinSysData X NonlinMeasData Y)) (hr : f0.params.rewindHistory = true)
    (he : f0.env.Ok NonlinSysData.Sized NonlinMeasData.Sized NoisePSD (EstimatePSD n) n m kd)
    (hst : ∀ j, (f0.env.meas j).fm.checkStationary = false)
    (hpc : f0.prevControl.size > 0 → f0.prevControl.size = m ∧ f0.prevControlCov = f0.env.sys.Rc) :
    TiesDoNotMatter (ekfPlant sc mc) f0 (EstimatePSD n) (SoundUnderControl kd f0.prevControl) := by
  refine sound_ties (ekf_memoryless cfgS hss cfg hms) rfl rfl psd_estimate (fun _ h => h) (ekf_inv_psd hsc hmc kd) f0 hr he hpc H b ?_
    (fun _ _ _ h hR => post_psd h _ hR)
  intro x P j z R t s dt hP hR
  have hsz : ((f0.env.meas j).withCov (.of R)).Sized NonlinMeasData.Sized n (kd j) :=
    ⟨(he.meas j).states, (he.meas j).meas, (he.meas j).der, rfl, rfl⟩
  obtain ⟨ms, hup, hms', hcfg⟩ := hsz.update (hmc j) (x := .of x) rfl dt
  have hup' := hup
  unfold Meas.update at hup'
  rw [if_pos (by rw [hsz.states])] at hup'
  obtain ⟨hh, hHj⟩ := hH j _ _ _ _ hsz hup'
  have hcov : ms.cov = .of R := hcfg.cov
  have hset := mkPlant_setMeasCov (sc := sc) (mc := mc)
    (pr := fun e x cov u dt => ekfPredict sc e.sys x cov u dt fun s => { e with sys := s })
    (co := fun e x cov z k dt => ekfCorrect sc (mc k) e.sys (e.meas k) x cov z dt (e.setMeas k))
    f0.env j (.of R) (by rw [(he.meas j).meas]; exact ⟨rfl, rfl⟩)
  unfold Core.meas
  dsimp only
  rw [show (ekfPlant sc mc).setMeasCov f0.env j (.of R) = some (f0.env.setMeas j ((f0.env.meas j).withCov (.of R))) from hset]
  dsimp only
  have hq : (((f0.env.setMeas j ((f0.env.meas j).withCov (.of R))).meas j).fm.checkStationary) = false := by
    rw [Env.setMeas_meas]; exact hst j
  have hcor : ekfCorrect sc (mc j) f0.env.sys ((f0.env.setMeas j ((f0.env.meas j).withCov (.of R))).meas j) (.of x) (.of P) (.of z) dt
      ((f0.env.setMeas j ((f0.env.meas j).withCov (.of R))).setMeas j)
      = some (.of (postState x P (H j) R (z - b j)), .of (post P (H j) R), f0.env.setMeas j ms) := by
    rw [Env.setMeas_meas]
    unfold ekfCorrect
    have ez : z - (H j *ᵥ x + b j) = z - b j - H j *ᵥ x := by abel
    simp only [Option.bind_eq_bind, hup, Option.bind_some, hh, hHj, hcov, kalmanGain_of _ _ _ (pd_isUnit_det (innov_pd hP (H j) hR)),
      DMat.mulVec_of, (hmo j).sub, hso.add, DVec.sub_of, DVec.add_of, shrinkCov_of, Env.setMeas_setMeas, ez]
    rfl
  rw [if_pos (by
    show (!(((f0.env.setMeas j ((f0.env.meas j).withCov (.of R))).meas j).fm.checkStationary && _)) = true
    rw [hq]; rfl)]
  rw [show (ekfPlant sc mc).myCorrect (f0.env.setMeas j ((f0.env.meas j).withCov (.of R))) (.of x) (.of P) (.of z) j dt
      = _ from hcor]
  rfl

/-- **C142 (UKF).**  Any system model whose noise reaches every state, affine sensors. -/
theorem C142_ukf {llt : DMat → Option DMat} (hllt : LltSpec llt) (junk : Nat → Nat → ℝ) {sc : SysClass T NonlinSysData X}
    {mc : K → MeasClass T NonlinMeasData Y} (hsc : SysContract NonlinSysData.Sized sc)
    (hmc : ∀ j, MeasContract NonlinMeasData.Sized (mc j)) (hso : sc.PlainOps) (hmo : ∀ j, (mc j).PlainOps) {p : Nat}
    (hsp : sc.SpreadsNoise NonlinSysData.Sized n m p)
    (cfgS : Sys NonlinSysData X → Gs) (hss : sc.Stateless cfgS) (cfg : K → Meas NonlinMeasData Y → Gm)
    (hms : ∀ k, (mc k).Stateless (cfg k)) (H : (j : K) → Matrix (Fin (kd j)) (Fin n) ℝ) (b : (j : K) → Fin (kd j) → ℝ)
    (hH : ∀ j s (q : Fin n → ℝ) dt s', s.Sized NonlinMeasData.Sized n (kd j) → (mc j).myUpdate s (.of q) dt = some s' →
      s'.der.h = .of (H j *ᵥ q + b j))
    (f0 : Filter T DVec DMat K (Env K NonlinSysData X NonlinMeasData Y × SigmaParams)) (hr : f0.params.rewindHistory = true)
    (he : f0.env.1.Ok NonlinSysData.Sized NonlinMeasData.Sized (NoisePD p) (EstimatePD n) n m kd) (hsg : SigmaAdmissible n f0.env.2)
    (hst : ∀ j, (f0.env.1.meas j).fm.checkStationary = false)
    (hpc : f0.prevControl.size > 0 → f0.prevControl.size = m ∧ f0.prevControlCov = f0.env.1.sys.Rc) :
    TiesDoNotMatter (ukfPlant llt junk sc mc) f0 (EstimatePD n) (SoundUnderControl kd f0.prevControl) := by
  refine sound_ties (ukf_memoryless llt junk cfgS hss cfg hms) rfl rfl pd_estimate (fun _ h => h.posSemidef)
    (ukf_inv_pd hllt junk hsc hso hsp hmc hmo kd) f0 hr ⟨he, hsg⟩ hpc H b ?_ (fun _ _ _ h hR => post_pd h _ hR)
  intro x P j z R t s dt hP hR
  generalize f0.env = e0 at *
  obtain ⟨e, sp⟩ := e0
  dsimp only at he hsg hst hpc
  have hsz : ((e.meas j).withCov (.of R)).Sized NonlinMeasData.Sized n (kd j) :=
    ⟨(he.meas j).states, (he.meas j).meas, (he.meas j).der, rfl, rfl⟩
  have hset := mkPlant_setMeasCov (sc := sc) (mc := mc)
    (pr := fun e x cov u dt => ukfPredict llt junk sc sp e.sys x cov u dt fun s => { e with sys := s })
    (co := fun e x cov z k dt => ukfCorrect llt junk sc (mc k) sp e.sys (e.meas k) x cov z dt (e.setMeas k))
    e j (.of R) (by rw [(he.meas j).meas]; exact ⟨rfl, rfl⟩)
  unfold Core.meas
  dsimp only
  rw [show (ukfPlant llt junk sc mc).setMeasCov (e, sp) j (.of R) = some (e.setMeas j ((e.meas j).withCov (.of R)), sp) from by
    show Option.map _ _ = _
    rw [hset]; rfl]
  dsimp only
  have hq : (((e.setMeas j ((e.meas j).withCov (.of R))).meas j).fm.checkStationary) = false := by
    rw [Env.setMeas_meas]; exact hst j
  obtain ⟨m', hcor, -, -⟩ := ukfCorrect_affine' hso (hmc j) (hmo j) hllt junk hsg he.sys hsz hR rfl x z hP dt
    (C := H j) (b := b j) (by
      rintro q t ⟨s0, h1, h2, h3⟩
      exact hH j _ _ _ _ h1 h3)
    ((e.setMeas j ((e.meas j).withCov (.of R))).setMeas j)
  rw [if_pos (by
    show (!(((e.setMeas j ((e.meas j).withCov (.of R))).meas j).fm.checkStationary && _)) = true
    rw [hq]; rfl)]
  rw [show (ukfPlant llt junk sc mc).myCorrect (e.setMeas j ((e.meas j).withCov (.of R)), sp) (.of x) (.of P) (.of z) j dt
      = some (.of (x + gain P (H j) R *ᵥ (z - (H j *ᵥ x + b j))), .of (post P (H j) R),
          (e.setMeas j ((e.meas j).withCov (.of R))).setMeas j m', sp) from by
    show Option.map _ (ukfCorrect _ _ _ _ _ _ ((e.setMeas j ((e.meas j).withCov (.of R))).meas j) _ _ _ _ _) = _
    rw [Env.setMeas_meas]
    show Option.map _ (ukfCorrect llt junk sc (mc j) sp e.sys _ _ _ _ _ _) = _
    rw [hcor]; rfl]
  rw [show postState x P (H j) R (z - b j) = x + gain P (H j) R *ᵥ (z - (H j *ᵥ x + b j)) from by
    unfold postState
    rw [show z - b j - H j *ᵥ x = z - (H j *ᵥ x + b j) from by abel]]
  rfl

end filters

/-! ## A concrete case

A system whose states all move at the speed of the one control, seen through its first state; readings 3 and 5 at time 1 through the
queue, against the same readings the other way round by direct calls after a reading of time 2. -/

section concrete

open Examples

/-- rectangular identity -/
private noncomputable def eye (r c : Nat) : DMat := .of (fun (i : Fin r) (j : Fin c) => if i.val = j.val then 1 else 0)

/-- `x' = x + dt u` -/
noncomputable def driftClass : SysClass ℝ LinSysData Unit :=
  SysClass.plain fun s _ _ dt => some { s with
    der := ⟨eye s.stateSize s.stateSize, .of (fun (_ : Fin s.stateSize) (_ : Fin s.controlDims) => dt)⟩
    P := eye s.stateSize s.Rp.rows
    V := .of (fun (_ : Fin s.stateSize) (_ : Fin s.controlDims) => dt) }

/-- the first states are read -/
noncomputable def firstClass : MeasClass ℝ LinMeasData Unit :=
  MeasClass.plain fun s _ _ => some { s with der := ⟨eye s.measDims s.stateSize⟩ }

theorem drift_contract : SysContract LinSysData.Sized driftClass := by
  apply plain_contract
  intro n m s x u dt hs hx hu
  refine ⟨_, rfl, ⟨hs.states, hs.controls, ⟨⟨hs.states, hs.states⟩, hs.states, hs.controls⟩, ⟨hs.states, rfl⟩, hs.Rp, ⟨hs.states, hs.controls⟩, hs.Rc⟩,
    ⟨rfl, rfl, rfl, rfl, rfl⟩⟩

theorem first_contract : MeasContract LinMeasData.Sized firstClass := by
  apply plain_mcontract
  intro n k s x dt hs hx
  exact ⟨_, rfl, ⟨hs.states, hs.meas, ⟨hs.meas, hs.states⟩, hs.cov⟩, ⟨rfl, rfl, rfl, rfl⟩⟩

theorem drift_stateless : driftClass.Stateless sysConfig where
  seen := by
    intro m m' h
    simp only [sysConfig, Prod.mk.injEq] at h
    exact ⟨h.1, h.2.1, h.2.2.2.2.2.1, h.2.2.2.2.1, h.2.2.1⟩
  update := by
    intro s s' x u dt h
    have h' := h
    simp only [sysConfig, Prod.mk.injEq] at h'
    have e1 : s.stateSize = s'.stateSize := congrArg FilterModel.stateDims h'.1
    have e2 := h'.2.1
    have e3 := h'.2.2.2.2.1
    simp only [driftClass, SysClass.plain]
    refine ⟨?_, ?_, ?_, rfl, h.symm⟩
    · rw [e1, e2]
    · rw [e1, e3]
    · rw [e1, e2]
  add := fun _ _ _ => rfl
  sub := fun _ _ _ => rfl
  wsum := fun _ _ _ => rfl
  stationary := fun m m' x z h => ⟨rfl, h.symm⟩

theorem first_stateless : firstClass.Stateless measConfig where
  seen := by
    intro m m' h
    simp only [measConfig, Prod.mk.injEq] at h
    exact ⟨h.1, h.2.1, h.2.2.1⟩
  setCov := fun m R => rfl
  update := by
    intro s s' x dt h hc
    have h' := h
    simp only [measConfig, Prod.mk.injEq] at h'
    have e1 : s.stateSize = s'.stateSize := congrArg FilterModel.stateDims h'.1
    have e2 := h'.2.1
    simp only [firstClass, MeasClass.plain]
    refine ⟨?_, trivial, hc.symm, rfl, h.symm⟩
    rw [e1, e2]
  sub := fun _ _ _ => rfl
  wsum := fun _ _ _ => rfl
  stationary := fun m m' x z h => ⟨rfl, h.symm⟩

/-- a rewinding filter with a window of 10 -/
noncomputable def driftFilter : Filter ℝ DVec DMat Unit (Env Unit LinSysData Unit LinMeasData Unit) :=
  Filter.construct (kfPlant driftClass fun _ => firstClass) { rewindHistory := true, historyWindow := 10, allowPast := true } cvEnv
    (.of ![0, 0]) (.identity 2) 0

/-- The reading `z` with variance 1. -/
private noncomputable def rd (z : ℝ) : DVec := .of ![z]

private noncomputable def queued : List (Op ℝ DVec DMat Unit (Env Unit LinSysData Unit LinMeasData Unit)) :=
  [.enqueueMeasurement (rd 3) (.identity 1) 1 (some ()), .enqueueMeasurement (rd 8) (.identity 1) 2 (some ()),
    .enqueueMeasurement (rd 5) (.identity 1) 1 (some ()), .processQueues]

private noncomputable def direct : List (Op ℝ DVec DMat Unit (Env Unit LinSysData Unit LinMeasData Unit)) :=
  [.correct (rd 8) (.identity 1) 2 (some ()), .correct (rd 5) (.identity 1) 1 (some ()), .correct (rd 3) (.identity 1) 1 (some ())]

/-- The hypotheses are met and both sequences run, whatever the sorting routines do with the two readings of time 1. -/
example (sort sort') (hs : IsTimeSort sort) (hs' : IsTimeSort sort') : ∃ g g',
    (driftFilter.init (.of ![0, 0]) (.identity 2) 0).run (kfPlant driftClass fun _ => firstClass) sort queued = some g ∧
    (driftFilter.init (.of ![0, 0]) (.identity 2) 0).run (kfPlant driftClass fun _ => firstClass) sort' direct = some g' ∧
    g.getState = g'.getState ∧ g.getCovariance = g'.getCovariance ∧ g.getStateTime = g'.getStateTime := by
  have hx : EstimatePSD 2 (.of ![0, 0]) (.identity 2) := ⟨⟨rfl, rfl, rfl⟩, identity_psd 2⟩
  have hrd : ∀ z : ℝ, ∃ j : Unit, some () = some j ∧ (rd z).size = 1 ∧ (DMat.identity 1).Is 1 1 ∧ (DMat.identity 1).PD :=
    fun z => ⟨(), rfl, rfl, ⟨rfl, rfl⟩, identity_pd 1⟩
  have ok := cvEnv_ok (Q := EstimatePSD 2)
  obtain ⟨g, hg, -⟩ := OptP.exists_of_total (mkPlant_run (kf_inv_psd drift_contract (fun _ : Unit => first_contract) (fun _ => 1)) sort
    (fun l => (hs l).1) { rewindHistory := true, historyWindow := 10, allowPast := true } cvEnv ok (.of ![0, 0]) (.identity 2) 0 hx
    (.init (.of ![0, 0]) (.identity 2) 0 :: queued) (by
      intro op hop
      simp only [queued, List.mem_cons, List.not_mem_nil, or_false] at hop
      rcases hop with rfl | rfl | rfl | rfl | rfl
      · exact hx
      · exact hrd 3
      · exact hrd 8
      · exact hrd 5
      · trivial))
  obtain ⟨g', hg', -⟩ := OptP.exists_of_total (mkPlant_run (kf_inv_psd drift_contract (fun _ : Unit => first_contract) (fun _ => 1)) sort'
    (fun l => (hs' l).1) { rewindHistory := true, historyWindow := 10, allowPast := true } cvEnv ok (.of ![0, 0]) (.identity 2) 0 hx
    (.init (.of ![0, 0]) (.identity 2) 0 :: direct) (by
      intro op hop
      simp only [direct, List.mem_cons, List.not_mem_nil, or_false] at hop
      rcases hop with rfl | rfl | rfl | rfl
      · exact hx
      · exact hrd 8
      · exact hrd 5
      · exact hrd 3))
  refine ⟨g, g', hg, hg', ?_⟩
  have hk : ∀ (z t : ℝ), SoundUnderControl (fun _ : Unit => 1) driftFilter.prevControl (.reading (rd z) (.identity 1) t (some ())) :=
    fun z t => hrd z
  have hW : driftFilter.params.historyWindow = 10 := rfl
  have hsub : ∀ a b : ℝ, TimeOps.sub a b = a - b := fun _ _ => rfl
  refine C142_kf (kd := fun _ : Unit => 1) drift_contract (fun _ => first_contract) (plain_ops _) (fun _ => plain_mops _) sysConfig drift_stateless
    (fun _ => measConfig) (fun _ => first_stateless) (fun _ => !![1, 0]) ?_ driftFilter rfl ok (fun _ => rfl) (fun h => absurd h (by exact Nat.lt_irrefl 0))
    sort sort' hs hs' (.of ![0, 0]) (.identity 2) 0 hx queued direct ?_ ?_ ?_ ?_ ?_ g g' hg hg'
  · intro j s x dt s' h1 h2
    have h2' : some _ = some s' := h2
    rw [Option.some.injEq] at h2'
    subst h2'
    show eye s.measDims s.stateSize = _
    rw [h1.meas, h1.states]
    unfold eye
    congr 1
    ext i j
    fin_cases i; fin_cases j <;> simp
  · intro op hop
    simp only [queued, direct, List.mem_append, List.mem_cons, List.not_mem_nil, or_false] at hop
    rcases hop with (rfl | rfl | rfl | rfl) | rfl | rfl | rfl <;> trivial
  · intro n
    rcases n with _ | _ | _ | _ | n <;>
    simp [queued, Ledger.after, Ledger.note, Given.time, Ledger.Fits, hk, hW, hsub] <;> norm_num
  · intro n
    rcases n with _ | _ | _ | n <;>
    simp [direct, Ledger.after, Ledger.note, Given.time, Ledger.Fits, hk, hW, hsub] <;> norm_num
  · simp [queued, Ledger.after, Ledger.note, Given.time, Ledger.OnlyReadingsTie, Given.isReading]
  · show List.Perm [_, _, _] [_, _, _]
    exact (List.Perm.swap _ _ _).trans ((List.Perm.cons _ (List.Perm.swap _ _ _)))

/-! For the EKF: a nonlinear system and a sensor that reads the first state plus 3. -/

/-- every state moves to `x₀ + dt x₀²` (plus noise) -/
noncomputable def surgeClass : SysClass ℝ NonlinSysData Unit :=
  SysClass.plain fun s x _ dt => some { s with
    der := ⟨.of (fun _ : Fin s.stateSize => head x + dt * head x ^ 2),
      .of (fun (_ j : Fin s.stateSize) => if j.val = 0 then 1 + 2 * dt * head x else 0)⟩
    P := eye s.stateSize s.Rp.rows
    V := .of (fun (_ : Fin s.stateSize) (_ : Fin s.controlDims) => dt) }

/-- every component reads the first state plus 3 -/
noncomputable def plusClass : MeasClass ℝ NonlinMeasData Unit :=
  MeasClass.plain fun s x _ => some { s with
    der := ⟨.of (fun _ : Fin s.measDims => head x + 3),
      .of (fun (_ : Fin s.measDims) (j : Fin s.stateSize) => if j.val = 0 then 1 else 0)⟩ }

theorem surge_contract : SysContract NonlinSysData.Sized surgeClass := by
  apply plain_contract
  intro n m s x u dt hs hx hu
  exact ⟨_, rfl, ⟨hs.states, hs.controls, ⟨hs.states, hs.states, hs.states⟩, ⟨hs.states, rfl⟩, hs.Rp, ⟨hs.states, hs.controls⟩, hs.Rc⟩,
    ⟨rfl, rfl, rfl, rfl, rfl⟩⟩

theorem plus_contract : MeasContract NonlinMeasData.Sized plusClass := by
  apply plain_mcontract
  intro n k s x dt hs hx
  exact ⟨_, rfl, ⟨hs.states, hs.meas, ⟨hs.meas, hs.meas, hs.states⟩, hs.cov⟩, ⟨rfl, rfl, rfl, rfl⟩⟩

theorem surge_stateless : surgeClass.Stateless sysConfig where
  seen := by
    intro m m' h
    simp only [sysConfig, Prod.mk.injEq] at h
    exact ⟨h.1, h.2.1, h.2.2.2.2.2.1, h.2.2.2.2.1, h.2.2.1⟩
  update := by
    intro s s' x u dt h
    have h' := h
    simp only [sysConfig, Prod.mk.injEq] at h'
    have e1 : s.stateSize = s'.stateSize := congrArg FilterModel.stateDims h'.1
    have e2 := h'.2.1
    have e3 := h'.2.2.2.2.1
    simp only [surgeClass, SysClass.plain]
    refine ⟨?_, ?_, ?_, rfl, h.symm⟩
    · rw [e1]
    · rw [e1, e3]
    · rw [e1, e2]
  add := fun _ _ _ => rfl
  sub := fun _ _ _ => rfl
  wsum := fun _ _ _ => rfl
  stationary := fun m m' x z h => ⟨rfl, h.symm⟩

theorem plus_stateless : plusClass.Stateless measConfig where
  seen := by
    intro m m' h
    simp only [measConfig, Prod.mk.injEq] at h
    exact ⟨h.1, h.2.1, h.2.2.1⟩
  setCov := fun m R => rfl
  update := by
    intro s s' x dt h hc
    have h' := h
    simp only [measConfig, Prod.mk.injEq] at h'
    have e1 : s.stateSize = s'.stateSize := congrArg FilterModel.stateDims h'.1
    have e2 := h'.2.1
    simp only [plusClass, MeasClass.plain]
    refine ⟨?_, trivial, hc.symm, rfl, h.symm⟩
    rw [e1, e2]
  sub := fun _ _ _ => rfl
  wsum := fun _ _ _ => rfl
  stationary := fun m m' x z h => ⟨rfl, h.symm⟩

/-- The hypotheses of `C142_ekf` on the models are met by a nonlinear system. -/
example (w : ℝ) : TiesDoNotMatter (ekfPlant surgeClass fun _ : Unit => plusClass)
    (Filter.construct (ekfPlant surgeClass fun _ : Unit => plusClass) { rewindHistory := true, historyWindow := w, allowPast := true } quadEnv
      (vec1 1) (mat1 1) 0) (EstimatePSD 1) (SoundUnderControl (fun _ : Unit => 1) DVec.empty) :=
  C142_ekf (m := 1) (kd := fun _ : Unit => 1) surge_contract (fun _ => plus_contract) (plain_ops _) (fun _ => plain_mops _) sysConfig surge_stateless
    (fun _ => measConfig) (fun _ => plus_stateless) (fun _ => !![1]) (fun _ => ![3])
    (by
      intro j s q dt s' h1 h2
      have h2' : some _ = some s' := h2
      rw [Option.some.injEq] at h2'
      subst h2'
      constructor
      · show DVec.of (fun _ : Fin s.measDims => _) = _
        rw [h1.meas, head_of]
        congr 1
        ext i
        fin_cases i
        simp [Matrix.mulVec, dotProduct]
      · show DMat.of (fun (_ : Fin s.measDims) (j : Fin s.stateSize) => _) = _
        rw [h1.meas, h1.states]
        congr 1
        ext i j
        fin_cases i; fin_cases j; simp)
    _ rfl { quadEnv_ok with noise := ⟨⟨rfl, PosSemidef.one⟩, ⟨rfl, PosSemidef.zero⟩⟩ } (fun _ => rfl)
    (fun h => absurd h (by exact Nat.lt_irrefl 0))

theorem surge_spreads : surgeClass.SpreadsNoise NonlinSysData.Sized 1 1 1 := by
  intro s x u dt s' W hs hp hx hu hup hW v hv
  have hup' : some _ = some s' := hup
  rw [Option.some.injEq] at hup'
  subst hup'
  have h0 : s.Rp.rows = 1 := hp.1
  have h1 : eye s.stateSize s.Rp.rows = .of W := hW
  rw [hs.states, h0] at h1
  have hW' : _ = W := DMat.of_inj.mp h1
  rw [← hW'] at hv
  funext i
  have := congrFun hv 0
  fin_cases i
  simpa [Matrix.vecMul, dotProduct] using this

/-- The hypotheses of `C142_ukf` are met by the same models. -/
example (w : ℝ) (junk : Nat → Nat → ℝ) (sp : SigmaParams) (hsp : SigmaAdmissible 1 sp) :
    TiesDoNotMatter (ukfPlant someLlt junk surgeClass fun _ : Unit => plusClass)
      (Filter.construct (ukfPlant someLlt junk surgeClass fun _ : Unit => plusClass)
        { rewindHistory := true, historyWindow := w, allowPast := true } (quadEnv, sp) (vec1 1) (mat1 1) 0)
      (EstimatePD 1) (SoundUnderControl (fun _ : Unit => 1) DVec.empty) :=
  C142_ukf (m := 1) (kd := fun _ : Unit => 1) someLlt_spec junk surge_contract (fun _ => plus_contract) (plain_ops _) (fun _ => plain_mops _)
    surge_spreads sysConfig surge_stateless (fun _ => measConfig) (fun _ => plus_stateless) (fun _ => !![1]) (fun _ => ![3])
    (by
      intro j s q dt s' h1 h2
      have h2' : some _ = some s' := h2
      rw [Option.some.injEq] at h2'
      subst h2'
      show DVec.of (fun _ : Fin s.measDims => _) = _
      rw [h1.meas, head_of]
      congr 1
      ext i
      fin_cases i
      simp [Matrix.mulVec, dotProduct])
    _ rfl quadEnv_ok hsp (fun _ => rfl) (fun h => absurd h (by exact Nat.lt_irrefl 0))

end concrete
end Props
end StateEstimation
