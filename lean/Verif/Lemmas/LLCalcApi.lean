import Verif.Lemmas.LLCalc
import Verif.Lemmas.LLApi
import Verif.Spec.FlightCond

/-! Helper lemmas: results of a solve as functions of the arguments. -/

namespace Verif
open V3 Topology

section
variable {ι : Type*} [Fintype ι] [DecidableEq ι]

/-- flow arrays of a plain flight condition with freestream `w` -/
noncomputable def flowAt (G : LLGeom ι) (d : AeroDict ι) (w : V3) : Flow ι :=
  ⟨fun i => w - cross ⟨d.roll.getD 0, d.pitch.getD 0, d.yaw.getD 0⟩ ((G.S i).rcp - G.cg), unit w, fun _ => d.rho.getD 0⟩

/-- control arrays a solve uses -/
noncomputable def ctrlAt (G : LLGeom ι) (st : LLState ι) (c : Option CtrlDict) : Ctrl ι := (processCtrl G st c).ctrl

/-- argument of the square root in the freestream direction -/
noncomputable def fsArg (a b : ℝ) : ℝ :=
  1 - Real.sin (rad a) * Real.sin (rad a) * Real.sin (rad b) * Real.sin (rad b)

/-- the freestream vector -/
noncomputable def fsVec (V a b : ℝ) : V3 :=
  ⟨V / Real.sqrt (fsArg a b) * (-Real.cos (rad a) * Real.cos (rad b)), V / Real.sqrt (fsArg a b) * (-Real.cos (rad a) * Real.sin (rad b)),
   V / Real.sqrt (fsArg a b) * (-Real.sin (rad a) * Real.cos (rad b))⟩

/-- the freestream of a dictionary -/
noncomputable def AeroDict.fs (d : AeroDict ι) : V3 := fsVec (d.Vmag.getD 0) (d.alpha.getD 0) (d.beta.getD 0)

theorem rotArr_plain (G : LLGeom ι) (d : AeroDict ι) (w : V3) :
    rotArr G d (some fun _ => w) = some fun i => w - cross ⟨d.roll.getD 0, d.pitch.getD 0, d.yaw.getD 0⟩ ((G.S i).rcp - G.cg) := by
  unfold rotArr
  by_cases h : d.hasRates = true
  · rw [if_pos h]; rfl
  · rw [if_neg h]
    have : d.roll = none ∧ d.pitch = none ∧ d.yaw = none := by
      simp only [AeroDict.hasRates, Bool.or_eq_true, not_or, Option.isSome_iff_ne_none, ne_eq, not_not] at h
      exact ⟨h.1.1, h.1.2, h.2⟩
    simp only [this.1, this.2.1, this.2.2, Option.getD_none, Option.some.injEq]
    funext i
    ext <;> simp

/-- a solve for a plain flight condition, in terms of the arrays -/
theorem llSolve_plain (G : LLGeom ι) (st : LLState ι) (d : AeroDict ι) (c : Option CtrlDict) {V rho : ℝ} (hl : d.localState = none)
    (hV : d.Vmag = some V) (hr : d.rho = some rho) :
    (llSolve G st "linear" (some d) c).1 =
      (if Real.sqrt (fsArg (d.alpha.getD 0) (d.beta.getD 0)) = 0 ∨ nrm d.fs = 0 then .error .nonfinite
       else match solveLinear G.cg G.S (flowAt G d d.fs) (ctrlAt G st c) with
        | .ok R => .ok R
        | .error e => .error e.toPy) := by
  rw [llSolve_linear]
  have ht : d.truthy = true := by simp [AeroDict.truthy, hV]
  have h := processAero_explicit G st d ht
  have ha : arrOf G d = .ok ⟨rotArr G d ((freestream V (d.alpha.getD 0) (d.beta.getD 0)).map fun w _ => w),
        (freestream V (d.alpha.getD 0) (d.beta.getD 0)).bind normalise, fun _ => rho⟩ := by
    unfold arrOf; rw [hl, hV, hr]
  rw [ha] at h
  obtain ⟨rt, h⟩ := h
  rw [h]
  simp only
  have hfs : freestream V (d.alpha.getD 0) (d.beta.getD 0) =
      if Real.sqrt (fsArg (d.alpha.getD 0) (d.beta.getD 0)) = 0 then none else some d.fs := by
    unfold freestream AeroDict.fs fsVec fsArg
    simp only [hV, Option.getD_some]
  have hct : ∀ v u rho rt, (processCtrl G { st with v := v, u := u, rho := rho, rates := rt } c).ctrl = ctrlAt G st c := by
    intro v u rho rt
    unfold ctrlAt processCtrl
    cases c with
    | none => rfl
    | some c => simp only; split_ifs <;> rfl
  have hpc : ∀ v u rho rt, runLinear G (processCtrl G { st with v := v, u := u, rho := rho, rates := rt } c) =
      kern G ⟨v, u, rho⟩ (ctrlAt G st c) := by
    intro v u rho rt
    rw [runLinear_eq, hct]
    have : (processCtrl G { st with v := v, u := u, rho := rho, rates := rt } c).v = v ∧
        (processCtrl G { st with v := v, u := u, rho := rho, rates := rt } c).u = u ∧
        (processCtrl G { st with v := v, u := u, rho := rho, rates := rt } c).rho = rho := by
      unfold processCtrl
      cases c with
      | none => exact ⟨rfl, rfl, rfl⟩
      | some c => simp only; split_ifs <;> exact ⟨rfl, rfl, rfl⟩
    rw [this.1, this.2.1, this.2.2]
  rw [hpc, hfs]
  by_cases h1 : Real.sqrt (fsArg (d.alpha.getD 0) (d.beta.getD 0)) = 0
  · rw [if_pos h1, if_pos (.inl h1)]
    unfold kern
    simp only [Option.bind_none]
    split <;> simp_all
  · rw [if_neg h1]
    simp only [Option.map_some, Option.bind_some, rotArr_plain]
    unfold normalise
    by_cases h2 : nrm d.fs = 0
    · rw [if_pos h2, if_pos (.inr h2)]
      unfold kern
      rfl
    · rw [if_neg h2, if_neg (by simp [h1, h2])]
      unfold kern flowAt
      simp only [hr, Option.getD_some]
      rfl

end

section
variable {ι : Type*} [Fintype ι] [DecidableEq ι] {E : Type*} [TopologicalSpace E] {e : E} (K : Calc E e)

theorem Calc.radOk {f : E → ℝ} (h : K.ok f) : K.ok fun x => rad (f x) :=
  K.div (K.mul h (K.const _)) (K.const _) (by norm_num)

theorem Calc.fsArgOk {a b : E → ℝ} (ha : K.ok a) (hb : K.ok b) : K.ok fun x => fsArg (a x) (b x) := by
  have sa := K.sin (K.radOk ha)
  have sb := K.sin (K.radOk hb)
  exact K.sub (K.const _) (K.mul (K.mul (K.mul sa sa) sb) sb)

theorem Calc.fsVecOk {V a b : E → ℝ} (hV : K.ok V) (ha : K.ok a) (hb : K.ok b) (h0 : Real.sqrt (fsArg (a e) (b e)) ≠ 0) :
    K.okV fun x => fsVec (V x) (a x) (b x) := by
  have hs : K.ok fun x => Real.sqrt (fsArg (a x) (b x)) :=
    K.sqrt (K.fsArgOk ha hb) fun hc => h0 (by rw [hc, Real.sqrt_zero])
  have hq := K.div hV hs h0
  have ca := K.cos (K.radOk ha)
  have cb := K.cos (K.radOk hb)
  have sa := K.sin (K.radOk ha)
  have sb := K.sin (K.radOk hb)
  exact ⟨K.mul hq (K.mul (K.neg ca) cb), K.mul hq (K.mul (K.neg ca) sb), K.mul hq (K.mul (K.neg sa) cb)⟩

/-- the entries of a dictionary that depends on a parameter -/
structure Calc.DictOk (d : E → AeroDict ι) : Prop where
  shape : ∀ x, (d x).localState = none ∧ (∃ V, (d x).Vmag = some V) ∧ ∃ r, (d x).rho = some r
  V : K.ok fun x => (d x).Vmag.getD 0
  rho : K.ok fun x => (d x).rho.getD 0
  alpha : K.ok fun x => (d x).alpha.getD 0
  beta : K.ok fun x => (d x).beta.getD 0
  roll : K.ok fun x => (d x).roll.getD 0
  pitch : K.ok fun x => (d x).pitch.getD 0
  yaw : K.ok fun x => (d x).yaw.getD 0

theorem Calc.llSolveOk (G : LLGeom ι) (st : LLState ι) {d : E → AeroDict ι} (hd : K.DictOk d) {c : E → Option CtrlDict}
    (hc : ∀ i, K.ok (fun x => (ctrlAt G st (c x)).delta i) ∧ K.ok (fun x => |(ctrlAt G st (c x)).delta i|) ∧
      K.ok (fun x => (ctrlAt G st (c x)).eff i))
    (hedge : Real.sqrt (fsArg ((d e).alpha.getD 0) ((d e).beta.getD 0)) ≠ 0 → ∀ i, K.ok fun x => nrm (cross ((flowAt G (d x) (d x).fs).v i) (dl (G.S i))))
    {R : Sol ι} (hR : (llSolve G st "linear" (some (d e)) (c e)).1 = .ok R) (hst : NotFromBehind G.S R) :
    ∃ Q : E → Sol ι, (∀ᶠ x in 𝓝 e, (llSolve G st "linear" (some (d x)) (c x)).1 = .ok (Q x)) ∧ Q e = R ∧ K.SolOk Q := by
  have key := fun x => llSolve_plain G st (d x) (c x) (hd.shape x).1 (hd.shape x).2.1.choose_spec (hd.shape x).2.2.choose_spec
  rw [key e] at hR
  split_ifs at hR with h0
  rw [not_or] at h0
  have hw : K.okV fun x => (d x).fs := K.fsVecOk hd.V hd.alpha hd.beta h0.1
  have hF : K.FlowOk G.S (fun x => flowAt G (d x) (d x).fs) (fun x => ctrlAt G st (c x)) :=
    { v := fun i => K.subV hw (K.crossV ⟨hd.roll, hd.pitch, hd.yaw⟩ (K.constV _))
      u := K.unitV hw h0.2
      rho := fun _ => hd.rho
      delta := fun i => (hc i).1
      abs := fun i => (hc i).2.1
      eff := fun i => (hc i).2.2
      edge := hedge h0.1 }
  cases hs : solveLinear G.cg G.S (flowAt G (d e) (d e).fs) (ctrlAt G st (c e)) with
  | error er => rw [hs] at hR; simp at hR
  | ok R' =>
    rw [hs] at hR
    have hRR : R' = R := Except.ok.inj hR
    subst hRR
    obtain ⟨k1, k2, k3⟩ := K.solveOk G.cg hF hs ⟨hst⟩
    refine ⟨_, ?_, k2, k3⟩
    have e1 : ∀ᶠ x in 𝓝 e, Real.sqrt (fsArg ((d x).alpha.getD 0) ((d x).beta.getD 0)) ≠ 0 :=
      K.eventually_ne (K.sqrt (K.fsArgOk hd.alpha hd.beta) fun hc => h0.1 (by rw [hc, Real.sqrt_zero])) h0.1
    have e2 : ∀ᶠ x in 𝓝 e, nrm (d x).fs ≠ 0 := K.eventually_ne (K.nrmV hw h0.2) h0.2
    filter_upwards [k1, e1, e2] with x q1 q2 q3
    rw [key x, if_neg (by simp [q2, q3]), q1]

end

end Verif
