import Verif.Lemmas.LLKernel
import Verif.Thm.LLScaling
import Verif.Examples.LL

/-!
# The `LLModel` object over histories of calls (C18, C19, C20, C21, C37)

`llHistory G (LLState.init ι) h` is the object after the arbitrary sequence `h` of `solve` calls on a newly built model.
-/

namespace Verif
open V3

variable {ι : Type*} [Fintype ι] [DecidableEq ι]

/-- **C18.** A solve with non-empty aero and control states returns, after every history of earlier calls (successful or
not), what it returns on a newly built model. -/
theorem C18_history_independent (G : LLGeom ι) (h : List (LLCall ι)) (stype : String) (d : AeroDict ι) (c : CtrlDict)
    (hd : d.truthy = true) (hc : c.truthy = true) :
    (llSolve G (llHistory G (LLState.init ι) h) stype (some d) (some c)).1 =
      (llSolve G (LLState.init ι) stype (some d) (some c)).1 := by
  by_cases hs : stype = "linear"
  · subst hs
    rw [llSolve_explicit _ _ _ _ hd hc, llSolve_explicit _ _ _ _ hd hc]
  · have key : ∀ st, (llSolve G st stype (some d) (some c)).1 =
        match arrOf G d with
        | .ok _ => .error .runtime
        | .error e => .error e := by
      intro st
      have k := processAero_explicit G st d hd
      unfold llSolve
      cases ha : arrOf G d with
      | error e => rw [ha] at k; simp only at k; rw [k]
      | ok a =>
        rw [ha] at k
        obtain ⟨rt, k⟩ := k
        rw [k]
        simp only [hs, if_false]
    rw [key, key]

example : exAero.truthy = true ∧ exCtrl.truthy = true ∧
    (llSolve exGeom (llHistory exGeom (LLState.init _)
      [⟨"nonlinear", none, some exCtrl0⟩, ⟨"linear", some exAero, some exCtrl0⟩, ⟨"linear", some {}, none⟩])
      "linear" (some exAero) (some exCtrl)).1 = .ok exSol :=
  ⟨exAero_truthy, exCtrl_truthy, ex_solve _⟩

/-! ### C19: omitted aero state -/

/-- the claim of the documentation: without an aero state a solve that returns has used a uniform flow of 10 per second
along -x (density 1, the initial value) -/
def UsesDefaultFlow (G : LLGeom ι) (st : LLState ι) : Prop :=
  ∀ stype c R st', llSolve G st stype none c = (.ok R, st') →
    st'.v = some (fun _ => ⟨-10, 0, 0⟩) ∧ st'.u = some ⟨-1, 0, 0⟩ ∧ st'.rho = fun _ => 1

/-- the call passed no aero state, or an empty one -/
def LLCall.noAero (c : LLCall ι) : Prop := ∀ d, c.aero = some d → d.truthy = false

theorem processAero_default (G : LLGeom ι) (st : LLState ι) (a : Option (AeroDict ι))
    (ha : ∀ d, a = some d → d.truthy = false) :
    processAero G st a = processAero.defaultAero st := by
  unfold processAero
  split
  · rename_i d
    rw [if_neg (by simp [ha d rfl])]
  · rfl

/-- invariant of histories without aero states -/
def DefaultInv (st : LLState ι) : Prop :=
  (∃ v, st.v = some v ∧ ∀ i, (v i).y = 0 ∧ (v i).z = 0) ∧ (∃ u, st.u = some u ∧ u.y = 0 ∧ u.z = 0) ∧ st.rho = fun _ => 1

theorem llSolve_default_state (G : LLGeom ι) (st : LLState ι) (stype : String) (a : Option (AeroDict ι))
    (c : Option CtrlDict) (ha : ∀ d, a = some d → d.truthy = false) (hst : DefaultInv st) :
    (llSolve G st stype a c).2.v = some (fun _ => ⟨-10, 0, 0⟩) ∧ (llSolve G st stype a c).2.u = some ⟨-1, 0, 0⟩ ∧
      (llSolve G st stype a c).2.rho = fun _ => 1 := by
  obtain ⟨⟨v, hv, hv'⟩, ⟨u, hu, hu'⟩, hr⟩ := hst
  have key : (processCtrl G (processAero.defaultAero st).2 c).v = some (fun _ => ⟨-10, 0, 0⟩) ∧
      (processCtrl G (processAero.defaultAero st).2 c).u = some ⟨-1, 0, 0⟩ ∧
      (processCtrl G (processAero.defaultAero st).2 c).rho = fun _ => 1 := by
    obtain ⟨h1, h2, h3⟩ := processCtrl_v G (processAero.defaultAero st).2 c
    rw [h1, h2, h3]
    refine ⟨?_, ?_, hr⟩
    · simp [processAero.defaultAero, hv, hv']
    · simp [processAero.defaultAero, hu, hu']
  unfold llSolve
  rw [processAero_default G st a ha]
  simp only [processAero.defaultAero] at key ⊢
  split
  · split <;> exact key
  · exact key

theorem defaultInv_history (G : LLGeom ι) (h : List (LLCall ι)) (hh : ∀ c ∈ h, c.noAero) (st : LLState ι)
    (hst : DefaultInv st) : DefaultInv (llHistory G st h) := by
  induction h generalizing st with
  | nil => exact hst
  | cons c h ih =>
    apply ih (fun c hc => hh c (List.mem_cons_of_mem _ hc))
    obtain ⟨h1, h2, h3⟩ := llSolve_default_state G st c.stype c.aero c.ctrl (hh c List.mem_cons_self) hst
    exact ⟨⟨_, h1, fun i => ⟨rfl, rfl⟩⟩, ⟨_, h2, rfl, rfl⟩, h3⟩

/-- **C19 (partial).** The documented default holds as long as no earlier call passed a (non-empty) aero state.
Missing: histories with aero states, for which it is false, see `C19_refuted`. -/
theorem C19_default_aero_partial (G : LLGeom ι) (h : List (LLCall ι)) (hh : ∀ c ∈ h, c.noAero) :
    UsesDefaultFlow G (llHistory G (LLState.init ι) h) := by
  intro stype c R st' hs
  have hinv : DefaultInv (LLState.init ι) := ⟨⟨_, rfl, fun i => ⟨rfl, rfl⟩⟩, ⟨_, rfl, rfl, rfl⟩, rfl⟩
  have := llSolve_default_state G _ stype none c (by simp) (defaultInv_history G h hh _ hinv)
  rw [hs] at this
  exact this

/-- **C19 (partial).** In every history the x component of every section's velocity and of the wind direction is the
documented one after a solve without aero state. -/
theorem C19_x_component_partial (G : LLGeom ι) (st st' : LLState ι) (stype : String) (c : Option CtrlDict) (R : Sol ι)
    (h : llSolve G st stype none c = (.ok R, st')) :
    ∃ v u, st'.v = some v ∧ st'.u = some u ∧ (∀ i, (v i).x = -10) ∧ u.x = -1 := by
  obtain ⟨v, u, hv, hu, -⟩ := llSolve_ok h
  refine ⟨v, u, hv, hu, ?_⟩
  have key : (llSolve G st stype none c).2.v = (processAero.defaultAero st).2.v ∧
      (llSolve G st stype none c).2.u = (processAero.defaultAero st).2.u := by
    obtain ⟨h1, h2, -⟩ := processCtrl_v G (processAero.defaultAero st).2 c
    unfold llSolve
    rw [processAero_default G st none (by simp)]
    simp only [processAero.defaultAero] at h1 h2 ⊢
    split
    · split <;> exact ⟨h1, h2⟩
    · exact ⟨h1, h2⟩
  rw [h] at key
  simp only [hv, hu, processAero.defaultAero] at key
  constructor
  · intro i
    cases hv0 : st.v with
    | none => rw [hv0] at key; simp at key
    | some v0 =>
      rw [hv0] at key
      rw [Option.some.inj key.1]
  · cases hu0 : st.u with
    | none => rw [hu0] at key; simp at key
    | some u0 =>
      rw [hu0] at key
      rw [Option.some.inj key.2]

-- the hypothesis of the partial theorem: a history of solves without aero states that succeed
example : ∀ c ∈ [(⟨"linear", none, some exCtrl0⟩ : LLCall (Fin 2)), ⟨"linear", some {}, none⟩], c.noAero := by
  intro c hc d hd
  simp only [List.mem_cons, List.not_mem_nil, or_false] at hc
  rcases hc with rfl | rfl
  · cases hd
  · cases hd; rfl

/-- aero state of the witness: same flow, twice the density -/
noncomputable def exAero2 : AeroDict (Fin 2) := exAero.scaleDensity 2

/-- **C19 refuted.** After one solve at density 2, a solve without aero state returns twice the forces that it returns on a
newly built model: the density of the earlier solve is kept. -/
theorem C19_refuted : ∃ (G : LLGeom (Fin 2)) (c : CtrlDict) (h : List (LLCall (Fin 2))) (R R' : Sol (Fin 2)),
    (llSolve G (LLState.init _) "linear" none (some c)).1 = .ok R ∧
    (llSolve G (llHistory G (LLState.init _) h) "linear" none (some c)).1 = .ok R' ∧
    R'.inviscid.FZ = 2 * R.inviscid.FZ ∧ R.inviscid.FZ ≠ 0 ∧
    ¬ UsesDefaultFlow G (llHistory G (LLState.init _) h) := by
  have ht2 : exAero2.truthy = true := by simp [exAero2, AeroDict.truthy, AeroDict.scaleDensity, exAero]
  have harr2 : arrOf exGeom exAero2 = .ok ⟨some exFlow.v, some exFlow.u, fun _ => 2⟩ := by
    simp [arrOf, exAero2, exAero, AeroDict.scaleDensity, rotArr, AeroDict.hasRates, ex_freestream, ex_normalise, exFlow]
  -- the first call
  have hout := C25_density_scaling exGeom (LLState.init _) exAero (some exCtrl) 2 exAero_truthy
  rw [ex_solve] at hout
  have h2 : ∃ R', (llSolve exGeom (LLState.init _) "linear" (some exAero2) (some exCtrl)).1 = .ok R' ∧
      LoadsScaled 2 2 exSol R' := by
    unfold exAero2
    revert hout
    cases (llSolve exGeom (LLState.init _) "linear" (some (exAero.scaleDensity 2)) (some exCtrl)).1 with
    | error e => intro h; exact h.elim
    | ok R' => intro h; exact ⟨R', rfl, h.1⟩
  obtain ⟨R', hR', hscale⟩ := h2
  have hk2 : kern exGeom ⟨some exFlow.v, some exFlow.u, fun _ => 2⟩ exC = .ok R' := by
    rw [llSolve_explicit _ _ _ _ ht2 exCtrl_truthy, harr2, ex_ctrl] at hR'
    exact hR'
  have hk1 : kern exGeom ⟨some exFlow.v, some exFlow.u, exFlow.rho⟩ exC = .ok exSol := by
    have := ex_solve (LLState.init _)
    rw [llSolve_explicit _ _ _ _ exAero_truthy exCtrl_truthy, ex_arr, ex_ctrl] at this
    exact this
  -- states
  let st1 := llHistory exGeom (LLState.init _) [⟨"linear", some exAero2, some exCtrl⟩]
  have hst1 : st1.v = some exFlow.v ∧ st1.u = some exFlow.u ∧ st1.rho = fun _ => 2 :=
    llSolve_state exGeom (LLState.init _) "linear" exAero2 (some exCtrl) ht2 _ harr2
  have hres : ∀ (st : LLState (Fin 2)) (a : Arr (Fin 2)) (R : Sol (Fin 2)),
      (processAero.defaultAero st).2.v = a.v → (processAero.defaultAero st).2.u = a.u →
      (processAero.defaultAero st).2.rho = a.rho → kern exGeom a exC = .ok R →
      (llSolve exGeom st "linear" none (some exCtrl)).1 = .ok R := by
    intro st a R e1 e2 e3 hk
    rw [llSolve_linear, processAero_default exGeom st none (by simp)]
    show runLinear exGeom (processCtrl exGeom (processAero.defaultAero st).2 (some exCtrl)) = _
    rw [processCtrl_explicit _ _ _ exCtrl_truthy, runLinear_eq, ex_ctrl]
    show kern exGeom ⟨(processAero.defaultAero st).2.v, (processAero.defaultAero st).2.u,
      (processAero.defaultAero st).2.rho⟩ exC = _
    rw [e1, e2, e3]
    exact hk
  have hA : (llSolve exGeom (LLState.init _) "linear" none (some exCtrl)).1 = .ok exSol :=
    hres _ ⟨some exFlow.v, some exFlow.u, exFlow.rho⟩ _ rfl rfl rfl hk1
  have hB : (llSolve exGeom st1 "linear" none (some exCtrl)).1 = .ok R' := by
    refine hres _ ⟨some exFlow.v, some exFlow.u, fun _ => 2⟩ _ ?_ ?_ ?_ hk2
    · simp [processAero.defaultAero, hst1.1, exFlow]
    · simp [processAero.defaultAero, hst1.2.1, exFlow]
    · simp [processAero.defaultAero, hst1.2.2]
  refine ⟨exGeom, exCtrl, [⟨"linear", some exAero2, some exCtrl⟩], exSol, R', hA, hB, ?_, ?_, ?_⟩
  · rw [hscale.inviscid]; rfl
  · rw [ex_FZ]; have := exGamma_pos; intro h; linarith
  · intro hdef
    have h := hdef "linear" (some exCtrl) R' _ (Prod.ext hB rfl)
    have h3 : (llSolve exGeom st1 "linear" none (some exCtrl)).2.rho = fun _ => 1 := h.2.2
    have h4 : (llSolve exGeom st1 "linear" none (some exCtrl)).2.rho = st1.rho := by
      obtain ⟨-, -, e3⟩ := processCtrl_v exGeom (processAero.defaultAero st1).2 (some exCtrl)
      unfold llSolve
      rw [processAero_default exGeom st1 none (by simp)]
      simp only [processAero.defaultAero] at e3 ⊢
      split
      · split <;> exact e3
      · exact e3
    rw [h4, hst1.2.2] at h3
    have := congrFun h3 0
    norm_num at this

/-! ### C20: omitted control state -/

/-- the claim of the documentation: a solve without control state has used zero deflection everywhere -/
def UsesZeroDeflection (G : LLGeom ι) (st : LLState ι) : Prop :=
  ∀ stype a R st', llSolve G st stype a none = (.ok R, st') → st'.ctrl.delta = fun _ => 0

theorem llSolve_ctrl_none (G : LLGeom ι) (st : LLState ι) (stype : String) (a : Option (AeroDict ι))
    (c : Option CtrlDict) (hc : ∀ d, c = some d → d.truthy = false) :
    (llSolve G st stype a c).2.ctrl = st.ctrl := by
  have hp : ∀ st : LLState ι, processCtrl G st c = st := by
    intro st
    unfold processCtrl
    split
    · rename_i d
      rw [if_neg (by simp [hc d rfl])]
    · rfl
  have ha : (processAero G st a).2.ctrl = st.ctrl := by
    cases a with
    | none => rfl
    | some d =>
      by_cases hd : d.truthy = true
      · have k := processAero_explicit G st d hd
        cases hr : arrOf G d with
        | error e => rw [hr] at k; simp only at k; rw [k]
        | ok a =>
          rw [hr] at k
          obtain ⟨rt, k⟩ := k
          rw [k]
      · rw [processAero_default G st (some d) (by intro d' h; cases h; simpa using hd)]
        rfl
  unfold llSolve
  split
  · rename_i h; rw [h] at ha; exact ha
  · rename_i h
    rw [h] at ha
    simp only [hp]
    split
    · split <;> exact ha
    · exact ha

/-- **C20 (partial).** Zero deflection is used as long as no earlier call passed a (non-empty) control state.
Missing: histories with control states, for which it is false, see `C20_refuted`. -/
theorem C20_default_control_partial (G : LLGeom ι) (h : List (LLCall ι))
    (hh : ∀ c ∈ h, ∀ d, c.ctrl = some d → d.truthy = false) :
    UsesZeroDeflection G (llHistory G (LLState.init ι) h) := by
  have hinv : ∀ (h : List (LLCall ι)), (∀ c ∈ h, ∀ d, c.ctrl = some d → d.truthy = false) → ∀ st : LLState ι,
      (llHistory G st h).ctrl = st.ctrl := by
    intro h
    induction h with
    | nil => intro _ st; rfl
    | cons c h ih =>
      intro hh st
      show (llHistory G (llSolve G st c.stype c.aero c.ctrl).2 h).ctrl = _
      rw [ih (fun c hc => hh c (List.mem_cons_of_mem _ hc)), llSolve_ctrl_none G st _ _ _ (hh c List.mem_cons_self)]
  intro stype a R st' hs
  have h1 := llSolve_ctrl_none G (llHistory G (LLState.init ι) h) stype a none (by simp)
  rw [hs, hinv h hh] at h1
  rw [h1]; rfl

example : ∀ c ∈ [(⟨"linear", some exAero, none⟩ : LLCall (Fin 2)), ⟨"linear", some exAero, some {}⟩],
    ∀ d, c.ctrl = some d → d.truthy = false := by
  intro c hc d hd
  simp only [List.mem_cons, List.not_mem_nil, or_false] at hc
  rcases hc with rfl | rfl
  · cases hd
  · cases hd; rfl

/-- **C20 refuted.** After one solve with the elevator deflected, a solve without control state returns a different
result than on a newly built model (no circulation instead of a positive one): the deflection is kept. -/
theorem C20_refuted : ∃ (G : LLGeom (Fin 2)) (d : AeroDict (Fin 2)) (h : List (LLCall (Fin 2))) (R R' : Sol (Fin 2)),
    (llSolve G (LLState.init _) "linear" (some d) none).1 = .ok R ∧
    (llSolve G (llHistory G (LLState.init _) h) "linear" (some d) none).1 = .ok R' ∧
    (∀ i, 0 < R.gamma i) ∧ (∀ i, R'.gamma i = 0) ∧ ¬ UsesZeroDeflection G (llHistory G (LLState.init _) h) := by
  let st1 := llHistory exGeom (LLState.init _) [⟨"linear", some exAero, some exCtrl0⟩]
  have hc1 : st1.ctrl = exC0 := by
    have := llSolve_ctrl exGeom (LLState.init (Fin 2)) "linear" exAero exCtrl0 exAero_truthy exCtrl0_truthy _ ex_arr
    rw [ex0_ctrl] at this
    exact this
  have hB : (llSolve exGeom st1 "linear" (some exAero) none).1 = .ok ex0Sol := by
    rw [llSolve_aero _ _ _ _ exAero_truthy, ex_arr]
    show kern exGeom _ st1.ctrl = _
    rw [hc1]; exact ex0_kern
  have hb0 : bVec exGeom.S exFlow ⟨fun _ => 0, fun _ => 0⟩ = bVec exGeom.S exFlow exC := by
    funext i; simp [bVec, clRhs, effFlap, exC]
  have hg0 : (aMat exGeom.S exFlow)⁻¹.mulVec (bVec exGeom.S exFlow ⟨fun _ => 0, fun _ => 0⟩) = fun _ => exGamma := by
    rw [hb0, ex_gamma]
  have hA0 : solveLinear exGeom.cg exGeom.S exFlow ⟨fun _ => 0, fun _ => 0⟩ =
      .ok (solOf exGeom.cg exGeom.S exFlow ⟨fun _ => 0, fun _ => 0⟩ (fun _ => exGamma)) := by
    unfold solveLinear
    rw [if_neg (not_not.mpr ex_defined), if_neg ex_det, hg0]
    simp only
    rw [if_neg (not_not.mpr ex_post)]
  have hA : (llSolve exGeom (LLState.init _) "linear" (some exAero) none).1 =
      .ok (solOf exGeom.cg exGeom.S exFlow ⟨fun _ => 0, fun _ => 0⟩ (fun _ => exGamma)) := by
    rw [llSolve_aero _ _ _ _ exAero_truthy, ex_arr]
    have h : solveLinear exGeom.cg exGeom.S ⟨exFlow.v, exFlow.u, exFlow.rho⟩ ⟨fun _ => 0, fun _ => 0⟩ = _ := hA0
    simp only [kern, processCtrl, LLState.init, h]
  refine ⟨exGeom, exAero, [⟨"linear", some exAero, some exCtrl0⟩], _, ex0Sol, hA, hB, fun i => exGamma_pos, fun i => rfl, ?_⟩
  intro hz
  have h1 : (llSolve exGeom st1 "linear" (some exAero) none).2.ctrl.delta = fun _ => 0 :=
    hz "linear" (some exAero) ex0Sol _ (Prod.ext hB rfl)
  rw [llSolve_ctrl_none exGeom st1 _ _ _ (by simp), hc1] at h1
  have := congrFun h1 0
  norm_num [exC0] at this

/-! ### C21: results that were returned -/

/-- **C21 refuted for `LLModel.solve`.** The object returned by a successful solve is the model's own results dictionary
(`LLState.results`); after a later solve it reads differently. -/
theorem C21_llmodel_refuted : ∃ (G : LLGeom (Fin 2)) (d : AeroDict (Fin 2)) (c c' : CtrlDict) (R : Sol (Fin 2)) (st1 : LLState (Fin 2)),
    llSolve G (LLState.init _) "linear" (some d) (some c) = (.ok R, st1) ∧ st1.results = some R ∧
    ∃ R', (llSolve G st1 "linear" (some d) (some c')).2.results = some R' ∧ R'.inviscid.FZ ≠ R.inviscid.FZ := by
  refine ⟨exGeom, exAero, exCtrl, exCtrl0, exSol, _, Prod.ext (ex_solve _) rfl, ?_, ex0Sol, ?_, ?_⟩
  · obtain ⟨v, u, -, -, -, h, -⟩ := llSolve_ok (Prod.ext (ex_solve (LLState.init _)) rfl :
      llSolve exGeom (LLState.init _) "linear" (some exAero) (some exCtrl) = (.ok exSol, _))
    exact h
  · obtain ⟨v, u, -, -, -, h, -⟩ := llSolve_ok (Prod.ext (ex0_solve
      (llSolve exGeom (LLState.init _) "linear" (some exAero) (some exCtrl)).2) rfl :
      llSolve exGeom _ "linear" (some exAero) (some exCtrl0) = (.ok ex0Sol, _))
    exact h
  · have h1 : ex0Sol.inviscid.FZ = (∑ i, ex0Sol.force i).z := rfl
    have h2 : ∀ i, ex0Sol.force i = 0 := by intro i; simp [ex0Sol, solOf, secForce]
    rw [h1, ex_FZ]
    simp only [h2, Finset.sum_const_zero, zero_z]
    have := exGamma_pos
    intro h; linarith

/-! ### C37: rejected solves -/

/-- **C37 (missing keys).** A solve rejected because `V_mag` or `rho` is missing raises `RuntimeError` and leaves the
model exactly as it was, so that every continuation behaves as if the call had not been made. -/
theorem C37_missing_key (G : LLGeom ι) (st : LLState ι) (stype : String) (d : AeroDict ι) (c : Option CtrlDict)
    (hd : d.truthy = true) (hl : d.localState = none) (hm : d.Vmag = none ∨ d.rho = none) :
    llSolve G st stype (some d) c = (.error .runtime, st) := by
  have ha : arrOf G d = .error .runtime := by
    unfold arrOf
    rw [hl]
    rcases hm with h | h
    · simp [h]
    · cases hV : d.Vmag <;> simp [h]
  have k := processAero_explicit G st d hd
  rw [ha] at k
  simp only at k
  unfold llSolve
  rw [k]

/-- **C37 (continuations).** Removing a rejected call (missing keys) from a history changes nothing afterwards. -/
theorem C37_missing_key_history (G : LLGeom ι) (st : LLState ι) (h1 h2 : List (LLCall ι)) (stype : String)
    (d : AeroDict ι) (c : Option CtrlDict) (hd : d.truthy = true) (hl : d.localState = none)
    (hm : d.Vmag = none ∨ d.rho = none) :
    llHistory G st (h1 ++ ⟨stype, some d, c⟩ :: h2) = llHistory G st (h1 ++ h2) := by
  simp only [llHistory, List.foldl_append, List.foldl_cons]
  rw [C37_missing_key G _ stype d c hd hl hm]

example : ({ alpha := some 3, Vmag := some 10 } : AeroDict (Fin 2)).truthy = true ∧
    ({ alpha := some 3, Vmag := some 10 } : AeroDict (Fin 2)).rho = none := ⟨rfl, rfl⟩

/-- **C37 (partial: unsupported type).** A solve with an unsupported type raises; later solves with explicit states are
not affected.  Missing: later solves that omit a state, see `C37_refuted`. -/
theorem C37_bad_type_partial (G : LLGeom ι) (st : LLState ι) (stype : String) (hs : stype ≠ "linear")
    (a : Option (AeroDict ι)) (c : Option CtrlDict) :
    (∃ e, (llSolve G st stype a c).1 = .error e) ∧
    ∀ (d : AeroDict ι) (c' : CtrlDict), d.truthy = true → c'.truthy = true →
      (llSolve G (llSolve G st stype a c).2 "linear" (some d) (some c')).1 =
        (llSolve G st "linear" (some d) (some c')).1 := by
  constructor
  · unfold llSolve
    split
    · exact ⟨_, rfl⟩
    · simp only [hs, if_false]; exact ⟨_, rfl⟩
  · intro d c' hd hc
    rw [llSolve_explicit _ _ _ _ hd hc, llSolve_explicit _ _ _ _ hd hc]

/-- **C37 refuted for an unsupported type.** A call rejected with `RuntimeError("solver type not yet supported")` changes
the result of the next solve. -/
theorem C37_refuted : ∃ (G : LLGeom (Fin 2)) (d : AeroDict (Fin 2)) (c : CtrlDict) (R R' : Sol (Fin 2)),
    (llSolve G (LLState.init _) "nonlinear" (some d) (some c)).1 = .error .runtime ∧
    (llSolve G (LLState.init _) "linear" (some d) none).1 = .ok R ∧
    (llSolve G (llSolve G (LLState.init _) "nonlinear" (some d) (some c)).2 "linear" (some d) none).1 = .ok R' ∧
    (∀ i, 0 < R.gamma i) ∧ (∀ i, R'.gamma i = 0) := by
  let st1 := (llSolve exGeom (LLState.init _) "nonlinear" (some exAero) (some exCtrl0)).2
  have hc1 : st1.ctrl = exC0 := by
    have := llSolve_ctrl exGeom (LLState.init (Fin 2)) "nonlinear" exAero exCtrl0 exAero_truthy exCtrl0_truthy _ ex_arr
    rw [ex0_ctrl] at this
    exact this
  have hB : (llSolve exGeom st1 "linear" (some exAero) none).1 = .ok ex0Sol := by
    rw [llSolve_aero _ _ _ _ exAero_truthy, ex_arr]
    show kern exGeom _ st1.ctrl = _
    rw [hc1]; exact ex0_kern
  obtain ⟨h1, h2⟩ := C37_bad_type_partial exGeom (LLState.init (Fin 2)) "nonlinear" (by decide) (some exAero) (some exCtrl0)
  have hA : ∃ R, (llSolve exGeom (LLState.init _) "linear" (some exAero) none).1 = .ok R ∧ ∀ i, R.gamma i = exGamma := by
    have hb0 : bVec exGeom.S exFlow ⟨fun _ => 0, fun _ => 0⟩ = bVec exGeom.S exFlow exC := by
      funext i; simp [bVec, clRhs, effFlap, exC]
    have hg0 : (aMat exGeom.S exFlow)⁻¹.mulVec (bVec exGeom.S exFlow ⟨fun _ => 0, fun _ => 0⟩) = fun _ => exGamma := by
      rw [hb0, ex_gamma]
    have hA0 : solveLinear exGeom.cg exGeom.S ⟨exFlow.v, exFlow.u, exFlow.rho⟩ ⟨fun _ => 0, fun _ => 0⟩ =
        .ok (solOf exGeom.cg exGeom.S exFlow ⟨fun _ => 0, fun _ => 0⟩ (fun _ => exGamma)) := by
      show solveLinear exGeom.cg exGeom.S exFlow _ = _
      unfold solveLinear
      rw [if_neg (not_not.mpr ex_defined), if_neg ex_det, hg0]
      simp only
      rw [if_neg (not_not.mpr ex_post)]
    refine ⟨solOf exGeom.cg exGeom.S exFlow ⟨fun _ => 0, fun _ => 0⟩ (fun _ => exGamma), ?_, fun i => rfl⟩
    rw [llSolve_aero _ _ _ _ exAero_truthy, ex_arr]
    simp only [kern, processCtrl, LLState.init, hA0]
  obtain ⟨R, hR, hγ⟩ := hA
  refine ⟨exGeom, exAero, exCtrl0, R, ex0Sol, ?_, hR, hB, fun i => by rw [hγ]; exact exGamma_pos, fun i => rfl⟩
  have k := processAero_explicit exGeom (LLState.init _) exAero exAero_truthy
  rw [ex_arr] at k
  obtain ⟨rt, k⟩ := k
  unfold llSolve
  rw [k]
  simp

end Verif
