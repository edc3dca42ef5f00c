import Verif.Lemmas.MU

/-! # What the analyses of `MachUp` leave alone, whether they return or raise -/

namespace Verif
open Act

variable {ι : Type} {B : Backend ι} {γ : Type}

/-- an observation of the world that ignores the solver objects, the result objects and the `local_state` entry, and that
can be made separately on the two dictionaries -/
structure Friendly (p : World B → γ) : Prop extends Coarse p where
  swapA : ∀ (w w' : World B) d, p { w with aero := some d } = p w' → p { w' with aero := w.aero } = p w
  swapC : ∀ (w w' : World B) d, p { w with ctrl := some d } = p w' → p { w' with ctrl := w.ctrl } = p w

section
variable {p : World B → γ} {ps : Option B.π}

theorem Friendly.solve (hp : Friendly p) : Keeps p (muSolve ps : Act (World B) _) :=
  keeps_muSolve_gen hp.toCoarse ps fun w w' => hp.swapA w w' _

theorem Friendly.central (hp : Friendly p) {set : ℝ → Act (World B) Unit} (hs : ∀ x, Keeps p (set x)) (x0 δ : ℝ) :
    Keeps p (Verif.central ps set x0 δ) := by
  unfold Verif.central
  refine Keeps.bind (hs _) fun _ => Keeps.bind hp.solve fun _ => Keeps.bind (hs _) fun _ =>
    Keeps.bind hp.solve fun _ => Keeps.pure _

theorem keeps_dynPressure : Keeps p (dynPressure : Act (World B) ℝ) := by
  unfold dynPressure
  exact Keeps.ite (keeps_getAero _) (Keeps.raise _)

theorem Friendly.stab (hp : Friendly p) (ha : ∀ x, Keeps p (setAlpha x)) (hb : ∀ x, Keeps p (setBeta x)) :
    Keeps p (stabilityDerivatives ps : Act (World B) _) := by
  have body : Keeps p (stabBody ps : Act (World B) _) := by
    unfold stabBody
    refine Keeps.bind keeps_dynPressure fun _ => Keeps.bind (keeps_getAero _) fun a0 => ?_
    refine Keeps.bind (hp.central ha _ _) fun _ => Keeps.bind (ha _) fun _ => ?_
    refine Keeps.bind (keeps_getAero _) fun b0 => ?_
    exact Keeps.bind (hp.central hb _ _) fun _ => Keeps.bind (hb _) fun _ => Keeps.pure _
  unfold stabilityDerivatives
  refine Keeps.bind Keeps.get fun w => Keeps.ite body ?_
  exact Keeps.bind (keeps_withAero body fun w w' => hp.swapA w w' _) fun _ => Keeps.pure _

theorem Friendly.damp (hp : Friendly p) (h1 : ∀ x, Keeps p (setRoll x)) (h2 : ∀ x, Keeps p (setPitch x))
    (h3 : ∀ x, Keeps p (setYaw x)) : Keeps p (dampingDerivatives ps : Act (World B) _) := by
  have body : Keeps p (dampBody ps : Act (World B) _) := by
    unfold dampBody
    refine Keeps.bind (keeps_getAero _) fun V => Keeps.bind keeps_dynPressure fun _ => ?_
    refine Keeps.ite (Keeps.raise _) ?_
    refine Keeps.bind (keeps_getAero _) fun a0 => ?_
    refine Keeps.bind (hp.central h1 _ _) fun _ => Keeps.bind (h1 _) fun _ => ?_
    refine Keeps.bind (keeps_getAero _) fun b0 => ?_
    refine Keeps.bind (hp.central h2 _ _) fun _ => Keeps.bind (h2 _) fun _ => ?_
    refine Keeps.bind (keeps_getAero _) fun b0 => ?_
    exact Keeps.bind (hp.central h3 _ _) fun _ => Keeps.bind (h3 _) fun _ => Keeps.pure _
  unfold dampingDerivatives
  refine Keeps.bind Keeps.get fun w => Keeps.ite body ?_
  exact Keeps.bind (keeps_withAero body fun w w' => hp.swapA w w' _) fun _ => Keeps.pure _

theorem Friendly.cont (hp : Friendly p) (h1 : ∀ x, Keeps p (setAileron x)) (h2 : ∀ x, Keeps p (setElevator x))
    (h3 : ∀ x, Keeps p (setRudder x)) (h4 : ∀ x, Keeps p (setFlap x)) :
    Keeps p (controlDerivatives ps : Act (World B) _) := by
  have body : Keeps p (contBody ps : Act (World B) _) := by
    unfold contBody
    refine Keeps.bind keeps_dynPressure fun _ => ?_
    refine Keeps.bind (keeps_getCtrl _) fun a0 => ?_
    refine Keeps.bind (hp.central h1 _ _) fun _ => Keeps.bind (h1 _) fun _ => ?_
    refine Keeps.bind (keeps_getCtrl _) fun b0 => ?_
    refine Keeps.bind (hp.central h2 _ _) fun _ => Keeps.bind (h2 _) fun _ => ?_
    refine Keeps.bind (keeps_getCtrl _) fun b0 => ?_
    refine Keeps.bind (hp.central h3 _ _) fun _ => Keeps.bind (h3 _) fun _ => ?_
    refine Keeps.bind (keeps_getCtrl _) fun b0 => ?_
    exact Keeps.bind (hp.central h4 _ _) fun _ => Keeps.bind (h4 _) fun _ => Keeps.pure _
  unfold controlDerivatives
  refine Keeps.bind Keeps.get fun w => Keeps.ite body ?_
  exact keeps_withCtrl body fun w w' => hp.swapC w w' _

theorem Friendly.stallLoop (hp : Friendly p) (ha : ∀ x, Keeps p (setAlpha x)) (fuel : ℕ) (a : ℝ) :
    Keeps p (Verif.stallLoop ps fuel a : Act (World B) _) := by
  induction fuel generalizing a with
  | zero => exact Keeps.ret _
  | succ n ih =>
    unfold Verif.stallLoop
    refine Keeps.bind (ha _) fun _ => Keeps.bind hp.solve.tryFinite fun r => Keeps.bind Keeps.get fun w => ?_
    split
    · split
      · exact Keeps.pure _
      · exact Keeps.raise _
    · exact ih _

theorem Friendly.stallOnset (hp : Friendly p) (ha : ∀ x, Keeps p (setAlpha x)) (fuel : ℕ) :
    Keeps p (Verif.stallOnset ps fuel : Act (World B) _) := by
  unfold Verif.stallOnset
  refine Keeps.bind Keeps.get fun w => Keeps.ite (hp.stallLoop ha _ _) ?_
  exact Keeps.bind (keeps_withAero (hp.stallLoop ha _ _) fun w w' => hp.swapA w w' _) fun _ => Keeps.pure _

theorem keeps_writeFile (hf : ∀ (w : World B) f, p { w with files := f } = p w) (filename : Option String) (doc : Doc ι) :
    Keeps p (writeFile filename doc : Act (World B) _) := by
  unfold writeFile
  cases filename
  · exact Keeps.ret _
  · exact Keeps.change fun w => hf w _

theorem Friendly.slopes (hp : Friendly p) (ha : ∀ x, Keeps p (setAlpha x)) (he : ∀ x, Keeps p (setElevator x))
    (f : Loads → ℝ) : Keeps p (Verif.slopes ps f : Act (World B) _) := by
  unfold Verif.slopes
  refine Keeps.bind (keeps_getAero _) fun a0 => ?_
  refine Keeps.bind (hp.central ha _ _) fun _ => Keeps.bind (ha _) fun _ => ?_
  refine Keeps.bind (keeps_getCtrl _) fun b0 => ?_
  exact Keeps.bind (hp.central he _ _) fun _ => Keeps.bind (he _) fun _ => Keeps.pure _

theorem Friendly.trimLoop (hp : Friendly p) (ha : ∀ x, Keeps p (setAlpha x)) (he : ∀ x, Keeps p (setElevator x))
    {filename : Option String} (hw : ∀ doc, Keeps p (writeFile filename doc : Act (World B) _)) {L M error : ℝ} (left : ℕ) (a de : ℝ) :
    Keeps p (Verif.trimLoop ps L M error filename left a de : Act (World B) _) := by
  induction left generalizing a de with
  | zero => exact Keeps.ret _
  | succ n ih =>
    unfold Verif.trimLoop
    refine Keeps.bind (ha _) fun _ => Keeps.bind (he _) fun _ => Keeps.bind hp.solve fun r => ?_
    refine Keeps.ite (Keeps.bind (hw _) fun _ => Keeps.pure _) ?_
    refine Keeps.bind (hp.slopes ha he _) fun _ => Keeps.bind (hp.slopes ha he _) fun _ => ?_
    refine Keeps.ite ?_ (Keeps.ite (Keeps.raise _) (Keeps.ite ?_ (ih _ _)))
    · split
      · exact Keeps.bind (hw _) fun _ => Keeps.pure _
      · exact Keeps.raise _
    · split
      · exact Keeps.bind (hw _) fun _ => Keeps.pure _
      · exact Keeps.raise _

theorem Friendly.pitchTrim (hp : Friendly p) (ha : ∀ x, Keeps p (setAlpha x)) (he : ∀ x, Keeps p (setElevator x))
    {filename : Option String} (hw : ∀ doc, Keeps p (writeFile filename doc : Act (World B) _)) (L M error : ℝ) :
    Keeps p (Verif.pitchTrim ps L M error filename : Act (World B) _) := by
  have h0 : ∀ doc, Keeps p (writeFile none doc : Act (World B) _) := fun _ => Keeps.ret _
  unfold Verif.pitchTrim
  refine Keeps.bind Keeps.get fun w => Keeps.ite (Keeps.ite (hp.trimLoop ha he hw _ _ _) ?_) (Keeps.ite ?_ ?_)
  · exact keeps_withCtrl (hp.trimLoop ha he h0 _ _ _) fun w w' => hp.swapC w w' _
  · exact Keeps.bind (keeps_withAero (hp.trimLoop ha he h0 _ _ _) fun w w' => hp.swapA w w' _) fun _ => Keeps.pure _
  · exact Keeps.bind (keeps_withAero (keeps_withCtrl (hp.trimLoop ha he h0 _ _ _) fun w w' => hp.swapC w w' _)
      fun w w' => hp.swapA w w' _) fun _ => Keeps.pure _

end

/-! ### `target_lift` and `stall_airspeed` work on copies -/

section copies
variable {ps : Option B.π}

theorem keeps_liftAt_aero (d : AeroDict ι) (x : Option ℝ) : Keeps World.aero (liftAt ps d x : Act (World B) _) := by
  unfold liftAt
  cases x
  · exact Keeps.bind (keeps_onSolver fun _ _ => rfl) fun _ => Keeps.pure _
  · exact Keeps.bind (keeps_withAero_aero _ _) fun _ => Keeps.pure _

theorem keeps_targetLoop_aero {L error : ℝ} (left : ℕ) (x0 y0 x1 y1 : Option ℝ) (d : AeroDict ι) :
    Keeps World.aero (targetLoop ps L error left x0 y0 x1 y1 d : Act (World B) _) := by
  induction left generalizing x0 y0 x1 y1 d with
  | zero => exact Keeps.ret _
  | succ n ih =>
    unfold targetLoop
    refine Keeps.ite (Keeps.pure _) (Keeps.bind (keeps_liftAt_aero _ _) fun _ => ?_)
    exact Keeps.ite (Keeps.pure _) (ih _ _ _ _ _)

theorem keeps_targetBody_aero {L error : ℝ} : Keeps World.aero (targetBody ps L error : Act (World B) _) := by
  unfold targetBody
  refine Keeps.bind (keeps_getAero _) fun d => Keeps.bind (keeps_needKey _) fun x0 => ?_
  refine Keeps.bind (keeps_liftAt_aero _ _) fun _ => Keeps.bind (keeps_liftAt_aero _ _) fun _ => ?_
  exact keeps_targetLoop_aero _ _ _ _ _ _

theorem keeps_targetLift_aero {L error : ℝ} {filename : Option String} :
    Keeps World.aero (targetLift ps L error filename : Act (World B) _) := by
  have hw : ∀ f doc, Keeps World.aero (writeFile f doc : Act (World B) _) := fun f doc =>
    keeps_writeFile (fun _ _ => rfl) f doc
  unfold targetLift
  refine Keeps.bind Keeps.get fun w => Keeps.ite ?_ ?_
  · refine Keeps.bind keeps_targetBody_aero fun r => ?_
    cases r
    · dsimp only
      cases filename
      · exact Keeps.raise _
      · exact Keeps.bind (hw _ _) fun _ => Keeps.pure _
    · exact Keeps.bind (hw _ _) fun _ => Keeps.pure _
  · refine Keeps.bind (keeps_withAero_aero _ _) fun r => ?_
    rcases r with ⟨_ | _, _⟩
    · exact Keeps.raise _
    · exact Keeps.bind (hw _ _) fun _ => Keeps.pure _

theorem keeps_airspeedLoop_aero {weight error : ℝ} {sweep : ℕ} (fuel : ℕ) (x0 y0 x1 y1 : ℝ) (s : StallResult)
    (d : AeroDict ι) :
    Keeps World.aero (airspeedLoop ps weight error sweep fuel x0 y0 x1 y1 s d : Act (World B) _) := by
  induction fuel generalizing x0 y0 x1 y1 s d with
  | zero => exact Keeps.ret _
  | succ n ih =>
    unfold airspeedLoop
    refine Keeps.ite (Keeps.raise _) (Keeps.ite (Keeps.pure _) (Keeps.bind (keeps_withAero_aero _ _) fun r => ?_))
    rcases r with ⟨_ | _, _⟩
    · exact Keeps.pure _
    · exact ih _ _ _ _ _ _

theorem keeps_stallAirspeed_aero {weight error : ℝ} {filename : Option String} {fuel sweep : ℕ} :
    Keeps World.aero (stallAirspeed ps weight error filename fuel sweep : Act (World B) _) := by
  have hw : ∀ f doc, Keeps World.aero (writeFile f doc : Act (World B) _) := fun f doc =>
    keeps_writeFile (fun _ _ => rfl) f doc
  unfold stallAirspeed
  refine Keeps.ite (Keeps.bind Keeps.get fun w => Keeps.ite ?_ (Keeps.raise _)) ?_
  · refine Keeps.bind ?_ fun r => ?_
    · unfold airspeedBody
      refine Keeps.bind (keeps_getAero _) fun d => Keeps.bind (keeps_needKey _) fun x0 => ?_
      refine Keeps.bind (keeps_withAero_aero _ _) fun s0 => Keeps.bind (keeps_withAero_aero _ _) fun s1 => ?_
      rcases s0 with ⟨_ | _, _⟩
      · exact Keeps.pure _
      rcases s1 with ⟨_ | _, _⟩
      · exact Keeps.pure _
      · exact keeps_airspeedLoop_aero _ _ _ _ _ _ _
    · cases r
      · exact Keeps.pure _
      · exact Keeps.bind (hw _ _) fun _ => Keeps.pure _
  · cases filename
    · exact Keeps.raise _
    · exact Keeps.bind (hw _ _) fun _ => Keeps.pure _

theorem keeps_liftAt_ctrl (d : AeroDict ι) (x : Option ℝ) : Keeps World.ctrl (liftAt ps d x : Act (World B) _) := by
  unfold liftAt
  cases x
  · exact Keeps.bind (keeps_onSolver fun _ _ => rfl) fun _ => Keeps.pure _
  · exact Keeps.bind (keeps_withAero_ctrl (keeps_muSolve_ctrl ps).tryFinite) fun _ => Keeps.pure _

theorem keeps_targetLoop_ctrl {L error : ℝ} (left : ℕ) (x0 y0 x1 y1 : Option ℝ) (d : AeroDict ι) :
    Keeps World.ctrl (targetLoop ps L error left x0 y0 x1 y1 d : Act (World B) _) := by
  induction left generalizing x0 y0 x1 y1 d with
  | zero => exact Keeps.ret _
  | succ n ih =>
    unfold targetLoop
    refine Keeps.ite (Keeps.pure _) (Keeps.bind (keeps_liftAt_ctrl _ _) fun _ => ?_)
    exact Keeps.ite (Keeps.pure _) (ih _ _ _ _ _)

theorem keeps_targetBody_ctrl {L error : ℝ} : Keeps World.ctrl (targetBody ps L error : Act (World B) _) := by
  unfold targetBody
  refine Keeps.bind (keeps_getAero _) fun d => Keeps.bind (keeps_needKey _) fun x0 => ?_
  refine Keeps.bind (keeps_liftAt_ctrl _ _) fun _ => Keeps.bind (keeps_liftAt_ctrl _ _) fun _ => ?_
  exact keeps_targetLoop_ctrl _ _ _ _ _ _

theorem keeps_targetLift_ctrl {L error : ℝ} {filename : Option String} :
    Keeps World.ctrl (targetLift ps L error filename : Act (World B) _) := by
  have hw : ∀ f doc, Keeps World.ctrl (writeFile f doc : Act (World B) _) := fun f doc =>
    keeps_writeFile (fun _ _ => rfl) f doc
  unfold targetLift
  refine Keeps.bind Keeps.get fun w => Keeps.ite ?_ ?_
  · refine Keeps.bind keeps_targetBody_ctrl fun r => ?_
    cases r
    · dsimp only
      cases filename
      · exact Keeps.raise _
      · exact Keeps.bind (hw _ _) fun _ => Keeps.pure _
    · exact Keeps.bind (hw _ _) fun _ => Keeps.pure _
  · refine Keeps.bind (keeps_withAero_ctrl keeps_targetBody_ctrl) fun r => ?_
    rcases r with ⟨_ | _, _⟩
    · exact Keeps.raise _
    · exact Keeps.bind (hw _ _) fun _ => Keeps.pure _

/-- the control dictionary is a friendly observation -/
theorem friendly_ctrl : Friendly (World.ctrl : World B → _) where
  st := fun _ _ => rfl
  objs := fun _ _ => rfl
  field := fun _ _ _ _ => rfl
  swapA := fun _ _ _ h => h.symm
  swapC := fun _ _ _ _ => rfl

theorem keeps_stallOnset_ctrl (fuel : ℕ) : Keeps World.ctrl (stallOnset ps fuel : Act (World B) _) :=
  friendly_ctrl.stallOnset (fun _ => keeps_setAero fun _ _ _ => rfl) fuel

theorem keeps_airspeedLoop_ctrl {weight error : ℝ} {sweep : ℕ} (fuel : ℕ) (x0 y0 x1 y1 : ℝ) (s : StallResult)
    (d : AeroDict ι) :
    Keeps World.ctrl (airspeedLoop ps weight error sweep fuel x0 y0 x1 y1 s d : Act (World B) _) := by
  induction fuel generalizing x0 y0 x1 y1 s d with
  | zero => exact Keeps.ret _
  | succ n ih =>
    unfold airspeedLoop
    refine Keeps.ite (Keeps.raise _) (Keeps.ite (Keeps.pure _)
      (Keeps.bind (keeps_withAero_ctrl (keeps_stallOnset_ctrl _)) fun r => ?_))
    rcases r with ⟨_ | _, _⟩
    · exact Keeps.pure _
    · exact ih _ _ _ _ _ _

theorem keeps_stallAirspeed_ctrl {weight error : ℝ} {filename : Option String} {fuel sweep : ℕ} :
    Keeps World.ctrl (stallAirspeed ps weight error filename fuel sweep : Act (World B) _) := by
  have hw : ∀ f doc, Keeps World.ctrl (writeFile f doc : Act (World B) _) := fun f doc =>
    keeps_writeFile (fun _ _ => rfl) f doc
  unfold stallAirspeed
  refine Keeps.ite (Keeps.bind Keeps.get fun w => Keeps.ite ?_ (Keeps.raise _)) ?_
  · refine Keeps.bind ?_ fun r => ?_
    · unfold airspeedBody
      refine Keeps.bind (keeps_getAero _) fun d => Keeps.bind (keeps_needKey _) fun x0 => ?_
      refine Keeps.bind (keeps_withAero_ctrl (keeps_stallOnset_ctrl _)) fun s0 =>
        Keeps.bind (keeps_withAero_ctrl (keeps_stallOnset_ctrl _)) fun s1 => ?_
      rcases s0 with ⟨_ | _, _⟩
      · exact Keeps.pure _
      rcases s1 with ⟨_ | _, _⟩
      · exact Keeps.pure _
      · exact keeps_airspeedLoop_ctrl _ _ _ _ _ _ _
    · cases r
      · exact Keeps.pure _
      · exact Keeps.bind (hw _ _) fun _ => Keeps.pure _
  · cases filename
    · exact Keeps.raise _
    · exact Keeps.bind (hw _ _) fun _ => Keeps.pure _

end copies

end Verif
