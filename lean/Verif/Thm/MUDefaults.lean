import Verif.Thm.MUTrim
import Verif.Thm.MUStall

/-!
# Default arguments (C51, C52, C53, C54)
-/

namespace Verif
open Act

variable {ι : Type} {B : Backend ι} {ps : Option B.π}

/-! ### `pitch_trim` (C51) -/

/-- **C51 fails, in general.** If `aero_state` or `control_state` is omitted (or empty), neither the tolerance nor the file
name makes a difference, and no file is written. -/
theorem C51_dropped (L M : ℝ) {w : World B} (h : aeroGiven w = false ∨ ctrlGiven w = false) :
    (∀ error error' filename filename',
      pitchTrim ps L M error filename w = pitchTrim ps L M error' filename' w) ∧
    ∀ error filename, (pitchTrim ps L M error filename w).2.files = w.files := by
  constructor
  · intro error error' filename filename'
    unfold pitchTrim
    rw [get_bind, get_bind]
    by_cases ha : aeroGiven w = true
    · have hc : ¬ ctrlGiven w = true := by
        rcases h with h | h
        · rw [ha] at h; simp at h
        · simp [h]
      rw [if_pos ha, if_pos ha, if_neg hc, if_neg hc]
    · rw [if_neg ha, if_neg ha]
  · intro error filename
    have hloop : ∀ left a e, Keeps World.files (trimLoop ps L M defaultError none left a e : Act (World B) _) := by
      have hsA : ∀ f, Keeps World.files (setAero f : Act (World B) Unit) := fun f => keeps_setAero fun _ _ _ => rfl
      have hsC : ∀ f, Keeps World.files (setCtrl f : Act (World B) Unit) := fun f => keeps_setCtrl fun _ _ _ => rfl
      have hcen : ∀ (set : ℝ → Act (World B) Unit), (∀ x, Keeps World.files (set x)) → ∀ x δ,
          Keeps World.files (central ps set x δ : Act (World B) _) := by
        intro set hs x δ
        unfold central
        exact Keeps.bind (hs _) fun _ => Keeps.bind (keeps_muSolve_files ps) fun _ => Keeps.bind (hs _) fun _ =>
          Keeps.bind (keeps_muSolve_files ps) fun _ => Keeps.pure _
      have hsl : ∀ f, Keeps World.files (slopes ps f : Act (World B) _) := by
        intro f
        unfold slopes
        refine Keeps.bind (keeps_getAero _) fun _ => Keeps.bind (hcen _ (fun _ => hsA _) _ _) fun ⟨_, _⟩ => ?_
        refine Keeps.bind (hsA _) fun _ => Keeps.bind (keeps_getCtrl _) fun _ =>
          Keeps.bind (hcen _ (fun _ => hsC _) _ _) fun ⟨_, _⟩ => ?_
        exact Keeps.bind (hsC _) fun _ => Keeps.pure _
      intro left
      induction left with
      | zero => exact fun _ _ => Keeps.ret _
      | succ n ih =>
        intro a e
        unfold trimLoop
        refine Keeps.bind (hsA _) fun _ => Keeps.bind (hsC _) fun _ => Keeps.bind (keeps_muSolve_files ps) fun r => ?_
        refine Keeps.ite (Keeps.bind (Keeps.ret _) fun _ => Keeps.pure _) ?_
        refine Keeps.bind (hsl _) fun ⟨_, _⟩ => Keeps.bind (hsl _) fun ⟨_, _⟩ => ?_
        exact Keeps.ite (Keeps.raise _) (Keeps.ite (Keeps.raise _) (Keeps.ite (Keeps.raise _) (ih _ _)))
    unfold pitchTrim
    rw [get_bind]
    by_cases ha : aeroGiven w = true
    · have hc : ¬ ctrlGiven w = true := by
        rcases h with h | h
        · rw [ha] at h; simp at h
        · simp [h]
      rw [if_pos ha, if_neg hc]
      exact keeps_withCtrl_files (hloop _ _ _) w
    · rw [if_neg ha]
      split_ifs
      · refine Keeps.bind (p := World.files) (keeps_withAero_files (hloop _ _ _)) (fun ⟨_, _⟩ => ?_) w
        exact Keeps.pure _
      · refine Keeps.bind (p := World.files) (keeps_withAero_files (keeps_withCtrl_files (hloop _ _ _)))
          (fun ⟨_, _⟩ => ?_) w
        exact Keeps.pure _

/-- **C51, the part that holds.** With both states given, the tolerance passed is the one met, and the result is written
to the file passed.  Missing: calls that omit a state, for which the claim is false. -/
theorem C51_given_partial {d : AeroDict ι} {c : CtrlDict} {L M error : ℝ} {filename : Option String} {w w' : World B}
    {a e : ℝ} (hd : w.aero = some d) (ht : d.truthy = true) (hc : w.ctrl = some c) (hct : c.truthy = true)
    (h : pitchTrim ps L M error filename w = (.ok (.trim a e), w')) :
    (∃ r : Loads, SolvedAt ps { d with alpha := some a } (some { c with elevator := some e }) r ∧
      |r.FL - L| < error ∧ |r.MY - M| < error) ∧
    ∀ f, filename = some f → w'.files = w.files ++ [(f, .trim a e)] := by
  rcases C50_answer hd ht hc hct h with ⟨a', e', h1, h2, -, -, h3⟩ | ⟨h1, -⟩
  · cases h1
    exact ⟨h2, fun f hf => by rw [h3, hf]; rfl⟩
  · cases h1

/-- the flat wing with an `aero_state` but without a `control_state` -/
noncomputable def noCtrlWorld : World flatB := freshWorld flatGeom 2 2 1 (some { Vmag := some 10, rho := some 1 }) none

/-- **C51 fails.** A trim of the flat wing is found and returned, but the file is not written. -/
theorem C51_refuted : ∃ L M : ℝ, (pitchTrim none L M 1 (some "trim.json") noCtrlWorld).1 = .ok (.trim 0 0) ∧
    (pitchTrim none L M 1 (some "trim.json") noCtrlWorld).2.files = [] := by
  obtain ⟨r, w', h⟩ := flat_solvesAll none
    { noCtrlWorld with aero := some { Vmag := some 10, rho := some 1, alpha := some 0 },
                       ctrl := some { zeroCtrlDict with elevator := some 0 } } _ rfl
    ⟨rfl, rfl, rfl, by simp, by simp, by simp⟩
  refine ⟨r.FL, r.MY, ?_, ?_⟩
  · have hloop : trimLoop none r.FL r.MY defaultError none 101 0 0 { noCtrlWorld with ctrl := some zeroCtrlDict } =
        (.ok (.trim 0 0), w') := by
      show trimLoop none r.FL r.MY defaultError none (100 + 1) 0 0 { noCtrlWorld with ctrl := some zeroCtrlDict } = _
      unfold trimLoop
      rw [bind_of_ok (show setAlpha (B := flatB) 0 _ = _ from setAero_some rfl),
        bind_of_ok (show setElevator (B := flatB) 0 _ = _ from setCtrl_some rfl)]
      refine (bind_of_ok h _).trans ?_
      have he : (0 : ℝ) < defaultError := by unfold defaultError; positivity
      simp only [sub_self, abs_zero]
      rw [if_pos ⟨he, he⟩]
      rfl
    unfold pitchTrim
    rw [get_bind, if_pos (by simp [aeroGiven, noCtrlWorld, freshWorld, AeroDict.truthy]),
      if_neg (by simp [ctrlGiven, noCtrlWorld, freshWorld])]
    unfold withCtrl
    rw [hloop]
  · exact (C51_dropped _ _ (.inr (by simp [ctrlGiven, noCtrlWorld, freshWorld]))).2 _ _

/-! ### `stall_airspeed` (C52) -/

/-- **C52 fails.** For every plane with wings and every weight, `stall_airspeed` without an `aero_state` raises
`AttributeError`; nothing is computed and no file is written. -/
theorem C52_refuted (hw : B.hasWings = true) {w : World B} (h : aeroGiven w = false) (weight error : ℝ)
    (filename : Option String) (fuel sweep : ℕ) :
    stallAirspeed ps weight error filename fuel sweep w = (.error .attribute, w) := by
  have h1 : airspeedMisused 1000 .self (.num weight) = .attribute := by
    rw [show (1000 : ℕ) = 998 + 1 + 1 from rfl]
    unfold airspeedMisused
    by_cases hz : weight = 0
    · simp [PyArg.truthy, hz, airspeedMisused]
    · simp [PyArg.truthy, hz]
  unfold stallAirspeed
  rw [if_pos hw, get_bind, if_neg (by simp [h]), h1]
  rfl

example : (stallAirspeed (B := flatB) none 5 1 none 10 10 { flatWorld with aero := none }).1 = .error .attribute := by
  rw [C52_refuted rfl rfl]

/-! ### `derivatives` (C53) -/

/-- **C53 fails.** Without an `aero_state`, `control_derivatives` raises `AttributeError` for every plane and every
`control_state`, and `derivatives` never returns for a plane with wings. -/
theorem C53_refuted {w : World B} (h : w.aero = none) :
    (controlDerivatives ps w).1 = .error .attribute ∧
    (B.hasWings = true → ∀ filename r, (derivatives ps filename w).1 ≠ .ok r) := by
  have hcont : ∀ w : World B, w.aero = none → (controlDerivatives ps w).1 = .error .attribute := by
    intro w h
    have hDP : ∀ w : World B, w.aero = none → (dynPressure w : Except PyErr ℝ × World B) = (.error .attribute, w) := by
      intro w h
      unfold dynPressure
      split_ifs
      · unfold getAero; rw [h]
      · rfl
    have hb : ∀ w : World B, w.aero = none → contBody ps w = (.error .attribute, w) := by
      intro w h
      unfold contBody
      exact bind_of_error (hDP w h) _
    unfold controlDerivatives
    rw [get_bind]
    split_ifs
    · rw [hb w h]
    · unfold withCtrl
      rw [hb { w with ctrl := some zeroCtrlDict } h]
  refine ⟨hcont w h, fun hW filename r hr => ?_⟩
  rcases hd : derivatives ps filename w with ⟨e | r', w'⟩
  · rw [hd] at hr; simp at hr
  · unfold derivatives at hd
    rw [if_pos hW] at hd
    replace hd := bind_ok.1 hd
    obtain ⟨s, w1, h1, hd⟩ := hd
    replace hd := bind_ok.1 hd
    obtain ⟨c, w2, h2, hd⟩ := hd
    have hgiv : aeroGiven w = false := by simp [aeroGiven, h]
    have ha : w1.aero = none := by
      have := (C42_default (ps := ps) hgiv).2
      rw [h1] at this
      rw [this, h]
    have := hcont w1 ha
    rw [h2] at this
    simp at this

/-- **C53, the part that holds.** `stability_derivatives` uses the documented default state if none is given, for every
plane, and `damping_derivatives` uses speed 10 and density 0.0023769. Missing: `control_derivatives` and `derivatives`, for
which the claim is false. -/
theorem C53_default_partial {w : World B} (hw : aeroGiven w = false) :
    (stabilityDerivatives ps w).1 =
      (stabilityDerivatives ps { w with aero := some { Vmag := some 10, rho := some 0.0023769, alpha := some 0 } }).1 ∧
    (dampingDerivatives ps w).1 =
      (dampingDerivatives ps { w with aero := some { Vmag := some 10, rho := some 0.0023769 } }).1 := by
  refine ⟨(C42_default hw).1, ?_⟩
  unfold dampingDerivatives
  rw [get_bind, get_bind, if_neg (by simp [hw]), if_pos (by simp [aeroGiven, AeroDict.truthy]), bind_def]
  unfold withAero
  rcases dampBody ps { w with aero := some { Vmag := some 10, rho := some 0.0023769 } } with ⟨_ | _, _⟩ <;> rfl

/-! ### `solve` with a file name (C54) -/

/-- **C54 fails.** Without an `aero_state`, `solve(filename=...)` never returns, for every plane and control state: if the
results can be computed it raises `UnboundLocalError`, and no file is written. -/
theorem C54_refuted {w : World B} (h : aeroGiven w = false) (f : String) :
    (∀ r w', muSolve ps w = (.ok r, w') → (muSolveFile ps (some f) w).1 = .error .unbound) ∧
    (∀ r, (muSolveFile ps (some f) w).1 ≠ .ok r) ∧ (muSolveFile ps (some f) w).2.files = w.files := by
  have hrun : muSolveFile ps (some f) w = (muSolve ps >>= fun _ => Act.raise .unbound) w := by
    unfold muSolveFile
    rw [get_bind, if_neg (by simp [h])]
  rw [hrun, bind_def]
  rcases hs : muSolve ps w with ⟨e | r, w'⟩
  · refine ⟨fun r w'' h => by simp at h, fun r h => by simp at h, muSolve_files hs⟩
  · refine ⟨fun _ _ _ => rfl, fun r h => by simp at h, muSolve_files hs⟩

/-- **C54, the part that holds.** With an `aero_state` the results are returned and written to the file, and the file holds
the totals that are returned.  Missing: calls without an `aero_state`, for which the claim is false. -/
theorem C54_given_partial {w w' : World B} {total : Loads} (h : aeroGiven w = true) (f : String)
    (hs : muSolve ps w = (.ok total, w')) :
    ∃ wing prop, muSolveFile ps (some f) w = (.ok total, { w' with files := w.files ++ [(f, .solve wing prop total)] }) := by
  have hfiles := muSolve_files hs
  unfold muSolve at hs
  rw [get_bind, if_pos h] at hs
  replace hs := bind_ok.1 hs
  obtain ⟨⟨wing, prop, total'⟩, w1, h1, hs⟩ := hs
  simp only [pure_run, Prod.mk.injEq, Except.ok.injEq] at hs
  obtain ⟨rfl, rfl⟩ := hs
  refine ⟨wing, prop, ?_⟩
  unfold muSolveFile
  rw [get_bind, if_pos h, bind_of_ok h1]
  simp only [writeFile]
  rw [bind_of_ok (change_run _ _), ← hfiles]
  rfl

example : (muSolveFile (B := flatB) none (some "out.json") { flatWorld with aero := none }).2.files = [] :=
  (C54_refuted rfl "out.json").2.2

end Verif
