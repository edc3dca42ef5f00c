import Verif.Lemmas.Imitate
import Verif.Thm.PropReads
import Verif.Model.Session

/-!
# Calls that succeed, repeated in another process

`Again R m`: if `m` succeeds in a state, it succeeds in every state related to it by `R`, with the same value, and the states
afterwards are related again.
-/

namespace Verif
open V3 Act

/-- see the head of the file -/
def Again {S α : Type} (R : S → S → Prop) (m : Act S α) : Prop :=
  ∀ s s', R s s' → ∀ a s1, m s = (.ok a, s1) → ∃ s1', m s' = (.ok a, s1') ∧ R s1 s1'

namespace Again

section
variable {S α β : Type} {R : S → S → Prop}

theorem bind {m : Act S α} {f : α → Act S β} (hm : Again R m) (hf : ∀ a, Again R (f a)) : Again R (m >>= f) := by
  intro s s' hs b s1 e
  obtain ⟨a, s2, e1, e2⟩ := bind_ok.1 e
  obtain ⟨s2', f1, f2⟩ := hm s s' hs a s2 e1
  obtain ⟨s1', g1, g2⟩ := hf a s2 s2' f2 b s1 e2
  exact ⟨s1', bind_ok.2 ⟨a, s2', f1, g1⟩, g2⟩

theorem pure (a : α) : Again R (pure a : Act S α) := by
  intro s s' hs b s1 e
  cases e
  exact ⟨s', rfl, hs⟩

theorem ret (a : α) : Again R (ret a : Act S α) := by
  intro s s' hs b s1 e
  cases e
  exact ⟨s', rfl, hs⟩

theorem raise (x : PyErr) : Again R (raise x : Act S α) := by
  intro s s' hs b s1 e
  cases e

theorem ite {p : Prop} [Decidable p] {m1 m2 : Act S β} (h1 : Again R m1) (h2 : Again R m2) : Again R (if p then m1 else m2) := by
  split_ifs
  · exact h1
  · exact h2

end

variable {ι : Type} {B : Backend ι} {R : B.σ → B.σ → Prop} {ps : Option B.π} {α β : Type}

local notation "A" => Alongside (B := B) (B' := B) R

theorem setAero' (f : AeroDict ι → AeroDict ι) : Again A (setAero f) := by
  rintro ⟨st, a, c, o, F⟩ ⟨st', a', c', o', F'⟩ ⟨h1, h2, h3, h4⟩ x s1 e
  have h1 : a' = a := h1
  subst h1
  cases a' with
  | none => cases e
  | some d => cases e; exact ⟨_, rfl, rfl, h2, h3, h4⟩

theorem setCtrl' (f : CtrlDict → CtrlDict) : Again A (setCtrl f) := by
  rintro ⟨st, a, c, o, F⟩ ⟨st', a', c', o', F'⟩ ⟨h1, h2, h3, h4⟩ x s1 e
  have h2 : c' = c := h2
  subst h2
  cases c' with
  | none => cases e
  | some d => cases e; exact ⟨_, rfl, h1, rfl, h3, h4⟩

theorem getAero' (f : AeroDict ι → α) : Again A (getAero f) := by
  rintro ⟨st, a, c, o, F⟩ ⟨st', a', c', o', F'⟩ ⟨h1, h2, h3, h4⟩ x s1 e
  have h1 : a' = a := h1
  subst h1
  cases a' with
  | none => cases e
  | some d => cases e; exact ⟨_, rfl, rfl, h2, h3, h4⟩

theorem getCtrl' (f : CtrlDict → α) : Again A (getCtrl f) := by
  rintro ⟨st, a, c, o, F⟩ ⟨st', a', c', o', F'⟩ ⟨h1, h2, h3, h4⟩ x s1 e
  have h2 : c' = c := h2
  subst h2
  cases c' with
  | none => cases e
  | some d => cases e; exact ⟨_, rfl, h1, rfl, h3, h4⟩

theorem write (f : Option String) (doc : Doc ι) : Again A (writeFile f doc) := by
  intro w w' h x s1 e
  rcases f with _ | f
  · cases e; exact ⟨_, rfl, h⟩
  · cases e
    refine ⟨_, rfl, h.aero, h.ctrl, ?_, h.st⟩
    show w'.files ++ _ = w.files ++ _
    rw [h.files]

theorem withAero' (d : AeroDict ι) {m : Act (World B) α} (hm : Again A m) : Again A (withAero d m) := by
  intro w w' h x s1 e
  have hk : A { w with aero := some d } { w' with aero := some d } := ⟨rfl, h.ctrl, h.files, h.st⟩
  unfold withAero at e ⊢
  rcases hq : m { w with aero := some d } with ⟨er | a, w1⟩
  · rw [hq] at e; cases e
  · rw [hq] at e
    obtain ⟨w1', k1, k2⟩ := hm _ _ hk _ _ hq
    rw [k1]
    cases e
    refine ⟨{ w1' with aero := w'.aero }, ?_, h.aero, k2.ctrl, k2.files, k2.st⟩
    simp only [k2.aero]

theorem withCtrl' (c : CtrlDict) {m : Act (World B) α} (hm : Again A m) : Again A (withCtrl c m) := by
  intro w w' h x s1 e
  have hk : A { w with ctrl := some c } { w' with ctrl := some c } := ⟨h.aero, rfl, h.files, h.st⟩
  unfold withCtrl at e ⊢
  rcases hq : m { w with ctrl := some c } with ⟨er | a, w1⟩
  · rw [hq] at e; cases e
  · rw [hq] at e
    obtain ⟨w1', k1, k2⟩ := hm _ _ hk _ _ hq
    rw [k1]
    cases e
    exact ⟨_, rfl, k2.aero, h.ctrl, k2.files, k2.st⟩

theorem onSolver' {m : Act B.σ α} (hm : Again R m) : Again A (onSolver (B := B) m) := by
  intro w w' h x s1 e
  unfold onSolver at e ⊢
  rcases hq : m w.st with ⟨er | a, w1⟩
  · rw [hq] at e; cases e
  · rw [hq] at e
    obtain ⟨w1', k1, k2⟩ := hm _ _ h.st _ _ hq
    rw [k1]
    cases e
    exact ⟨_, rfl, h.aero, h.ctrl, h.files, k2⟩

theorem get' {γ : Type} {o : World B → γ} {f : γ → Act (World B) β} (ho : ∀ w w', A w w' → o w' = o w) (hf : ∀ g, Again A (f g)) :
    Again A (get >>= fun w => f (o w)) := by
  intro w w' h x s1 e
  rw [get_bind] at e ⊢
  rw [ho w w' h]
  exact hf _ w w' h x s1 e

theorem orRaise' (e : PyErr) (o : Option α) : Again A (Act.orRaise e o) := by
  cases o
  · exact raise _
  · exact ret _

theorem aeroGiven' : ∀ w w' : World B, A w w' → aeroGiven w' = aeroGiven w := fun _ _ h => by unfold aeroGiven; rw [h.aero]
theorem ctrlGiven' : ∀ w w' : World B, A w w' → ctrlGiven w' = ctrlGiven w := fun _ _ h => by unfold ctrlGiven; rw [h.ctrl]

/-- the solvers do the same again -/
structure Solvers (B : Backend ι) (R : B.σ → B.σ → Prop) (ps : Option B.π) : Prop where
  propSolve : ∀ d, Again R (B.propSolve d ps)
  wingSolve : ∀ d c, Again R (B.wingSolve d c)

theorem solveProps' (hF : Solvers B R ps) (d : AeroDict ι) : Again A (solveProps (B := B) ps d) := by
  unfold solveProps
  refine ite (bind (onSolver' (hF.propSolve d)) fun r => ?_) (pure _)
  rcases r with ⟨r, _ | f⟩
  · exact bind (ret _) fun _ => pure _
  · exact bind (setAero' _) fun _ => pure _

theorem solveWings' (hF : Solvers B R ps) : Again A (solveWings (B := B)) := by
  unfold solveWings
  refine ite ?_ (pure _)
  intro w w' h x s1 e
  rw [get_bind] at e ⊢
  rw [h.aero, h.ctrl]
  exact bind (onSolver' (hF.wingSolve _ _)) (fun r => pure _) w w' h x s1 e

theorem parts (hF : Solvers B R ps) : Again A (solveParts (B := B) ps) := by
  unfold solveParts
  refine bind (getAero' _) fun d => bind (solveProps' hF _) fun p => bind (solveWings' hF) fun w => bind ?_ fun _ => pure _
  intro w w' h x s1 e
  cases e
  exact ⟨_, rfl, h.aero, h.ctrl, h.files, h.st⟩

theorem solve (hF : Solvers B R ps) : Again A (muSolve (B := B) ps) := by
  unfold muSolve
  refine get' (o := aeroGiven) (f := fun b => if b = true then _ else _) aeroGiven' fun b => ?_
  exact ite (bind (parts hF) fun r => pure _) (bind (withAero' _ (parts hF)) fun _ => pure _)

theorem solveFile (hF : Solvers B R ps) (f : Option String) : Again A (muSolveFile (B := B) ps f) := by
  unfold muSolveFile
  refine get' (o := aeroGiven) (f := fun b => if b = true then _ else _) aeroGiven' fun b => ?_
  refine ite (bind (parts hF) fun r => bind (write _ _) fun _ => pure _) (bind (solve hF) fun r => ?_)
  cases f
  · exact pure _
  · exact raise _

theorem central' (hF : Solvers B R ps) {set : ℝ → Act (World B) Unit} (hs : ∀ x, Again A (set x)) (x0 δ : ℝ) : Again A (central ps set x0 δ) := by
  unfold central
  exact bind (hs _) fun _ => bind (solve hF) fun b => bind (hs _) fun _ => bind (solve hF) fun f => pure _

theorem dyn : Again A (dynPressure (B := B)) := by
  unfold dynPressure
  exact ite (getAero' _) (raise _)

theorem stabBody' (hF : Solvers B R ps) : Again A (stabBody (B := B) ps) := by
  unfold stabBody
  refine bind dyn fun DP => bind (getAero' _) fun a0 =>
    bind (central' hF (fun x => setAero' _) _ _) fun r => bind (setAero' _) fun _ => ?_
  exact bind (getAero' _) fun b0 =>
    bind (central' hF (fun x => setAero' _) _ _) fun r' => bind (setAero' _) fun _ => pure _

theorem dampBody' (hF : Solvers B R ps) : Again A (dampBody (B := B) ps) := by
  unfold dampBody
  refine bind (getAero' _) fun V => bind dyn fun DP => ite (raise _) ?_
  refine bind (getAero' _) fun p0 => bind (central' hF (fun x => setAero' _) _ _) fun r => bind (setAero' _) fun _ => ?_
  refine bind (getAero' _) fun p0 => bind (central' hF (fun x => setAero' _) _ _) fun r => bind (setAero' _) fun _ => ?_
  refine bind (getAero' _) fun p0 => bind (central' hF (fun x => setAero' _) _ _) fun r => bind (setAero' _) fun _ => ?_
  exact pure _

theorem contBody' (hF : Solvers B R ps) : Again A (contBody (B := B) ps) := by
  unfold contBody
  refine bind dyn fun DP => ?_
  refine bind (getCtrl' _) fun x => bind (central' hF (fun x => setCtrl' _) _ _) fun r => bind (setCtrl' _) fun _ => ?_
  refine bind (getCtrl' _) fun x => bind (central' hF (fun x => setCtrl' _) _ _) fun r => bind (setCtrl' _) fun _ => ?_
  refine bind (getCtrl' _) fun x => bind (central' hF (fun x => setCtrl' _) _ _) fun r => bind (setCtrl' _) fun _ => ?_
  refine bind (getCtrl' _) fun x => bind (central' hF (fun x => setCtrl' _) _ _) fun r => bind (setCtrl' _) fun _ => ?_
  exact pure _

theorem stability (hF : Solvers B R ps) : Again A (stabilityDerivatives (B := B) ps) := by
  unfold stabilityDerivatives
  refine get' (o := aeroGiven) (f := fun b => if b = true then stabBody ps else _) aeroGiven' fun b => ?_
  exact ite (stabBody' hF) (bind (withAero' _ (stabBody' hF)) fun _ => pure _)

theorem damping (hF : Solvers B R ps) : Again A (dampingDerivatives (B := B) ps) := by
  unfold dampingDerivatives
  refine get' (o := aeroGiven) (f := fun b => if b = true then dampBody ps else _) aeroGiven' fun b => ?_
  exact ite (dampBody' hF) (bind (withAero' _ (dampBody' hF)) fun _ => pure _)

theorem control (hF : Solvers B R ps) : Again A (controlDerivatives (B := B) ps) := by
  unfold controlDerivatives
  refine get' (o := ctrlGiven) (f := fun b => if b = true then contBody ps else _) ctrlGiven' fun b => ?_
  exact ite (contBody' hF) (withCtrl' _ (contBody' hF))

theorem all (hF : Solvers B R ps) (f : Option String) : Again A (derivatives (B := B) ps f) := by
  unfold derivatives
  refine ite (bind (stability hF) fun s => bind (control hF) fun c => bind (damping hF) fun d => bind (write _ _) fun _ => pure _) ?_
  cases f
  · exact raise _
  · exact bind (write _ _) fun _ => pure _

theorem slopes' (hF : Solvers B R ps) (f : Loads → ℝ) : Again A (slopes (B := B) ps f) := by
  unfold slopes
  refine bind (getAero' _) fun a0 => bind (central' hF (fun x => setAero' _) _ _) fun r => bind (setAero' _) fun _ => ?_
  exact bind (getCtrl' _) fun x => bind (central' hF (fun x => setCtrl' _) _ _) fun r => bind (setCtrl' _) fun _ => pure _

theorem trimLoop' (hF : Solvers B R ps) (L M e : ℝ) (f : Option String) : ∀ (n : ℕ) (a de : ℝ), Again A (trimLoop (B := B) ps L M e f n a de) := by
  intro n
  induction n with
  | zero => intro a de; exact ret _
  | succ n ih =>
    intro a de
    unfold trimLoop
    refine bind (setAero' _) fun _ => bind (setCtrl' _) fun _ => bind (solve hF) fun cur => ?_
    refine ite (bind (write _ _) fun _ => pure _) (bind (slopes' hF _) fun s1 => bind (slopes' hF _) fun s2 => ?_)
    refine ite ?_ (ite (raise _) (ite ?_ (ih _ _)))
    · cases f
      · exact raise _
      · exact bind (write _ _) fun _ => pure _
    · cases f
      · exact raise _
      · exact bind (write _ _) fun _ => pure _

theorem trim (hF : Solvers B R ps) (L M e : ℝ) (f : Option String) : Again A (pitchTrim (B := B) ps L M e f) := by
  unfold pitchTrim
  intro w w' h x s1 er
  have ha := aeroGiven' w w' h
  have hc := ctrlGiven' w w' h
  rw [get_bind] at er ⊢
  rw [ha, hc]
  exact (ite (ite (trimLoop' hF _ _ _ _ _ _ _) (withCtrl' _ (trimLoop' hF _ _ _ _ _ _ _)))
    (ite (bind (withAero' _ (trimLoop' hF _ _ _ _ _ _ _)) fun _ => pure _)
      (bind (withAero' _ (withCtrl' _ (trimLoop' hF _ _ _ _ _ _ _))) fun _ => pure _)) : Again A _) w w' h x s1 er

theorem sweep (hF : Solvers B R ps) : ∀ l : List ℝ, Again A (acSweep (B := B) ps l) := by
  intro l
  induction l with
  | nil => exact pure _
  | cons x l ih =>
    unfold acSweep
    exact bind (setAero' _) fun _ => bind (solve hF) fun r => bind ih fun rs => pure _

theorem acBody' (hF : Solvers B R ps) (cg : V3) : Again A (acBody (B := B) ps cg) := by
  unfold acBody
  refine bind (getAero' _) fun ao => bind dyn fun DP => bind (sweep hF _) fun rows => ite (raise _) ?_
  exact bind (orRaise' _ _) fun _ => bind (orRaise' _ _) fun _ => bind (orRaise' _ _) fun _ => bind (orRaise' _ _) fun _ => orRaise' _ _

theorem center (hF : Solvers B R ps) (cg : V3) (f : Option String) : Again A (findAeroCenter (B := B) ps cg f) := by
  unfold findAeroCenter
  refine get' (o := aeroGiven) (f := fun b => if b = true then _ else _) aeroGiven' fun b => ?_
  exact ite (bind (acBody' hF cg) fun r => bind (write _ _) fun _ => pure _)
    (bind (withAero' _ (acBody' hF cg)) fun _ => bind (write _ _) fun _ => pure _)

end Again
end Verif
