import Verif.Lemmas.Lock
import Verif.Model.MUCalls

/-!
# What holds along every analysis

A relation between worlds that every elementary step respects is respected by every method of `MachUp`, whatever its outcome.
-/

namespace Verif
open V3 Act

variable {ι : Type} {B : Backend ι} {P : World B → World B → Prop} {ps : Option B.π} {α : Type}

/-- `P` is respected by every elementary step -/
structure Respected (P : World B → World B → Prop) : Prop where
  refl : ∀ w, P w w
  trans : ∀ w w' w'', P w w' → P w' w'' → P w w''
  aero : ∀ w a, P w { w with aero := a }
  ctrl : ∀ w c, P w { w with ctrl := c }
  objs : ∀ w l, P w { w with objs := w.objs ++ l }
  files : ∀ w l, P w { w with files := w.files ++ l }
  prop : ∀ w d ps, P w { w with st := (B.propSolve d ps w.st).2 }
  wing : ∀ w d c, P w { w with st := (B.wingSolve d c w.st).2 }
  bad : ∀ w, P w { w with st := (B.solveBad w.st).2 }

/-- `m` respects `P` -/
def Goes (P : World B → World B → Prop) (m : Act (World B) α) : Prop := ∀ w, P w (m w).2

namespace Goes

theorem bind' (hP : Respected P) {β : Type} {m : Act (World B) α} {f : α → Act (World B) β} (hm : Goes P m) (hf : ∀ a, Goes P (f a)) :
    Goes P (m >>= f) := by
  intro w
  have h1 := hm w
  rw [bind_def]
  rcases hq : m w with ⟨e | a, w'⟩ <;> rw [hq] at h1
  · exact h1
  · exact hP.trans _ _ _ h1 (hf a w')

theorem pure' (hP : Respected P) (a : α) : Goes P (pure a : Act (World B) α) := fun w => hP.refl w
theorem ret' (hP : Respected P) (a : α) : Goes P (Act.ret a : Act (World B) α) := fun w => hP.refl w
theorem raise' (hP : Respected P) (e : PyErr) : Goes P (Act.raise e : Act (World B) α) := fun w => hP.refl w
theorem get' (hP : Respected P) : Goes P (Act.get : Act (World B) (World B)) := fun w => hP.refl w

theorem ite' {p : Prop} [Decidable p] {m m' : Act (World B) α} (h1 : Goes P m) (h2 : Goes P m') :
    Goes P (if p then m else m') := by split_ifs; exacts [h1, h2]

theorem tryFinite' {m : Act (World B) α} (hm : Goes P m) : Goes P (tryFinite m) := by
  intro w
  have h1 := hm w
  unfold Act.tryFinite
  rcases hq : m w with ⟨e | a, w'⟩ <;> rw [hq] at h1
  · cases e <;> exact h1
  · exact h1

theorem setAero' (hP : Respected P) (f : AeroDict ι → AeroDict ι) : Goes P (setAero f : Act (World B) Unit) := by
  intro w
  unfold setAero
  rcases w.aero with _ | d
  · exact hP.refl w
  · exact hP.aero w _

theorem setCtrl' (hP : Respected P) (f : CtrlDict → CtrlDict) : Goes P (setCtrl f : Act (World B) Unit) := by
  intro w
  unfold setCtrl
  rcases w.ctrl with _ | d
  · exact hP.refl w
  · exact hP.ctrl w _

theorem getAero' (hP : Respected P) (f : AeroDict ι → α) : Goes P (getAero f : Act (World B) α) := by
  intro w
  unfold getAero
  rcases w.aero with _ | d <;> exact hP.refl w

theorem getCtrl' (hP : Respected P) (f : CtrlDict → α) : Goes P (getCtrl f : Act (World B) α) := by
  intro w
  unfold getCtrl
  rcases w.ctrl with _ | d <;> exact hP.refl w

theorem write' (hP : Respected P) (f : Option String) (doc : Doc ι) : Goes P (writeFile f doc : Act (World B) Unit) := by
  intro w
  cases f
  · exact hP.refl w
  · exact hP.files w _

theorem withAero' (hP : Respected P) (d : AeroDict ι) {m : Act (World B) α} (hm : Goes P m) : Goes P (withAero d m) := by
  intro w
  have h1 := hP.trans _ _ _ (hP.aero w (some d)) (hm { w with aero := some d })
  unfold withAero
  rcases hq : m { w with aero := some d } with ⟨e | a, w'⟩ <;> rw [hq] at h1 <;> exact hP.trans _ _ _ h1 (hP.aero w' w.aero)

theorem withCtrl' (hP : Respected P) (c : CtrlDict) {m : Act (World B) α} (hm : Goes P m) : Goes P (withCtrl c m) := fun w =>
  hP.trans _ _ _ (hP.trans _ _ _ (hP.ctrl w (some c)) (hm { w with ctrl := some c })) (hP.ctrl _ w.ctrl)

theorem needKey' (hP : Respected P) (o : Option α) : Goes P (needKey o : Act (World B) α) := by
  cases o
  · exact raise' hP _
  · exact ret' hP _

theorem orRaise' (hP : Respected P) (e : PyErr) (o : Option α) : Goes P (Act.orRaise e o : Act (World B) α) := by
  cases o
  · exact raise' hP _
  · exact ret' hP _

theorem parts (hP : Respected P) : Goes P (solveParts (B := B) ps) := by
  unfold solveParts
  refine bind' hP (getAero' hP _) fun d => bind' hP ?_ fun prop => bind' hP ?_ fun wing => bind' hP (fun w => hP.objs w _) fun _ => pure' hP _
  · unfold solveProps
    refine ite' (bind' hP (fun w => hP.prop w d ps) fun r => ?_) (pure' hP _)
    rcases r with ⟨r, _ | f⟩
    · exact bind' hP (ret' hP _) fun _ => pure' hP _
    · exact bind' hP (setAero' hP _) fun _ => pure' hP _
  · unfold solveWings
    exact ite' (bind' hP (get' hP) fun w0 => bind' hP (fun w => hP.wing w _ _) fun r => pure' hP _) (pure' hP _)

theorem solve (hP : Respected P) : Goes P (muSolve (B := B) ps) := by
  unfold muSolve
  exact bind' hP (get' hP) fun w => ite' (bind' hP (parts hP) fun _ => pure' hP _) (bind' hP (withAero' hP _ (parts hP)) fun _ => pure' hP _)

theorem solveFile (hP : Respected P) (f : Option String) : Goes P (muSolveFile (B := B) ps f) := by
  unfold muSolveFile
  refine bind' hP (get' hP) fun w => ite' (bind' hP (parts hP) fun _ => bind' hP (write' hP _ _) fun _ => pure' hP _) (bind' hP (solve hP) fun _ => ?_)
  cases f
  · exact pure' hP _
  · exact raise' hP _

theorem central' (hP : Respected P) {set : ℝ → Act (World B) Unit} (hs : ∀ x, Goes P (set x)) (x0 δ : ℝ) :
    Goes P (central ps set x0 δ) := by
  unfold central
  exact bind' hP (hs _) fun _ => bind' hP (solve hP) fun _ => bind' hP (hs _) fun _ => bind' hP (solve hP) fun _ => pure' hP _

theorem dyn (hP : Respected P) : Goes P (dynPressure : Act (World B) ℝ) := by
  unfold dynPressure
  exact ite' (getAero' hP _) (raise' hP _)

/-- one central difference -/
theorem diffAero (hP : Respected P) {β : Type} {f : AeroDict ι → ℝ} {set : ℝ → AeroDict ι → AeroDict ι} {δ : ℝ}
    {k : ℝ → Loads × Loads → Act (World B) β} (hk : ∀ x r, Goes P (k x r)) :
    Goes P (getAero f >>= fun a0 => central ps (fun x => setAero (set x)) a0 δ >>= fun r => k a0 r) :=
  bind' hP (getAero' hP _) fun _ => bind' hP (central' hP (fun _ => setAero' hP _) _ _) fun _ => hk _ _

theorem stabBody' (hP : Respected P) : Goes P (stabBody (B := B) ps) := by
  unfold stabBody
  refine bind' hP (dyn hP) fun DP => bind' hP (getAero' hP _) fun a0 => bind' hP (central' hP (fun _ => setAero' hP _) _ _) fun r => ?_
  refine bind' hP (setAero' hP _) fun _ => bind' hP (getAero' hP _) fun b0 => bind' hP (central' hP (fun _ => setAero' hP _) _ _) fun r' => ?_
  exact bind' hP (setAero' hP _) fun _ => pure' hP _

theorem dampBody' (hP : Respected P) : Goes P (dampBody (B := B) ps) := by
  unfold dampBody
  refine bind' hP (getAero' hP _) fun V => bind' hP (dyn hP) fun DP => ite' (raise' hP _) ?_
  refine bind' hP (getAero' hP _) fun a0 => bind' hP (central' hP (fun _ => setAero' hP _) _ _) fun r => bind' hP (setAero' hP _) fun _ => ?_
  refine bind' hP (getAero' hP _) fun a0 => bind' hP (central' hP (fun _ => setAero' hP _) _ _) fun r => bind' hP (setAero' hP _) fun _ => ?_
  refine bind' hP (getAero' hP _) fun a0 => bind' hP (central' hP (fun _ => setAero' hP _) _ _) fun r => bind' hP (setAero' hP _) fun _ => ?_
  exact pure' hP _

theorem contBody' (hP : Respected P) : Goes P (contBody (B := B) ps) := by
  unfold contBody
  refine bind' hP (dyn hP) fun DP => ?_
  refine bind' hP (getCtrl' hP _) fun a0 => bind' hP (central' hP (fun _ => setCtrl' hP _) _ _) fun r => bind' hP (setCtrl' hP _) fun _ => ?_
  refine bind' hP (getCtrl' hP _) fun a0 => bind' hP (central' hP (fun _ => setCtrl' hP _) _ _) fun r => bind' hP (setCtrl' hP _) fun _ => ?_
  refine bind' hP (getCtrl' hP _) fun a0 => bind' hP (central' hP (fun _ => setCtrl' hP _) _ _) fun r => bind' hP (setCtrl' hP _) fun _ => ?_
  refine bind' hP (getCtrl' hP _) fun a0 => bind' hP (central' hP (fun _ => setCtrl' hP _) _ _) fun r => bind' hP (setCtrl' hP _) fun _ => ?_
  exact pure' hP _

theorem stability (hP : Respected P) : Goes P (stabilityDerivatives (B := B) ps) := by
  unfold stabilityDerivatives
  exact bind' hP (get' hP) fun w => ite' (stabBody' hP) (bind' hP (withAero' hP _ (stabBody' hP)) fun _ => pure' hP _)

theorem damping (hP : Respected P) : Goes P (dampingDerivatives (B := B) ps) := by
  unfold dampingDerivatives
  exact bind' hP (get' hP) fun w => ite' (dampBody' hP) (bind' hP (withAero' hP _ (dampBody' hP)) fun _ => pure' hP _)

theorem control (hP : Respected P) : Goes P (controlDerivatives (B := B) ps) := by
  unfold controlDerivatives
  exact bind' hP (get' hP) fun w => ite' (contBody' hP) (withCtrl' hP _ (contBody' hP))

theorem all (hP : Respected P) (f : Option String) : Goes P (derivatives (B := B) ps f) := by
  unfold derivatives
  refine ite' (bind' hP (stability hP) fun s => bind' hP (control hP) fun c => bind' hP (damping hP) fun d =>
    bind' hP (write' hP _ _) fun _ => pure' hP _) ?_
  cases f
  · exact raise' hP _
  · exact bind' hP (write' hP _ _) fun _ => pure' hP _

theorem stallLoop' (hP : Respected P) : ∀ (n : ℕ) (a : ℝ), Goes P (stallLoop (B := B) ps n a) := by
  intro n
  induction n with
  | zero => intro a; exact ret' hP _
  | succ n ih =>
    intro a
    unfold stallLoop
    refine bind' hP (setAero' hP _) fun _ => bind' hP (tryFinite' (solve hP)) fun r => bind' hP (get' hP) fun w => ?_
    rcases B.stallLoc w.st with _ | s
    · exact ih _
    · rcases r with _ | r
      · exact raise' hP _
      · exact pure' hP _

theorem onset (hP : Respected P) (n : ℕ) : Goes P (stallOnset (B := B) ps n) := by
  unfold stallOnset
  exact bind' hP (get' hP) fun w => ite' (stallLoop' hP _ _) (bind' hP (withAero' hP _ (stallLoop' hP _ _)) fun _ => pure' hP _)

theorem onsetFile (hP : Respected P) (f : Option String) (n : ℕ) : Goes P (stallOnsetFile (B := B) ps f n) := by
  unfold stallOnsetFile
  refine ite' (bind' hP (onset hP n) fun r => ?_) ?_
  · cases r
    · exact pure' hP _
    · exact bind' hP (write' hP _ _) fun _ => pure' hP _
  · cases f
    · exact raise' hP _
    · exact bind' hP (write' hP _ _) fun _ => pure' hP _

theorem airspeedLoop' (hP : Respected P) (W e : ℝ) (k : ℕ) : ∀ (n : ℕ) (x0 y0 x1 y1 : ℝ) (s : StallResult) (d : AeroDict ι),
    Goes P (airspeedLoop (B := B) ps W e k n x0 y0 x1 y1 s d) := by
  intro n
  induction n with
  | zero => intro x0 y0 x1 y1 s d; exact ret' hP _
  | succ n ih =>
    intro x0 y0 x1 y1 s d
    unfold airspeedLoop
    refine ite' (raise' hP _) (ite' (pure' hP _) (bind' hP (withAero' hP _ (onset hP k)) fun r => ?_))
    rcases r with ⟨_ | s2, d'⟩
    · exact pure' hP _
    · exact ih _ _ _ _ _ _

theorem airspeed (hP : Respected P) (W e : ℝ) (f : Option String) (n k : ℕ) : Goes P (stallAirspeed (B := B) ps W e f n k) := by
  unfold stallAirspeed
  refine ite' (bind' hP (get' hP) fun w => ite' (bind' hP ?_ fun r => ?_) (raise' hP _)) ?_
  · unfold airspeedBody
    refine bind' hP (getAero' hP _) fun d => bind' hP (needKey' hP _) fun x0 => ?_
    refine bind' hP (withAero' hP _ (onset hP k)) fun r => bind' hP (withAero' hP _ (onset hP k)) fun r' => ?_
    rcases r with ⟨_ | s0, d0⟩ <;> rcases r' with ⟨_ | s1, d1⟩
    · exact pure' hP _
    · exact pure' hP _
    · exact pure' hP _
    · exact airspeedLoop' hP _ _ _ _ _ _ _ _ _ _
  · rcases r with _ | ⟨s, v⟩
    · exact pure' hP _
    · exact bind' hP (write' hP _ _) fun _ => pure' hP _
  · cases f
    · exact raise' hP _
    · exact bind' hP (write' hP _ _) fun _ => pure' hP _

theorem liftAt' (hP : Respected P) (d : AeroDict ι) (x : Option ℝ) : Goes P (liftAt (B := B) ps d x) := by
  cases x
  · exact bind' hP (fun w => hP.bad w) fun r => pure' hP _
  · exact bind' hP (withAero' hP _ (tryFinite' (solve hP))) fun r => pure' hP _

theorem targetLoop' (hP : Respected P) (L e : ℝ) : ∀ (n : ℕ) (x0 y0 x1 y1 : Option ℝ) (d : AeroDict ι),
    Goes P (targetLoop (B := B) ps L e n x0 y0 x1 y1 d) := by
  intro n
  induction n with
  | zero => intro x0 y0 x1 y1 d; exact ret' hP _
  | succ n ih =>
    intro x0 y0 x1 y1 d
    unfold targetLoop
    exact ite' (pure' hP _) (bind' hP (liftAt' hP _ _) fun r => ite' (pure' hP _) (ih _ _ _ _ _))

theorem targetBody' (hP : Respected P) (L e : ℝ) : Goes P (targetBody (B := B) ps L e) := by
  unfold targetBody
  exact bind' hP (getAero' hP _) fun d => bind' hP (needKey' hP _) fun x0 => bind' hP (liftAt' hP _ _) fun r =>
    bind' hP (liftAt' hP _ _) fun r' => targetLoop' hP _ _ _ _ _ _ _ _

theorem target (hP : Respected P) (L e : ℝ) (f : Option String) : Goes P (targetLift (B := B) ps L e f) := by
  unfold targetLift
  refine bind' hP (get' hP) fun w => ite' (bind' hP (targetBody' hP _ _) fun r => ?_) (bind' hP (withAero' hP _ (targetBody' hP _ _)) fun r => ?_)
  · cases r
    · cases f
      · exact raise' hP _
      · exact bind' hP (write' hP _ _) fun _ => pure' hP _
    · exact bind' hP (write' hP _ _) fun _ => pure' hP _
  · rcases r with ⟨_ | a, d⟩
    · exact raise' hP _
    · exact bind' hP (write' hP _ _) fun _ => pure' hP _

theorem slopes' (hP : Respected P) (f : Loads → ℝ) : Goes P (slopes (B := B) ps f) := by
  unfold slopes
  refine bind' hP (getAero' hP _) fun a0 => bind' hP (central' hP (fun _ => setAero' hP _) _ _) fun r => bind' hP (setAero' hP _) fun _ => ?_
  exact bind' hP (getCtrl' hP _) fun a0 => bind' hP (central' hP (fun _ => setCtrl' hP _) _ _) fun r => bind' hP (setCtrl' hP _) fun _ => pure' hP _

theorem trimLoop' (hP : Respected P) (L M e : ℝ) (f : Option String) : ∀ (n : ℕ) (a de : ℝ),
    Goes P (trimLoop (B := B) ps L M e f n a de) := by
  intro n
  induction n with
  | zero => intro a de; exact ret' hP _
  | succ n ih =>
    intro a de
    unfold trimLoop
    refine bind' hP (setAero' hP _) fun _ => bind' hP (setCtrl' hP _) fun _ => bind' hP (solve hP) fun cur => ?_
    refine ite' (bind' hP (write' hP _ _) fun _ => pure' hP _) (bind' hP (slopes' hP _) fun s1 => bind' hP (slopes' hP _) fun s2 => ?_)
    refine ite' ?_ (ite' (raise' hP _) (ite' ?_ (ih _ _)))
    · cases f
      · exact raise' hP _
      · exact bind' hP (write' hP _ _) fun _ => pure' hP _
    · cases f
      · exact raise' hP _
      · exact bind' hP (write' hP _ _) fun _ => pure' hP _

theorem trim (hP : Respected P) (L M e : ℝ) (f : Option String) : Goes P (pitchTrim (B := B) ps L M e f) := by
  unfold pitchTrim
  refine bind' hP (get' hP) fun w => ite' (ite' (trimLoop' hP _ _ _ _ _ _ _) (withCtrl' hP _ (trimLoop' hP _ _ _ _ _ _ _))) (ite' ?_ ?_)
  · exact bind' hP (withAero' hP _ (trimLoop' hP _ _ _ _ _ _ _)) fun _ => pure' hP _
  · exact bind' hP (withAero' hP _ (withCtrl' hP _ (trimLoop' hP _ _ _ _ _ _ _))) fun _ => pure' hP _

theorem sweep (hP : Respected P) : ∀ l : List ℝ, Goes P (acSweep (B := B) ps l) := by
  intro l
  induction l with
  | nil => exact pure' hP _
  | cons x l ih =>
    unfold acSweep
    exact bind' hP (setAero' hP _) fun _ => bind' hP (solve hP) fun r => bind' hP ih fun rs => pure' hP _

theorem center (hP : Respected P) (cg : V3) (f : Option String) : Goes P (findAeroCenter (B := B) ps cg f) := by
  have hb : Goes P (acBody (B := B) ps cg) := by
    unfold acBody
    refine bind' hP (getAero' hP _) fun ao => bind' hP (dyn hP) fun DP => bind' hP (sweep hP _) fun rows => ite' (raise' hP _) ?_
    exact bind' hP (orRaise' hP _ _) fun _ => bind' hP (orRaise' hP _ _) fun _ => bind' hP (orRaise' hP _ _) fun _ =>
      bind' hP (orRaise' hP _ _) fun _ => orRaise' hP _ _
  unfold findAeroCenter
  exact bind' hP (get' hP) fun w => ite' (bind' hP hb fun r => bind' hP (write' hP _ _) fun _ => pure' hP _)
    (bind' hP (withAero' hP _ hb) fun r => bind' hP (write' hP _ _) fun _ => pure' hP _)

/-- every method -/
theorem any (hP : Respected P) (cg : V3) (a : Analysis) : Goes P (perform (B := B) ps cg a) := by
  cases a
  case solve f => exact bind' hP (solveFile hP f) fun _ => pure' hP _
  case stability => exact bind' hP (stability hP) fun _ => pure' hP _
  case damping => exact bind' hP (damping hP) fun _ => pure' hP _
  case control => exact bind' hP (control hP) fun _ => pure' hP _
  case derivatives f => exact bind' hP (all hP f) fun _ => pure' hP _
  case stallOnset f n => exact bind' hP (onsetFile hP f n) fun _ => pure' hP _
  case stallAirspeed W e f n k => exact bind' hP (airspeed hP W e f n k) fun _ => pure' hP _
  case targetLift L e f => exact bind' hP (target hP L e f) fun _ => pure' hP _
  case pitchTrim L M e f => exact bind' hP (trim hP L M e f) fun _ => pure' hP _
  case aeroCenter f => exact bind' hP (center hP cg f) fun _ => pure' hP _

/-- every history -/
theorem history (hP : Respected P) (cg : V3) (h : List (AnyCall B)) : ∀ w, P w (afterCalls cg w h) := by
  induction h with
  | nil => intro w; exact hP.refl w
  | cons c t ih =>
    intro w
    have h1 : P w (c.run cg w).2 := hP.trans _ _ _ (hP.trans _ _ _ (hP.aero w c.aero) (hP.ctrl _ c.ctrl)) (any hP cg c.what _)
    exact hP.trans _ _ _ h1 (ih _)

end Goes
end Verif
