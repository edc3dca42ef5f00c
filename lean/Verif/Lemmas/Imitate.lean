import Verif.Lemmas.Lock
import Verif.Lemmas.Memory

/-!
# Two objects that do the same, in lockstep

`Imitates B B' R ps ps'`: in states related by `R` the solvers of `B` (with the propeller state `ps`) and `B'` (with `ps'`) do the same.
Then so do all methods, including the exceptions they raise and the files they write.
-/

namespace Verif
open V3 Act

variable {ι : Type} {B B' : Backend ι} {R : B.σ → B'.σ → Prop} {ps : Option B.π} {ps' : Option B'.π} {α : Type}

/-- see the head of the file -/
structure Imitates (B B' : Backend ι) (R : B.σ → B'.σ → Prop) (ps : Option B.π) (ps' : Option B'.π) : Prop where
  wings : B'.hasWings = B.hasWings
  props : B'.hasProps = B.hasProps
  Sw : B'.Sw = B.Sw
  lat : B'.lat = B.lat
  long : B'.long = B.long
  propSolve : ∀ d, Lock R Same (B.propSolve d ps) (B'.propSolve d ps')
  wingSolve : ∀ d c, Lock R Same (B.wingSolve d c) (B'.wingSolve d c)
  stall : ∀ s s', R s s' → B'.stallLoc s' = B.stallLoc s
  bad : Lock R Same B.solveBad B'.solveBad

/-- the same dictionaries and files, solver objects related by `R` -/
structure Alongside (R : B.σ → B'.σ → Prop) (w : World B) (w' : World B') : Prop where
  aero : w'.aero = w.aero
  ctrl : w'.ctrl = w.ctrl
  files : w'.files = w.files
  st : R w.st w'.st

namespace Imitates

theorem derivs (hF : Imitates B B' R ps ps') : derivOf B' = derivOf B := by
  funext a b k
  unfold derivOf
  rw [hF.lat, hF.long]

theorem setAero' (f : AeroDict ι → AeroDict ι) : Lock (Alongside (B := B) (B' := B') R) Same (setAero f) (setAero f) := by
  rintro ⟨st, a, c, o, F⟩ ⟨st', a', c', o', F'⟩ ⟨h1, h2, h3, h4⟩
  have h1 : a' = a := h1
  subst h1
  cases a' with
  | none => exact ⟨rfl, rfl, h2, h3, h4⟩
  | some d => exact ⟨rfl, rfl, h2, h3, h4⟩

theorem setCtrl' (f : CtrlDict → CtrlDict) : Lock (Alongside (B := B) (B' := B') R) Same (setCtrl f) (setCtrl f) := by
  rintro ⟨st, a, c, o, F⟩ ⟨st', a', c', o', F'⟩ ⟨h1, h2, h3, h4⟩
  have h2 : c' = c := h2
  subst h2
  cases c' with
  | none => exact ⟨rfl, h1, rfl, h3, h4⟩
  | some d => exact ⟨rfl, h1, rfl, h3, h4⟩

theorem getAero' (f : AeroDict ι → α) : Lock (Alongside (B := B) (B' := B') R) Same (getAero f) (getAero f) := by
  rintro ⟨st, a, c, o, F⟩ ⟨st', a', c', o', F'⟩ ⟨h1, h2, h3, h4⟩
  have h1 : a' = a := h1
  subst h1
  cases a' <;> exact ⟨rfl, rfl, h2, h3, h4⟩

theorem getCtrl' (f : CtrlDict → α) : Lock (Alongside (B := B) (B' := B') R) Same (getCtrl f) (getCtrl f) := by
  rintro ⟨st, a, c, o, F⟩ ⟨st', a', c', o', F'⟩ ⟨h1, h2, h3, h4⟩
  have h2 : c' = c := h2
  subst h2
  cases c' <;> exact ⟨rfl, h1, rfl, h3, h4⟩

theorem write (f : Option String) (doc : Doc ι) : Lock (Alongside (B := B) (B' := B') R) Same (writeFile f doc) (writeFile f doc) := by
  intro w w' h
  rcases f with _ | f
  · exact ⟨rfl, h⟩
  · refine ⟨rfl, h.aero, h.ctrl, ?_, h.st⟩
    show w'.files ++ _ = w.files ++ _
    rw [h.files]

theorem withAero' (d : AeroDict ι) {m : Act (World B) α} {m' : Act (World B') α} (hm : Lock (Alongside R) Same m m') :
    Lock (Alongside R) Same (withAero d m) (withAero d m') := by
  intro w w' h
  have hk : Alongside R { w with aero := some d } { w' with aero := some d } := ⟨rfl, h.ctrl, h.files, h.st⟩
  obtain ⟨h1, h2⟩ := hm _ _ hk
  unfold withAero
  rcases hq : m { w with aero := some d } with ⟨e | a, w1⟩ <;> rcases hq' : m' { w' with aero := some d } with ⟨e' | a', w1'⟩ <;>
    rw [hq, hq'] at h1 h2
  · exact ⟨h1, h.aero, h2.ctrl, h2.files, h2.st⟩
  · exact h1.elim
  · exact h1.elim
  · refine ⟨?_, h.aero, h2.ctrl, h2.files, h2.st⟩
    have h1 : a' = a := h1
    show (a', w1'.aero.getD d) = (a, w1.aero.getD d)
    rw [h1, h2.aero]

theorem withCtrl' (c : CtrlDict) {m : Act (World B) α} {m' : Act (World B') α} (hm : Lock (Alongside R) Same m m') :
    Lock (Alongside R) Same (withCtrl c m) (withCtrl c m') := by
  intro w w' h
  have hk : Alongside R { w with ctrl := some c } { w' with ctrl := some c } := ⟨h.aero, rfl, h.files, h.st⟩
  obtain ⟨h1, h2⟩ := hm _ _ hk
  exact ⟨h1, h2.aero, h.ctrl, h2.files, h2.st⟩

theorem onSolver' {m : Act B.σ α} {m' : Act B'.σ α} (hm : Lock R Same m m') : Lock (Alongside R) Same (onSolver (B := B) m) (onSolver m') := by
  intro w w' h
  obtain ⟨h1, h2⟩ := hm _ _ h.st
  exact ⟨h1, h.aero, h.ctrl, h.files, h2⟩

theorem bind' {β : Type} {m : Act (World B) α} {m' : Act (World B') α} {f : α → Act (World B) β} {f' : α → Act (World B') β} (hm : Lock (Alongside R) Same m m')
    (hf : ∀ a, Lock (Alongside R) Same (f a) (f' a)) : Lock (Alongside R) Same (m >>= f) (m' >>= f') :=
  hm.bind fun a a' h => by
    have h : a' = a := h
    subst h
    exact hf a'

theorem pure' (a : α) : Lock (Alongside (B := B) (B' := B') R) Same (pure a : Act (World B) α) (pure a : Act (World B') α) := Lock.pure rfl

theorem get' {β γ : Type} {o : World B → γ} {o' : World B' → γ} {f : γ → Act (World B) β} {f' : γ → Act (World B') β}
    (ho : ∀ w w', Alongside R w w' → o' w' = o w) (hf : ∀ g, Lock (Alongside R) Same (f g) (f' g)) :
    Lock (Alongside R) Same (get >>= fun w => f (o w)) (get >>= fun w => f' (o' w)) :=
  Lock.get.bind fun a a' h => by rw [ho a a' h]; exact hf _

theorem ite' {β γ : Type} {P : β → γ → Prop} {p : Prop} [Decidable p] {m1 m2 : Act (World B) β} {m1' m2' : Act (World B') γ}
    (h1 : Lock (Alongside R) P m1 m1') (h2 : Lock (Alongside R) P m2 m2') :
    Lock (Alongside R) P (if p then m1 else m2) (if p then m1' else m2') := by
  split_ifs
  · exact h1
  · exact h2

theorem tryFinite' {m : Act (World B) α} {m' : Act (World B') α} (hm : Lock (Alongside R) Same m m') :
    Lock (Alongside R) Same (tryFinite m) (tryFinite m') :=
  hm.tryFinite.mono fun a b h => by
    cases h with
    | some h => exact congrArg some h
    | none => rfl

theorem orRaise' (e : PyErr) (o : Option α) : Lock (Alongside (B := B) (B' := B') R) Same (Act.orRaise e o) (Act.orRaise e o) := by
  cases o
  · exact Lock.raise _
  · exact Lock.ret rfl

theorem needKey' (o : Option α) : Lock (Alongside (B := B) (B' := B') R) Same (needKey o) (needKey o) := by
  cases o
  · exact Lock.raise _
  · exact Lock.ret rfl

theorem aeroGiven' : ∀ (w : World B) (w' : World B'), Alongside R w w' → aeroGiven w' = aeroGiven w := fun _ _ h => by unfold aeroGiven; rw [h.aero]
theorem ctrlGiven' : ∀ (w : World B) (w' : World B'), Alongside R w w' → ctrlGiven w' = ctrlGiven w := fun _ _ h => by unfold ctrlGiven; rw [h.ctrl]

theorem solveProps' (hF : Imitates B B' R ps ps') (d : AeroDict ι) : Lock (Alongside R) Same (solveProps (B := B) ps d) (solveProps (B := B') ps' d) := by
  unfold solveProps
  rw [hF.props]
  refine ite' (bind' (onSolver' (hF.propSolve d)) fun r => ?_) (pure' _)
  rcases r with ⟨r, _ | f⟩
  · exact bind' (Lock.ret rfl) fun _ => pure' _
  · exact bind' (setAero' _) fun _ => pure' _

theorem solveWings' (hF : Imitates B B' R ps ps') : Lock (Alongside R) Same (solveWings (B := B)) (solveWings (B := B')) := by
  unfold solveWings
  rw [hF.wings]
  refine ite' ?_ (pure' _)
  refine Lock.get.bind fun w w' h => ?_
  rw [h.aero, h.ctrl]
  exact bind' (onSolver' (hF.wingSolve _ _)) fun r => pure' _

theorem parts (hF : Imitates B B' R ps ps') : Lock (Alongside R) Same (solveParts (B := B) ps) (solveParts (B := B') ps') := by
  unfold solveParts
  refine bind' (getAero' _) fun d => bind' (solveProps' hF _) fun p => bind' (solveWings' hF) fun w => bind' ?_ fun _ => pure' _
  intro w w' h
  exact ⟨rfl, h.aero, h.ctrl, h.files, h.st⟩

theorem solve (hF : Imitates B B' R ps ps') : Lock (Alongside R) Same (muSolve (B := B) ps) (muSolve (B := B') ps') := by
  unfold muSolve
  refine get' (o := aeroGiven) (o' := aeroGiven) (f := fun b => if b = true then _ else _) (f' := fun b => if b = true then _ else _) aeroGiven' fun b => ?_
  exact ite' (bind' (parts hF) fun r => pure' _) (bind' (withAero' _ (parts hF)) fun _ => pure' _)

theorem solveFile (hF : Imitates B B' R ps ps') (f : Option String) : Lock (Alongside R) Same (muSolveFile (B := B) ps f) (muSolveFile (B := B') ps' f) := by
  unfold muSolveFile
  refine get' (o := aeroGiven) (o' := aeroGiven) (f := fun b => if b = true then _ else _) (f' := fun b => if b = true then _ else _) aeroGiven' fun b => ?_
  refine ite' (bind' (parts hF) fun r => bind' (write _ _) fun _ => pure' _) (bind' (solve hF) fun r => ?_)
  cases f
  · exact pure' _
  · exact Lock.raise _

theorem central' (hF : Imitates B B' R ps ps') {set : ℝ → Act (World B) Unit} {set' : ℝ → Act (World B') Unit}
    (hs : ∀ x, Lock (Alongside R) Same (set x) (set' x)) (x0 δ : ℝ) :
    Lock (Alongside R) Same (central ps set x0 δ) (central ps' set' x0 δ) := by
  unfold central
  exact bind' (hs _) fun _ => bind' (solve hF) fun b => bind' (hs _) fun _ => bind' (solve hF) fun f => pure' _

theorem dyn (hF : Imitates B B' R ps ps') : Lock (Alongside (B := B) (B' := B') R) Same dynPressure dynPressure := by
  unfold dynPressure
  have e : dynPress B' = dynPress B := by
    funext d
    unfold dynPress
    rw [hF.Sw]
  rw [hF.wings, e]
  exact ite' (getAero' _) (Lock.raise _)

theorem stabBody' (hF : Imitates B B' R ps ps') : Lock (Alongside R) Same (stabBody (B := B) ps) (stabBody (B := B') ps') := by
  unfold stabBody
  rw [hF.derivs]
  refine bind' (dyn hF) fun DP => bind' (getAero' _) fun a0 =>
    bind' (central' hF (fun x => setAero' _) _ _) fun r => bind' (setAero' _) fun _ => ?_
  exact bind' (getAero' _) fun b0 =>
    bind' (central' hF (fun x => setAero' _) _ _) fun r' => bind' (setAero' _) fun _ => pure' _

theorem dampBody' (hF : Imitates B B' R ps ps') : Lock (Alongside R) Same (dampBody (B := B) ps) (dampBody (B := B') ps') := by
  unfold dampBody
  rw [hF.derivs, hF.lat, hF.long]
  refine bind' (getAero' _) fun V => bind' (dyn hF) fun DP => ite' (Lock.raise _) ?_
  refine bind' (getAero' _) fun p0 => bind' (central' hF (fun x => setAero' _) _ _) fun r => bind' (setAero' _) fun _ => ?_
  refine bind' (getAero' _) fun p0 => bind' (central' hF (fun x => setAero' _) _ _) fun r => bind' (setAero' _) fun _ => ?_
  refine bind' (getAero' _) fun p0 => bind' (central' hF (fun x => setAero' _) _ _) fun r => bind' (setAero' _) fun _ => ?_
  exact pure' _

theorem contBody' (hF : Imitates B B' R ps ps') : Lock (Alongside R) Same (contBody (B := B) ps) (contBody (B := B') ps') := by
  unfold contBody
  rw [hF.derivs]
  refine bind' (dyn hF) fun DP => ?_
  refine bind' (getCtrl' _) fun x => bind' (central' hF (fun x => setCtrl' _) _ _) fun r => bind' (setCtrl' _) fun _ => ?_
  refine bind' (getCtrl' _) fun x => bind' (central' hF (fun x => setCtrl' _) _ _) fun r => bind' (setCtrl' _) fun _ => ?_
  refine bind' (getCtrl' _) fun x => bind' (central' hF (fun x => setCtrl' _) _ _) fun r => bind' (setCtrl' _) fun _ => ?_
  refine bind' (getCtrl' _) fun x => bind' (central' hF (fun x => setCtrl' _) _ _) fun r => bind' (setCtrl' _) fun _ => ?_
  exact pure' _

theorem stability (hF : Imitates B B' R ps ps') : Lock (Alongside R) Same (stabilityDerivatives (B := B) ps) (stabilityDerivatives (B := B') ps') := by
  unfold stabilityDerivatives
  refine get' (o := aeroGiven) (o' := aeroGiven) (f := fun b => if b = true then stabBody ps else _) (f' := fun b => if b = true then stabBody ps' else _) aeroGiven' fun b => ?_
  exact ite' (stabBody' hF) (bind' (withAero' _ (stabBody' hF)) fun _ => pure' _)

theorem damping (hF : Imitates B B' R ps ps') : Lock (Alongside R) Same (dampingDerivatives (B := B) ps) (dampingDerivatives (B := B') ps') := by
  unfold dampingDerivatives
  refine get' (o := aeroGiven) (o' := aeroGiven) (f := fun b => if b = true then dampBody ps else _) (f' := fun b => if b = true then dampBody ps' else _) aeroGiven' fun b => ?_
  exact ite' (dampBody' hF) (bind' (withAero' _ (dampBody' hF)) fun _ => pure' _)

theorem control (hF : Imitates B B' R ps ps') : Lock (Alongside R) Same (controlDerivatives (B := B) ps) (controlDerivatives (B := B') ps') := by
  unfold controlDerivatives
  refine get' (o := ctrlGiven) (o' := ctrlGiven) (f := fun b => if b = true then contBody ps else _) (f' := fun b => if b = true then contBody ps' else _) ctrlGiven' fun b => ?_
  exact ite' (contBody' hF) (withCtrl' _ (contBody' hF))

theorem all (hF : Imitates B B' R ps ps') (f : Option String) : Lock (Alongside R) Same (derivatives (B := B) ps f) (derivatives (B := B') ps' f) := by
  unfold derivatives
  rw [hF.wings]
  refine ite' (bind' (stability hF) fun s => bind' (control hF) fun c => bind' (damping hF) fun d => bind' (write _ _) fun _ => pure' _) ?_
  cases f
  · exact Lock.raise _
  · exact bind' (write _ _) fun _ => pure' _

theorem stallLoop' (hF : Imitates B B' R ps ps') : ∀ (n : ℕ) (a : ℝ), Lock (Alongside R) Same (stallLoop (B := B) ps n a) (stallLoop (B := B') ps' n a) := by
  intro n
  induction n with
  | zero => intro a; exact Lock.ret rfl
  | succ n ih =>
    intro a
    unfold stallLoop
    refine bind' (setAero' _) fun _ => bind' (tryFinite' (solve hF)) fun r => ?_
    refine Lock.get.bind fun w w' h => ?_
    rw [hF.stall _ _ h.st]
    rcases B.stallLoc w.st with _ | s
    · exact ih _
    · rcases r with _ | r
      · exact Lock.raise _
      · exact pure' _

theorem onset (hF : Imitates B B' R ps ps') (n : ℕ) : Lock (Alongside R) Same (stallOnset (B := B) ps n) (stallOnset (B := B') ps' n) := by
  unfold stallOnset
  refine get' (o := aeroGiven) (o' := aeroGiven) (f := fun b => if b = true then stallLoop ps n 0 else _) (f' := fun b => if b = true then stallLoop ps' n 0 else _) aeroGiven' fun b => ?_
  exact ite' (stallLoop' hF _ _) (bind' (withAero' _ (stallLoop' hF _ _)) fun _ => pure' _)

theorem onsetFile (hF : Imitates B B' R ps ps') (f : Option String) (n : ℕ) :
    Lock (Alongside R) Same (stallOnsetFile (B := B) ps f n) (stallOnsetFile (B := B') ps' f n) := by
  unfold stallOnsetFile
  rw [hF.wings]
  refine ite' (bind' (onset hF n) fun r => ?_) ?_
  · cases r
    · exact pure' _
    · exact bind' (write _ _) fun _ => pure' _
  · cases f
    · exact Lock.raise _
    · exact bind' (write _ _) fun _ => pure' _

theorem airspeedLoop' (hF : Imitates B B' R ps ps') (W e : ℝ) (k : ℕ) : ∀ (n : ℕ) (x0 y0 x1 y1 : ℝ)
    (s : StallResult) (d : AeroDict ι), Lock (Alongside R) Same (airspeedLoop (B := B) ps W e k n x0 y0 x1 y1 s d)
      (airspeedLoop (B := B') ps' W e k n x0 y0 x1 y1 s d) := by
  intro n
  induction n with
  | zero => intro x0 y0 x1 y1 s d; exact Lock.ret rfl
  | succ n ih =>
    intro x0 y0 x1 y1 s d
    unfold airspeedLoop
    refine ite' (Lock.raise _) (ite' (pure' _) (bind' (withAero' _ (onset hF k)) fun ⟨a, x⟩ => ?_))
    rcases a with _ | s2
    · exact pure' _
    · exact ih _ _ _ _ _ _

theorem airspeedBody' (hF : Imitates B B' R ps ps') (W e : ℝ) (n k : ℕ) :
    Lock (Alongside R) Same (airspeedBody (B := B) ps W e n k) (airspeedBody (B := B') ps' W e n k) := by
  unfold airspeedBody
  refine bind' (getAero' _) fun d => bind' (needKey' _) fun x0 => ?_
  refine bind' (withAero' _ (onset hF k)) fun ⟨a, x⟩ => bind' (withAero' _ (onset hF k)) fun ⟨b, y⟩ => ?_
  rcases a with _ | s0 <;> rcases b with _ | s1
  · exact pure' _
  · exact pure' _
  · exact pure' _
  · exact airspeedLoop' hF _ _ _ _ _ _ _ _ _ _

theorem airspeed (hF : Imitates B B' R ps ps') (W e : ℝ) (f : Option String) (n k : ℕ) :
    Lock (Alongside R) Same (stallAirspeed (B := B) ps W e f n k) (stallAirspeed (B := B') ps' W e f n k) := by
  unfold stallAirspeed
  rw [hF.wings]
  refine ite' ?_ ?_
  · refine get' (o := aeroGiven) (o' := aeroGiven) (f := fun b => if b = true then _ else _) (f' := fun b => if b = true then _ else _) aeroGiven' fun b => ?_
    refine ite' (bind' (airspeedBody' hF W e n k) fun r => ?_) (Lock.raise _)
    rcases r with _ | ⟨s, v⟩
    · exact pure' _
    · exact bind' (write _ _) fun _ => pure' _
  · cases f
    · exact Lock.raise _
    · exact bind' (write _ _) fun _ => pure' _

theorem slopes' (hF : Imitates B B' R ps ps') (f : Loads → ℝ) : Lock (Alongside R) Same (slopes (B := B) ps f) (slopes (B := B') ps' f) := by
  unfold slopes
  refine bind' (getAero' _) fun a0 => bind' (central' hF (fun x => setAero' _) _ _) fun r => bind' (setAero' _) fun _ => ?_
  exact bind' (getCtrl' _) fun x => bind' (central' hF (fun x => setCtrl' _) _ _) fun r => bind' (setCtrl' _) fun _ => pure' _

theorem trimLoop' (hF : Imitates B B' R ps ps') (L M e : ℝ) (f : Option String) : ∀ (n : ℕ) (a de : ℝ),
    Lock (Alongside R) Same (trimLoop (B := B) ps L M e f n a de) (trimLoop (B := B') ps' L M e f n a de) := by
  intro n
  induction n with
  | zero => intro a de; exact Lock.ret rfl
  | succ n ih =>
    intro a de
    unfold trimLoop
    refine bind' (setAero' _) fun _ => bind' (setCtrl' _) fun _ => bind' (solve hF) fun cur => ?_
    refine ite' (bind' (write _ _) fun _ => pure' _) (bind' (slopes' hF _) fun s1 => bind' (slopes' hF _) fun s2 => ?_)
    refine ite' ?_ (ite' (Lock.raise _) (ite' ?_ (ih _ _)))
    · cases f
      · exact Lock.raise _
      · exact bind' (write _ _) fun _ => pure' _
    · cases f
      · exact Lock.raise _
      · exact bind' (write _ _) fun _ => pure' _

theorem trim (hF : Imitates B B' R ps ps') (L M e : ℝ) (f : Option String) :
    Lock (Alongside R) Same (pitchTrim (B := B) ps L M e f) (pitchTrim (B := B') ps' L M e f) := by
  unfold pitchTrim
  intro w w' h
  have ha := aeroGiven' w w' h
  have hc := ctrlGiven' w w' h
  rw [get_bind, get_bind, ha, hc]
  refine (ite' (ite' (trimLoop' hF _ _ _ _ _ _ _) (withCtrl' _ (trimLoop' hF _ _ _ _ _ _ _)))
    (ite' (bind' (withAero' _ (trimLoop' hF _ _ _ _ _ _ _)) fun _ => pure' _)
      (bind' (withAero' _ (withCtrl' _ (trimLoop' hF _ _ _ _ _ _ _))) fun _ => pure' _)) : Lock (Alongside R) Same _ _) w w' h

theorem sweep (hF : Imitates B B' R ps ps') : ∀ l : List ℝ, Lock (Alongside R) Same (acSweep (B := B) ps l) (acSweep (B := B') ps' l) := by
  intro l
  induction l with
  | nil => exact pure' _
  | cons x l ih =>
    unfold acSweep
    exact bind' (setAero' _) fun _ => bind' (solve hF) fun r => bind' ih fun rs => pure' _

theorem acBody' (hF : Imitates B B' R ps ps') (cg : V3) : Lock (Alongside R) Same (acBody (B := B) ps cg) (acBody (B := B') ps' cg) := by
  unfold acBody
  rw [hF.long]
  refine bind' (getAero' _) fun ao => bind' (dyn hF) fun DP => bind' (sweep hF _) fun rows => ite' (Lock.raise _) ?_
  exact bind' (orRaise' _ _) fun _ => bind' (orRaise' _ _) fun _ => bind' (orRaise' _ _) fun _ => bind' (orRaise' _ _) fun _ => orRaise' _ _

theorem center (hF : Imitates B B' R ps ps') (cg : V3) (f : Option String) :
    Lock (Alongside R) Same (findAeroCenter (B := B) ps cg f) (findAeroCenter (B := B') ps' cg f) := by
  unfold findAeroCenter
  refine get' (o := aeroGiven) (o' := aeroGiven) (f := fun b => if b = true then _ else _) (f' := fun b => if b = true then _ else _) aeroGiven' fun b => ?_
  exact ite' (bind' (acBody' hF cg) fun r => bind' (write _ _) fun _ => pure' _)
    (bind' (withAero' _ (acBody' hF cg)) fun _ => bind' (write _ _) fun _ => pure' _)

theorem liftAt' (hF : Imitates B B' R ps ps') (d : AeroDict ι) (x : Option ℝ) :
    Lock (Alongside R) Same (liftAt (B := B) ps d x) (liftAt (B := B') ps' d x) := by
  cases x
  · exact bind' (onSolver' hF.bad) fun _ => pure' _
  · exact bind' (withAero' _ (tryFinite' (solve hF))) fun _ => pure' _

theorem targetLoop' (hF : Imitates B B' R ps ps') (L e : ℝ) : ∀ (n : ℕ) (x0 y0 x1 y1 : Option ℝ) (d : AeroDict ι),
    Lock (Alongside R) Same (targetLoop (B := B) ps L e n x0 y0 x1 y1 d) (targetLoop (B := B') ps' L e n x0 y0 x1 y1 d) := by
  intro n
  induction n with
  | zero => intro x0 y0 x1 y1 d; exact Lock.ret rfl
  | succ n ih =>
    intro x0 y0 x1 y1 d
    unfold targetLoop
    exact ite' (pure' _) (bind' (liftAt' hF _ _) fun ⟨a, x⟩ => ite' (pure' _) (ih _ _ _ _ _))

theorem targetBody' (hF : Imitates B B' R ps ps') (L e : ℝ) : Lock (Alongside R) Same (targetBody (B := B) ps L e) (targetBody (B := B') ps' L e) := by
  unfold targetBody
  exact bind' (getAero' _) fun d => bind' (needKey' _) fun x0 => bind' (liftAt' hF _ _) fun r => bind' (liftAt' hF _ _) fun r' =>
    targetLoop' hF _ _ _ _ _ _ _ _

theorem target (hF : Imitates B B' R ps ps') (L e : ℝ) (f : Option String) :
    Lock (Alongside R) Same (targetLift (B := B) ps L e f) (targetLift (B := B') ps' L e f) := by
  unfold targetLift
  refine get' (o := aeroGiven) (o' := aeroGiven) (f := fun b => if b = true then _ else _) (f' := fun b => if b = true then _ else _) aeroGiven' fun b => ?_
  refine ite' (bind' (targetBody' hF L e) fun r => ?_) (bind' (withAero' _ (targetBody' hF L _)) fun r => ?_)
  · cases r
    · cases f
      · exact Lock.raise _
      · exact bind' (write _ _) fun _ => pure' _
    · exact bind' (write _ _) fun _ => pure' _
  · rcases r with ⟨_ | r, x⟩
    · exact Lock.raise _
    · exact bind' (write _ _) fun _ => pure' _

/-- every method -/
theorem any (hF : Imitates B B' R ps ps') (cg : V3) (a : Analysis) : Lock (Alongside R) Same (perform (B := B) ps cg a) (perform (B := B') ps' cg a) := by
  cases a
  case solve f => exact bind' (solveFile hF f) fun _ => pure' _
  case stability => exact bind' (stability hF) fun _ => pure' _
  case damping => exact bind' (damping hF) fun _ => pure' _
  case control => exact bind' (control hF) fun _ => pure' _
  case derivatives f => exact bind' (all hF f) fun _ => pure' _
  case stallOnset f n => exact bind' (onsetFile hF f n) fun _ => pure' _
  case stallAirspeed W e f n k => exact bind' (airspeed hF W e f n k) fun _ => pure' _
  case targetLift L e f => exact bind' (target hF L e f) fun _ => pure' _
  case pitchTrim L M e f => exact bind' (trim hF L M e f) fun _ => pure' _
  case aeroCenter f => exact bind' (center hF cg f) fun _ => pure' _

/-- one call -/
theorem call (cg : V3) (a : Analysis) (d : Option (AeroDict ι)) (c : Option CtrlDict) (hF : Imitates B B' R ps ps') {w : World B} {w' : World B'}
    (hf : w'.files = w.files) (h : R w.st w'.st) :
    ((⟨a, d, c, ps'⟩ : AnyCall B').run cg w').1 = ((⟨a, d, c, ps⟩ : AnyCall B).run cg w).1 ∧
      Alongside R ((⟨a, d, c, ps⟩ : AnyCall B).run cg w).2 ((⟨a, d, c, ps'⟩ : AnyCall B').run cg w').2 := by
  obtain ⟨k1, k2⟩ := hF.any cg a { w with aero := d, ctrl := c } { w' with aero := d, ctrl := c } ⟨rfl, rfl, hf, h⟩
  exact ⟨Outcome.to_eq k1, k2⟩

end Imitates

/-- the same call with propeller states between which the solvers do not distinguish -/
structure AnyCall.Imitated (R : B.σ → B'.σ → Prop) (c : AnyCall B) (c' : AnyCall B') : Prop where
  what : c'.what = c.what
  aero : c'.aero = c.aero
  ctrl : c'.ctrl = c.ctrl
  solvers : Imitates B B' R c.ps c'.ps

/-- sequences of calls -/
theorem imitate_calls (cg : V3) {hist : List (AnyCall B)} {hist' : List (AnyCall B')} {c : AnyCall B} {c' : AnyCall B'}
    (hh : List.Forall₂ (AnyCall.Imitated R) (hist ++ [c]) (hist' ++ [c'])) {w : World B} {w' : World B'} (hf : w'.files = w.files) (h : R w.st w'.st) :
    (c'.run cg (afterCalls cg w' hist')).1 = (c.run cg (afterCalls cg w hist)).1 ∧
      Alongside R (c.run cg (afterCalls cg w hist)).2 (c'.run cg (afterCalls cg w' hist')).2 := by
  have one : ∀ {c : AnyCall B} {c' : AnyCall B'}, AnyCall.Imitated R c c' → ∀ {w : World B} {w' : World B'},
      w'.files = w.files → R w.st w'.st → (c'.run cg w').1 = (c.run cg w).1 ∧ Alongside R (c.run cg w).2 (c'.run cg w').2 := by
    rintro ⟨a, d, c, s⟩ ⟨a', d', c', s'⟩ ⟨h1, h2, h3, h4⟩ w w' hf h
    simp only at h1 h2 h3 h4
    subst h1 h2 h3
    exact h4.call cg _ _ _ hf h
  induction hist generalizing hist' w w' with
  | nil =>
    have hl : hist' = [] := by
      have := hh.length_eq
      simp only [List.nil_append, List.length_append, List.length_cons, List.length_nil] at this
      exact List.length_eq_zero_iff.1 (by omega)
    subst hl
    simp only [List.nil_append, List.forall₂_cons] at hh
    exact one hh.1 hf h
  | cons x l ih =>
    cases hist' with
    | nil =>
      have := hh.length_eq
      simp at this
    | cons x' l' =>
      simp only [List.cons_append, List.forall₂_cons] at hh
      obtain ⟨k1, k2⟩ := one hh.1 hf h
      exact ih hh.2 k2.files k2.st

end Verif
