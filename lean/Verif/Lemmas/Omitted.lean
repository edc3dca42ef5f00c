import Verif.Lemmas.Memory
import Verif.Spec.Omitted

/-!
# The same analysis with entries left out, in lockstep
-/

namespace Verif
open V3 Act

variable {ι : Type} {B : Backend ι} {K : B.σ → B.σ → Prop} {ps : Option B.π} {α : Type}

theorem SameEntry.value {o o' : Option ℝ} (h : SameEntry o o') : o'.getD 0 = o.getD 0 := by cases h <;> rfl

/-- The solvers read an entry that is left out as 0. -/
structure Fills (B : Backend ι) (K : B.σ → B.σ → Prop) : Prop where
  prop : ∀ (d d' : AeroDict ι) ps, SameAero (some d) (some d') → Lock K Same (B.propSolve d ps) (B.propSolve d' ps)
  wing : ∀ (d d' : AeroDict ι) c c', SameAero (some d) (some d') → SameCtrl c c' → Lock K Same (B.wingSolve d c) (B.wingSolve d' c')
  stall : ∀ s s', K s s' → B.stallLoc s' = B.stallLoc s

/-- the same arguments up to entries left out, the same files, related solvers -/
structure Reads (K : B.σ → B.σ → Prop) (w w' : World B) : Prop where
  aero : SameAero w.aero w'.aero
  ctrl : SameCtrl w.ctrl w'.ctrl
  files : w'.files = w.files
  st : K w.st w'.st

/-- a function that reads an entry left out as 0 -/
def Reader {β : Type} (f : AeroDict ι → β) : Prop := ∀ d d' : AeroDict ι, d.SameCondition d' → f d' = f d
/-- the same for controls -/
def CReader {β : Type} (f : CtrlDict → β) : Prop := ∀ d d' : CtrlDict, d.SameDeflections d' → f d' = f d
/-- an update of both dictionaries -/
def Writer (f : AeroDict ι → AeroDict ι) : Prop := ∀ d d' : AeroDict ι, d.SameCondition d' → (f d).SameCondition (f d')
/-- the same for controls -/
def CWriter (f : CtrlDict → CtrlDict) : Prop := ∀ d d' : CtrlDict, d.SameDeflections d' → (f d).SameDeflections (f d')

/-- two dictionaries as arguments -/
def SameDict (d d' : AeroDict ι) : Prop := SameAero (some d) (some d')

theorem SameDict.refl (d : AeroDict ι) : SameDict d d := SameAero.same _

theorem SameDict.cases {d d' : AeroDict ι} (h : SameDict d d') : d' = d ∨ d.SameCondition d' := by
  unfold SameDict at h
  generalize h1 : some d = a at h
  generalize h2 : some d' = a' at h
  cases h with
  | same => rw [← h1] at h2; exact Or.inl (Option.some.inj h2)
  | entries e e' he => cases h1; cases h2; exact Or.inr he

theorem SameDict.read {β : Type} {f : AeroDict ι → β} (hf : Reader f) {d d' : AeroDict ι} (h : SameDict d d') : f d' = f d := by
  rcases h.cases with rfl | h
  · rfl
  · exact hf _ _ h

theorem SameDict.write {f : AeroDict ι → AeroDict ι} (hf : Writer f) {d d' : AeroDict ι} (h : SameDict d d') :
    SameDict (f d) (f d') := by
  rcases h.cases with rfl | h
  · exact SameDict.refl _
  · exact .entries _ _ (hf _ _ h)

theorem writer_alpha (x : ℝ) : Writer (ι := ι) fun d => { d with alpha := some x } := fun _ _ h =>
  ⟨by simp [AeroDict.truthy], by simp [AeroDict.truthy], h.Vmag, h.rho, h.localState, .same _, h.beta, h.roll, h.pitch, h.yaw⟩
theorem writer_beta (x : ℝ) : Writer (ι := ι) fun d => { d with beta := some x } := fun _ _ h =>
  ⟨by simp [AeroDict.truthy], by simp [AeroDict.truthy], h.Vmag, h.rho, h.localState, h.alpha, .same _, h.roll, h.pitch, h.yaw⟩
theorem writer_roll (x : ℝ) : Writer (ι := ι) fun d => { d with roll := some x } := fun _ _ h =>
  ⟨by simp [AeroDict.truthy], by simp [AeroDict.truthy], h.Vmag, h.rho, h.localState, h.alpha, h.beta, .same _, h.pitch, h.yaw⟩
theorem writer_pitch (x : ℝ) : Writer (ι := ι) fun d => { d with pitch := some x } := fun _ _ h =>
  ⟨by simp [AeroDict.truthy], by simp [AeroDict.truthy], h.Vmag, h.rho, h.localState, h.alpha, h.beta, h.roll, .same _, h.yaw⟩
theorem writer_yaw (x : ℝ) : Writer (ι := ι) fun d => { d with yaw := some x } := fun _ _ h =>
  ⟨by simp [AeroDict.truthy], by simp [AeroDict.truthy], h.Vmag, h.rho, h.localState, h.alpha, h.beta, h.roll, h.pitch, .same _⟩
theorem writer_speed (x : ℝ) : Writer (ι := ι) fun d => { d with Vmag := some x } := fun _ _ h =>
  ⟨by simp [AeroDict.truthy], by simp [AeroDict.truthy], rfl, h.rho, h.localState, h.alpha, h.beta, h.roll, h.pitch, h.yaw⟩
theorem writer_field (x : ι → ℝ × V3) : Writer (ι := ι) fun d => { d with localState := some x } := fun _ _ h =>
  ⟨by simp [AeroDict.truthy], by simp [AeroDict.truthy], h.Vmag, h.rho, rfl, h.alpha, h.beta, h.roll, h.pitch, h.yaw⟩

theorem cwriter_aileron (x : ℝ) : CWriter fun d => { d with aileron := some x } := fun _ _ h =>
  ⟨by simp [CtrlDict.truthy], by simp [CtrlDict.truthy], .same _, h.elevator, h.rudder, h.flap⟩
theorem cwriter_elevator (x : ℝ) : CWriter fun d => { d with elevator := some x } := fun _ _ h =>
  ⟨by simp [CtrlDict.truthy], by simp [CtrlDict.truthy], h.aileron, .same _, h.rudder, h.flap⟩
theorem cwriter_rudder (x : ℝ) : CWriter fun d => { d with rudder := some x } := fun _ _ h =>
  ⟨by simp [CtrlDict.truthy], by simp [CtrlDict.truthy], h.aileron, h.elevator, .same _, h.flap⟩
theorem cwriter_flap (x : ℝ) : CWriter fun d => { d with flap := some x } := fun _ _ h =>
  ⟨by simp [CtrlDict.truthy], by simp [CtrlDict.truthy], h.aileron, h.elevator, h.rudder, .same _⟩

theorem SameAero.given {a a' : Option (AeroDict ι)} (h : SameAero a a') : a'.any AeroDict.truthy = a.any AeroDict.truthy := by
  cases h with
  | same => rfl
  | entries d d' h => show d'.truthy = d.truthy; rw [h.given, h.given']

theorem SameCtrl.given {a a' : Option CtrlDict} (h : SameCtrl a a') : a'.any CtrlDict.truthy = a.any CtrlDict.truthy := by
  cases h with
  | same => rfl
  | entries d d' h => show d'.truthy = d.truthy; rw [h.given, h.given']

theorem SameAero.getD {a a' : Option (AeroDict ι)} (h : SameAero a a') {d d' : AeroDict ι} (hd : SameDict d d') :
    SameDict (a.getD d) (a'.getD d') := by
  cases h with
  | same => cases a <;> [exact hd; exact .same _]
  | entries d d' h => exact .entries _ _ h

namespace Read

theorem setAero' {f : AeroDict ι → AeroDict ι} (hf : Writer f) : Lock (Reads (B := B) K) Same (setAero f) (setAero f) := by
  rintro ⟨st, a, c, o, F⟩ ⟨st', a', c', o', F'⟩ ⟨h1, h2, h3, h4⟩
  cases h1 with
  | same =>
    cases a with
    | none => exact ⟨rfl, .same _, h2, h3, h4⟩
    | some d => exact ⟨rfl, .same _, h2, h3, h4⟩
  | entries d d' h => exact ⟨rfl, .entries _ _ (hf _ _ h), h2, h3, h4⟩

theorem setCtrl' {f : CtrlDict → CtrlDict} (hf : CWriter f) : Lock (Reads (B := B) K) Same (setCtrl f) (setCtrl f) := by
  rintro ⟨st, a, c, o, F⟩ ⟨st', a', c', o', F'⟩ ⟨h1, h2, h3, h4⟩
  cases h2 with
  | same =>
    cases c with
    | none => exact ⟨rfl, h1, .same _, h3, h4⟩
    | some d => exact ⟨rfl, h1, .same _, h3, h4⟩
  | entries d d' h => exact ⟨rfl, h1, .entries _ _ (hf _ _ h), h3, h4⟩

theorem getAero' {f : AeroDict ι → α} (hf : Reader f) : Lock (Reads (B := B) K) Same (getAero f) (getAero f) := by
  rintro ⟨st, a, c, o, F⟩ ⟨st', a', c', o', F'⟩ ⟨h1, h2, h3, h4⟩
  cases h1 with
  | same => cases a <;> exact ⟨rfl, .same _, h2, h3, h4⟩
  | entries d d' h => exact ⟨hf _ _ h, .entries _ _ h, h2, h3, h4⟩

theorem getDict : Lock (Reads (B := B) K) SameDict (getAero id) (getAero id) := by
  rintro ⟨st, a, c, o, F⟩ ⟨st', a', c', o', F'⟩ ⟨h1, h2, h3, h4⟩
  cases h1 with
  | same => cases a <;> [exact ⟨rfl, .same _, h2, h3, h4⟩; exact ⟨SameDict.refl _, .same _, h2, h3, h4⟩]
  | entries d d' h => exact ⟨.entries _ _ h, .entries _ _ h, h2, h3, h4⟩

theorem getCtrl' {f : CtrlDict → α} (hf : CReader f) : Lock (Reads (B := B) K) Same (getCtrl f) (getCtrl f) := by
  rintro ⟨st, a, c, o, F⟩ ⟨st', a', c', o', F'⟩ ⟨h1, h2, h3, h4⟩
  cases h2 with
  | same => cases c <;> exact ⟨rfl, h1, .same _, h3, h4⟩
  | entries d d' h => exact ⟨hf _ _ h, h1, .entries _ _ h, h3, h4⟩

theorem write (f : Option String) (doc : Doc ι) : Lock (Reads (B := B) K) Same (writeFile f doc) (writeFile f doc) := by
  intro w w' h
  rcases f with _ | f
  · exact ⟨rfl, h⟩
  · refine ⟨rfl, h.aero, h.ctrl, ?_, h.st⟩
    show w'.files ++ _ = w.files ++ _
    rw [h.files]

theorem withAero' {d d' : AeroDict ι} (hd : SameDict d d') {m m' : Act (World B) α} (hm : Lock (Reads K) Same m m') :
    Lock (Reads K) (fun x y => y.1 = x.1 ∧ SameDict x.2 y.2) (withAero d m) (withAero d' m') := by
  intro w w' h
  have hk : Reads K { w with aero := some d } { w' with aero := some d' } := ⟨hd, h.ctrl, h.files, h.st⟩
  obtain ⟨h1, h2⟩ := hm _ _ hk
  unfold withAero
  rcases hq : m { w with aero := some d } with ⟨e | a, w1⟩ <;> rcases hq' : m' { w' with aero := some d' } with ⟨e' | a', w1'⟩ <;>
    rw [hq, hq'] at h1 h2
  · exact ⟨h1, h.aero, h2.ctrl, h2.files, h2.st⟩
  · exact h1.elim
  · exact h1.elim
  · exact ⟨⟨h1, h2.aero.getD hd⟩, h.aero, h2.ctrl, h2.files, h2.st⟩

theorem withCtrl' (c : CtrlDict) {m : Act (World B) α} (hm : Lock (Reads K) Same m m) :
    Lock (Reads K) Same (withCtrl c m) (withCtrl c m) := by
  intro w w' h
  have hk : Reads K { w with ctrl := some c } { w' with ctrl := some c } := ⟨h.aero, .same _, h.files, h.st⟩
  obtain ⟨h1, h2⟩ := hm _ _ hk
  exact ⟨h1, h2.aero, h.ctrl, h2.files, h2.st⟩

theorem onSolver' {m m' : Act B.σ α} (hm : Lock K Same m m') : Lock (Reads K) Same (onSolver m) (onSolver m') := by
  intro w w' h
  obtain ⟨h1, h2⟩ := hm _ _ h.st
  exact ⟨h1, h.aero, h.ctrl, h.files, h2⟩

theorem bind' {β : Type} {m m' : Act (World B) α} {f f' : α → Act (World B) β} (hm : Lock (Reads K) Same m m')
    (hf : ∀ a, Lock (Reads K) Same (f a) (f' a)) : Lock (Reads K) Same (m >>= f) (m' >>= f') :=
  hm.bind fun a a' h => by
    have h : a' = a := h
    subst h
    exact hf a'

theorem pure' (a : α) : Lock (Reads (B := B) K) Same (pure a : Act (World B) α) (pure a) := Lock.pure rfl

theorem get' {β γ : Type} {o : World B → γ} {f : γ → Act (World B) β} (ho : ∀ w w', Reads K w w' → o w' = o w)
    (hf : ∀ g, Lock (Reads K) Same (f g) (f g)) :
    Lock (Reads K) Same (get >>= fun w => f (o w)) (get >>= fun w => f (o w)) :=
  Lock.get.bind fun a a' h => by rw [ho a a' h]; exact hf _

theorem ite' {β γ : Type} {P : β → γ → Prop} {p : Prop} [Decidable p] {m1 m2 : Act (World B) β} {m1' m2' : Act (World B) γ}
    (h1 : Lock (Reads K) P m1 m1') (h2 : Lock (Reads K) P m2 m2') :
    Lock (Reads K) P (if p then m1 else m2) (if p then m1' else m2') := by
  split_ifs
  · exact h1
  · exact h2

theorem tryFinite' {m : Act (World B) α} (hm : Lock (Reads K) Same m m) :
    Lock (Reads K) Same (tryFinite m) (tryFinite m) :=
  hm.tryFinite.mono fun a b h => by
    cases h with
    | some h => exact congrArg some h
    | none => rfl

theorem orRaise' (e : PyErr) (o : Option α) : Lock (Reads (B := B) K) Same (Act.orRaise e o) (Act.orRaise e o) := by
  cases o
  · exact Lock.raise _
  · exact Lock.ret rfl

theorem aeroGiven' : ∀ w w' : World B, Reads K w w' → aeroGiven w' = aeroGiven w := fun _ _ h => h.aero.given
theorem ctrlGiven' : ∀ w w' : World B, Reads K w w' → ctrlGiven w' = ctrlGiven w := fun _ _ h => h.ctrl.given

theorem props (hF : Fills B K) {d d' : AeroDict ι} (hd : SameDict d d') : Lock (Reads K) Same (solveProps ps d) (solveProps ps d') := by
  unfold solveProps
  refine ite' (bind' (onSolver' (hF.prop d d' ps hd)) fun r => ?_) (pure' _)
  rcases r with ⟨r, _ | f⟩
  · exact bind' (Lock.ret rfl) fun _ => pure' _
  · exact bind' (setAero' (writer_field f)) fun _ => pure' _

theorem wings (hF : Fills B K) : Lock (Reads K) Same (solveWings (B := B)) solveWings := by
  unfold solveWings
  refine ite' ?_ (pure' _)
  refine Lock.get.bind fun w w' h => ?_
  exact bind' (onSolver' (hF.wing _ _ _ _ (h.aero.getD (SameDict.refl _)) h.ctrl)) fun r => pure' _

theorem parts (hF : Fills B K) : Lock (Reads K) Same (solveParts (B := B) ps) (solveParts ps) := by
  unfold solveParts
  refine getDict.bind fun d d' hd => bind' (props hF hd) fun p => bind' (wings hF) fun w => bind' ?_ fun _ => pure' _
  intro w w' h
  exact ⟨rfl, h.aero, h.ctrl, h.files, h.st⟩

/-- what a method does with its own dictionary -/
theorem own {β : Type} (d : AeroDict ι) {m : Act (World B) α} (hm : Lock (Reads K) Same m m) {g g' : α × AeroDict ι → Act (World B) β}
    (hg : ∀ a x x', SameDict x x' → Lock (Reads K) Same (g (a, x)) (g' (a, x'))) :
    Lock (Reads K) Same (withAero d m >>= g) (withAero d m >>= g') :=
  (withAero' (SameDict.refl d) hm).bind fun ⟨a, x⟩ ⟨a', x'⟩ h => by
    obtain ⟨h1, h2⟩ := h
    simp only at h1 h2
    subst h1
    exact hg _ _ _ h2

theorem solve (hF : Fills B K) : Lock (Reads K) Same (muSolve (B := B) ps) (muSolve ps) := by
  unfold muSolve
  refine get' (o := aeroGiven) (f := fun b => if b = true then _ else _) aeroGiven' fun b => ?_
  exact ite' (bind' (parts hF) fun r => pure' _) (own _ (parts hF) fun _ _ _ _ => pure' _)

theorem solveFile (hF : Fills B K) (f : Option String) : Lock (Reads K) Same (muSolveFile (B := B) ps f) (muSolveFile ps f) := by
  unfold muSolveFile
  refine get' (o := aeroGiven) (f := fun b => if b = true then _ else _) aeroGiven' fun b => ?_
  refine ite' (bind' (parts hF) fun r => bind' (write _ _) fun _ => pure' _) (bind' (solve hF) fun r => ?_)
  cases f
  · exact pure' _
  · exact Lock.raise _

theorem central' (hF : Fills B K) {set : ℝ → Act (World B) Unit} (hs : ∀ x, Lock (Reads K) Same (set x) (set x))
    (x0 δ : ℝ) : Lock (Reads K) Same (central ps set x0 δ) (central ps set x0 δ) := by
  unfold central
  exact bind' (hs _) fun _ => bind' (solve hF) fun b => bind' (hs _) fun _ => bind' (solve hF) fun f => pure' _

theorem dyn : Lock (Reads (B := B) K) Same dynPressure dynPressure := by
  unfold dynPressure
  refine ite' (getAero' fun d d' h => ?_) (Lock.raise _)
  unfold dynPress
  rw [h.Vmag, h.rho]

theorem stabBody' (hF : Fills B K) : Lock (Reads K) Same (stabBody (B := B) ps) (stabBody ps) := by
  unfold stabBody
  refine bind' dyn fun DP => bind' (getAero' fun d d' h => h.alpha.value) fun a0 =>
    bind' (central' hF (fun x => setAero' (writer_alpha x)) _ _) fun r => bind' (setAero' (writer_alpha _)) fun _ => ?_
  exact bind' (getAero' fun d d' h => h.beta.value) fun b0 =>
    bind' (central' hF (fun x => setAero' (writer_beta x)) _ _) fun r' => bind' (setAero' (writer_beta _)) fun _ => pure' _

theorem dampBody' (hF : Fills B K) : Lock (Reads K) Same (dampBody (B := B) ps) (dampBody ps) := by
  unfold dampBody
  refine bind' (getAero' fun d d' h => by rw [h.Vmag]) fun V => bind' dyn fun DP => ite' (Lock.raise _) ?_
  refine bind' (getAero' fun d d' h => h.roll.value) fun p0 =>
    bind' (central' hF (fun x => setAero' (writer_roll x)) _ _) fun r => bind' (setAero' (writer_roll _)) fun _ => ?_
  refine bind' (getAero' fun d d' h => h.pitch.value) fun p0 =>
    bind' (central' hF (fun x => setAero' (writer_pitch x)) _ _) fun r => bind' (setAero' (writer_pitch _)) fun _ => ?_
  refine bind' (getAero' fun d d' h => h.yaw.value) fun p0 =>
    bind' (central' hF (fun x => setAero' (writer_yaw x)) _ _) fun r => bind' (setAero' (writer_yaw _)) fun _ => ?_
  exact pure' _

theorem contBody' (hF : Fills B K) : Lock (Reads K) Same (contBody (B := B) ps) (contBody ps) := by
  unfold contBody
  refine bind' dyn fun DP => ?_
  refine bind' (getCtrl' fun d d' h => h.aileron.value) fun p0 =>
    bind' (central' hF (fun x => setCtrl' (cwriter_aileron x)) _ _) fun r => bind' (setCtrl' (cwriter_aileron _)) fun _ => ?_
  refine bind' (getCtrl' fun d d' h => h.elevator.value) fun p0 =>
    bind' (central' hF (fun x => setCtrl' (cwriter_elevator x)) _ _) fun r => bind' (setCtrl' (cwriter_elevator _)) fun _ => ?_
  refine bind' (getCtrl' fun d d' h => h.rudder.value) fun p0 =>
    bind' (central' hF (fun x => setCtrl' (cwriter_rudder x)) _ _) fun r => bind' (setCtrl' (cwriter_rudder _)) fun _ => ?_
  refine bind' (getCtrl' fun d d' h => h.flap.value) fun p0 =>
    bind' (central' hF (fun x => setCtrl' (cwriter_flap x)) _ _) fun r => bind' (setCtrl' (cwriter_flap _)) fun _ => ?_
  exact pure' _

theorem stability (hF : Fills B K) : Lock (Reads K) Same (stabilityDerivatives (B := B) ps) (stabilityDerivatives ps) := by
  unfold stabilityDerivatives
  refine get' (o := aeroGiven) (f := fun b => if b = true then stabBody ps else _) aeroGiven' fun b => ?_
  exact ite' (stabBody' hF) (own _ (stabBody' hF) fun _ _ _ _ => pure' _)

theorem damping (hF : Fills B K) : Lock (Reads K) Same (dampingDerivatives (B := B) ps) (dampingDerivatives ps) := by
  unfold dampingDerivatives
  refine get' (o := aeroGiven) (f := fun b => if b = true then dampBody ps else _) aeroGiven' fun b => ?_
  exact ite' (dampBody' hF) (own _ (dampBody' hF) fun _ _ _ _ => pure' _)

theorem control (hF : Fills B K) : Lock (Reads K) Same (controlDerivatives (B := B) ps) (controlDerivatives ps) := by
  unfold controlDerivatives
  refine get' (o := ctrlGiven) (f := fun b => if b = true then contBody ps else _) ctrlGiven' fun b => ?_
  exact ite' (contBody' hF) (withCtrl' _ (contBody' hF))

theorem all (hF : Fills B K) (f : Option String) : Lock (Reads K) Same (derivatives (B := B) ps f) (derivatives ps f) := by
  unfold derivatives
  refine ite' (bind' (stability hF) fun s => bind' (control hF) fun c => bind' (damping hF) fun d => bind' (write _ _) fun _ => pure' _) ?_
  cases f
  · exact Lock.raise _
  · exact bind' (write _ _) fun _ => pure' _

theorem stallLoop' (hF : Fills B K) : ∀ (n : ℕ) (a : ℝ), Lock (Reads K) Same (stallLoop (B := B) ps n a) (stallLoop ps n a) := by
  intro n
  induction n with
  | zero => intro a; exact Lock.ret rfl
  | succ n ih =>
    intro a
    unfold stallLoop
    refine bind' (setAero' (writer_alpha a)) fun _ => bind' (tryFinite' (solve hF)) fun r => ?_
    refine Lock.get.bind fun w w' h => ?_
    rw [hF.stall _ _ h.st]
    rcases B.stallLoc w.st with _ | s
    · exact ih _
    · rcases r with _ | r
      · exact Lock.raise _
      · exact pure' _

theorem onset (hF : Fills B K) (n : ℕ) : Lock (Reads K) Same (stallOnset (B := B) ps n) (stallOnset ps n) := by
  unfold stallOnset
  refine get' (o := aeroGiven) (f := fun b => if b = true then stallLoop ps n 0 else _) aeroGiven' fun b => ?_
  exact ite' (stallLoop' hF _ _) (own _ (stallLoop' hF _ _) fun _ _ _ _ => pure' _)

theorem onsetFile (hF : Fills B K) (f : Option String) (n : ℕ) :
    Lock (Reads K) Same (stallOnsetFile (B := B) ps f n) (stallOnsetFile ps f n) := by
  unfold stallOnsetFile
  refine ite' (bind' (onset hF n) fun r => ?_) ?_
  · cases r
    · exact pure' _
    · exact bind' (write _ _) fun _ => pure' _
  · cases f
    · exact Lock.raise _
    · exact bind' (write _ _) fun _ => pure' _

theorem airspeedLoop' (hF : Fills B K) (W e : ℝ) (k : ℕ) : ∀ (n : ℕ) (x0 y0 x1 y1 : ℝ)
    (s : StallResult) (d d' : AeroDict ι), SameDict d d' → Lock (Reads K) Same (airspeedLoop (B := B) ps W e k n x0 y0 x1 y1 s d)
      (airspeedLoop ps W e k n x0 y0 x1 y1 s d') := by
  intro n
  induction n with
  | zero => intro x0 y0 x1 y1 s d d' _; exact Lock.ret rfl
  | succ n ih =>
    intro x0 y0 x1 y1 s d d' hd
    unfold airspeedLoop
    refine ite' (Lock.raise _) (ite' (pure' _) ((withAero' (hd.write (writer_speed _)) (onset hF k)).bind fun ⟨a, x⟩ ⟨a', x'⟩ h => ?_))
    obtain ⟨h1, h2⟩ := h
    simp only at h1 h2
    subst h1
    rcases a' with _ | s2
    · exact pure' _
    · exact ih _ _ _ _ _ _ _ h2

theorem airspeedBody' (hF : Fills B K) (W e : ℝ) (n k : ℕ) :
    Lock (Reads K) Same (airspeedBody (B := B) ps W e n k) (airspeedBody ps W e n k) := by
  unfold airspeedBody
  refine getDict.bind fun d d' hd => ?_
  rw [hd.read (f := AeroDict.Vmag) fun d d' h => h.Vmag]
  refine bind' (m' := needKey d.Vmag) ?_ fun x0 => ?_
  · cases d.Vmag
    · exact Lock.raise _
    · exact Lock.ret rfl
  refine (withAero' (hd.write (writer_speed _)) (onset hF k)).bind fun ⟨a, x⟩ ⟨a', x'⟩ h => ?_
  obtain ⟨h1, h2⟩ := h
  simp only at h1 h2
  subst h1
  refine (withAero' (hd.write (writer_speed _)) (onset hF k)).bind fun ⟨b, y⟩ ⟨b', y'⟩ h => ?_
  obtain ⟨h1, h2⟩ := h
  simp only at h1 h2
  subst h1
  rcases a' with _ | s0 <;> rcases b' with _ | s1
  · exact pure' _
  · exact pure' _
  · exact pure' _
  · exact airspeedLoop' hF _ _ _ _ _ _ _ _ _ _ _ h2

theorem airspeed (hF : Fills B K) (W e : ℝ) (f : Option String) (n k : ℕ) :
    Lock (Reads K) Same (stallAirspeed (B := B) ps W e f n k) (stallAirspeed ps W e f n k) := by
  unfold stallAirspeed
  refine ite' ?_ ?_
  · refine get' (o := aeroGiven) (f := fun b => if b = true then _ else _) aeroGiven' fun b => ?_
    refine ite' (bind' (airspeedBody' hF W e n k) fun r => ?_) (Lock.raise _)
    rcases r with _ | ⟨s, v⟩
    · exact pure' _
    · exact bind' (write _ _) fun _ => pure' _
  · cases f
    · exact Lock.raise _
    · exact bind' (write _ _) fun _ => pure' _

theorem slopes' (hF : Fills B K) (f : Loads → ℝ) : Lock (Reads K) Same (slopes (B := B) ps f) (slopes ps f) := by
  unfold slopes
  refine bind' (getAero' fun d d' h => h.alpha.value) fun a0 => bind' (central' hF (fun x => setAero' (writer_alpha x)) _ _) fun r =>
    bind' (setAero' (writer_alpha _)) fun _ => ?_
  exact bind' (getCtrl' fun d d' h => h.elevator.value) fun a0 => bind' (central' hF (fun x => setCtrl' (cwriter_elevator x)) _ _) fun r =>
    bind' (setCtrl' (cwriter_elevator _)) fun _ => pure' _

theorem trimLoop' (hF : Fills B K) (L M e : ℝ) (f : Option String) : ∀ (n : ℕ) (a de : ℝ),
    Lock (Reads K) Same (trimLoop (B := B) ps L M e f n a de) (trimLoop ps L M e f n a de) := by
  intro n
  induction n with
  | zero => intro a de; exact Lock.ret rfl
  | succ n ih =>
    intro a de
    unfold trimLoop
    refine bind' (setAero' (writer_alpha a)) fun _ => bind' (setCtrl' (cwriter_elevator de)) fun _ => bind' (solve hF) fun cur => ?_
    refine ite' (bind' (write _ _) fun _ => pure' _) (bind' (slopes' hF _) fun s1 => bind' (slopes' hF _) fun s2 => ?_)
    refine ite' ?_ (ite' (Lock.raise _) (ite' ?_ (ih _ _)))
    · cases f
      · exact Lock.raise _
      · exact bind' (write _ _) fun _ => pure' _
    · cases f
      · exact Lock.raise _
      · exact bind' (write _ _) fun _ => pure' _

theorem trim (hF : Fills B K) (L M e : ℝ) (f : Option String) :
    Lock (Reads K) Same (pitchTrim (B := B) ps L M e f) (pitchTrim ps L M e f) := by
  unfold pitchTrim
  intro w w' h
  have ha := aeroGiven' w w' h
  have hc := ctrlGiven' w w' h
  rw [get_bind, get_bind, ha, hc]
  refine (ite' (ite' (trimLoop' hF _ _ _ _ _ _ _) (withCtrl' _ (trimLoop' hF _ _ _ _ _ _ _)))
    (ite' (own _ (trimLoop' hF _ _ _ _ _ _ _) fun _ _ _ _ => pure' _)
      (own _ (withCtrl' _ (trimLoop' hF _ _ _ _ _ _ _)) fun _ _ _ _ => pure' _)) : Lock (Reads K) Same _ _) w w' h

theorem sweep (hF : Fills B K) : ∀ l : List ℝ, Lock (Reads K) Same (acSweep (B := B) ps l) (acSweep ps l) := by
  intro l
  induction l with
  | nil => exact pure' _
  | cons x l ih =>
    unfold acSweep
    exact bind' (setAero' (writer_alpha _)) fun _ => bind' (solve hF) fun r => bind' ih fun rs => pure' _

theorem acBody' (hF : Fills B K) (cg : V3) : Lock (Reads K) Same (acBody (B := B) ps cg) (acBody ps cg) := by
  unfold acBody
  refine bind' (getAero' fun d d' h => h.alpha.value) fun ao => bind' dyn fun DP => bind' (sweep hF _) fun rows => ite' (Lock.raise _) ?_
  exact bind' (orRaise' _ _) fun _ => bind' (orRaise' _ _) fun _ => bind' (orRaise' _ _) fun _ => bind' (orRaise' _ _) fun _ => orRaise' _ _

theorem center (hF : Fills B K) (cg : V3) (f : Option String) :
    Lock (Reads K) Same (findAeroCenter (B := B) ps cg f) (findAeroCenter ps cg f) := by
  unfold findAeroCenter
  refine get' (o := aeroGiven) (f := fun b => if b = true then _ else _) aeroGiven' fun b => ?_
  exact ite' (bind' (acBody' hF cg) fun r => bind' (write _ _) fun _ => pure' _)
    (own _ (acBody' hF cg) fun _ _ _ _ => bind' (write _ _) fun _ => pure' _)

theorem liftAt' (hF : Fills B K) (hb : Lock K Same B.solveBad B.solveBad) {d d' : AeroDict ι} (hd : SameDict d d') (x : Option ℝ) :
    Lock (Reads K) (fun x y => y.1 = x.1 ∧ SameDict x.2 y.2) (liftAt (B := B) ps d x) (liftAt ps d' x) := by
  cases x
  · refine (onSolver' hb).bind fun r r' h => ?_
    have h : r' = r := h
    subst h
    exact Lock.pure ⟨rfl, hd⟩
  · refine (withAero' (hd.write (writer_alpha _)) (tryFinite' (solve hF))).bind fun ⟨a, x⟩ ⟨a', x'⟩ h => ?_
    obtain ⟨h1, h2⟩ := h
    simp only at h1 h2
    subst h1
    exact Lock.pure ⟨rfl, h2⟩

theorem targetLoop' (hF : Fills B K) (hb : Lock K Same B.solveBad B.solveBad) (L e : ℝ) : ∀ (n : ℕ) (x0 y0 x1 y1 : Option ℝ)
    (d d' : AeroDict ι), SameDict d d' →
    Lock (Reads K) Same (targetLoop (B := B) ps L e n x0 y0 x1 y1 d) (targetLoop ps L e n x0 y0 x1 y1 d') := by
  intro n
  induction n with
  | zero => intro x0 y0 x1 y1 d d' _; exact Lock.ret rfl
  | succ n ih =>
    intro x0 y0 x1 y1 d d' hd
    unfold targetLoop
    refine ite' (pure' _) ((liftAt' hF hb hd _).bind fun ⟨a, x⟩ ⟨a', x'⟩ h => ?_)
    obtain ⟨h1, h2⟩ := h
    simp only at h1 h2
    subst h1
    exact ite' (pure' _) (ih _ _ _ _ _ _ h2)

theorem targetRest (hF : Fills B K) (hb : Lock K Same B.solveBad B.solveBad) (L e x0 : ℝ) {d d' : AeroDict ι} (hd : SameDict d d') :
    Lock (Reads K) Same
      (liftAt ps d (some x0) >>= fun r => liftAt ps d (some (x0 * 1.5 + 0.1)) >>= fun r' =>
        targetLoop (B := B) ps L e 21 (some x0) (r.1.map (· - L)) (some (x0 * 1.5 + 0.1)) (r'.1.map (· - L)) r'.2)
      (liftAt ps d' (some x0) >>= fun r => liftAt ps d' (some (x0 * 1.5 + 0.1)) >>= fun r' =>
        targetLoop (B := B) ps L e 21 (some x0) (r.1.map (· - L)) (some (x0 * 1.5 + 0.1)) (r'.1.map (· - L)) r'.2) := by
  refine (liftAt' hF hb hd _).bind fun r r' h => (liftAt' hF hb hd _).bind fun s s' h' => ?_
  rw [h.1, h'.1]
  exact targetLoop' hF hb _ _ _ _ _ _ _ _ _ h'.2

/-- `target_lift` if `alpha` is given in both calls or in none -/
theorem targetBody' (hF : Fills B K) (hb : Lock K Same B.solveBad B.solveBad) (L e : ℝ) {w w' : World B} (h : Reads K w w')
    (ha : (alphaEntry w'.aero).isSome = (alphaEntry w.aero).isSome) :
    Outcome Same (targetBody ps L e w).1 (targetBody ps L e w').1 ∧ Reads K (targetBody ps L e w).2 (targetBody ps L e w').2 := by
  unfold targetBody
  rw [bind_def, bind_def]
  obtain ⟨st, a, c, o, F⟩ := w
  obtain ⟨st', a', c', o', F'⟩ := w'
  have hr := h
  obtain ⟨h1, h2, h3, h4⟩ := h
  have step : ∀ (d d' : AeroDict ι), SameDict d d' → d'.alpha = d.alpha → ∀ v v' : World B, Reads K v v' →
      Outcome Same ((needKey d.alpha >>= fun x0 => liftAt ps d (some x0) >>= fun r => liftAt ps d (some (x0 * 1.5 + 0.1)) >>= fun r' =>
        targetLoop (B := B) ps L e 21 (some x0) (r.1.map (· - L)) (some (x0 * 1.5 + 0.1)) (r'.1.map (· - L)) r'.2) v).1
        ((needKey d'.alpha >>= fun x0 => liftAt ps d' (some x0) >>= fun r => liftAt ps d' (some (x0 * 1.5 + 0.1)) >>= fun r' =>
        targetLoop (B := B) ps L e 21 (some x0) (r.1.map (· - L)) (some (x0 * 1.5 + 0.1)) (r'.1.map (· - L)) r'.2) v').1 ∧
      Reads K ((needKey d.alpha >>= fun x0 => liftAt ps d (some x0) >>= fun r => liftAt ps d (some (x0 * 1.5 + 0.1)) >>= fun r' =>
        targetLoop (B := B) ps L e 21 (some x0) (r.1.map (· - L)) (some (x0 * 1.5 + 0.1)) (r'.1.map (· - L)) r'.2) v).2
        ((needKey d'.alpha >>= fun x0 => liftAt ps d' (some x0) >>= fun r => liftAt ps d' (some (x0 * 1.5 + 0.1)) >>= fun r' =>
        targetLoop (B := B) ps L e 21 (some x0) (r.1.map (· - L)) (some (x0 * 1.5 + 0.1)) (r'.1.map (· - L)) r'.2) v').2 := by
    intro d d' hd hx v v' hv
    rw [hx]
    cases d.alpha with
    | none => exact ⟨rfl, hv⟩
    | some x => exact targetRest hF hb L e x hd v v' hv
  cases h1 with
  | same =>
    cases a with
    | none => exact ⟨rfl, hr⟩
    | some d => exact step d d (SameDict.refl _) rfl _ _ hr
  | entries d d' hd =>
    refine step d d' (.entries _ _ hd) ?_ _ _ hr
    have ha : d'.alpha.isSome = d.alpha.isSome := ha
    have hv := hd.alpha.value
    rcases hx : d.alpha with _ | x <;> rcases hy : d'.alpha with _ | y <;> rw [hx, hy] at ha hv
    · simp at ha
    · simp at ha
    · exact congrArg some hv

theorem target (hF : Fills B K) (hb : Lock K Same B.solveBad B.solveBad) (L e : ℝ) (f : Option String) {w w' : World B} (h : Reads K w w')
    (ha : (alphaEntry w'.aero).isSome = (alphaEntry w.aero).isSome) :
    Outcome Same (targetLift ps L e f w).1 (targetLift ps L e f w').1 ∧ Reads K (targetLift ps L e f w).2 (targetLift ps L e f w').2 := by
  unfold targetLift
  rw [get_bind, get_bind, aeroGiven' w w' h]
  cases aeroGiven w
  · simp only [Bool.false_eq_true, if_false]
    have hk : Reads K { w with aero := some defaultAeroDict } { w' with aero := some defaultAeroDict } := ⟨.same _, h.ctrl, h.files, h.st⟩
    obtain ⟨h1, h2⟩ := targetBody' (ps := ps) hF hb L (10 * 10 ^ (-10 : ℤ)) hk rfl
    rw [bind_def, bind_def]
    unfold withAero
    rcases hq : targetBody ps L (10 * 10 ^ (-10 : ℤ)) { w with aero := some defaultAeroDict } with ⟨er | a, w1⟩ <;>
      rcases hq' : targetBody ps L (10 * 10 ^ (-10 : ℤ)) { w' with aero := some defaultAeroDict } with ⟨er' | a', w1'⟩ <;>
      rw [hq, hq'] at h1 h2
    · exact ⟨h1, h.aero, h2.ctrl, h2.files, h2.st⟩
    · exact h1.elim
    · exact h1.elim
    · have h1 : a' = a := h1
      subst h1
      have hv : Reads K { w1 with aero := w.aero } { w1' with aero := w'.aero } := ⟨h.aero, h2.ctrl, h2.files, h2.st⟩
      cases a'
      · exact (Lock.raise _ : Lock (Reads K) (Same (α := TrimAnswer)) _ _) _ _ hv
      · exact (bind' (write _ _) fun _ => pure' _ : Lock (Reads K) (Same (α := TrimAnswer)) _ _) _ _ hv
  · simp only [if_true]
    obtain ⟨h1, h2⟩ := targetBody' (ps := ps) hF hb L e h ha
    rw [bind_def, bind_def]
    rcases hq : targetBody ps L e w with ⟨er | a, w1⟩ <;> rcases hq' : targetBody ps L e w' with ⟨er' | a', w1'⟩ <;> rw [hq, hq'] at h1 h2
    · exact ⟨h1, h2⟩
    · exact h1.elim
    · exact h1.elim
    · have h1 : a' = a := h1
      subst h1
      refine (?_ : Lock (Reads K) Same _ _) w1 w1' h2
      cases a'
      · cases f
        · exact Lock.raise _
        · exact bind' (write _ _) fun _ => pure' _
      · exact bind' (write _ _) fun _ => pure' _

/-- every method -/
theorem any (hF : Fills B K) (cg : V3) (a : Analysis) (ha : ∀ L e f, a ≠ .targetLift L e f) :
    Lock (Reads K) Same (perform (B := B) ps cg a) (perform ps cg a) := by
  cases a
  case solve f => exact bind' (solveFile hF f) fun _ => pure' _
  case stability => exact bind' (stability hF) fun _ => pure' _
  case damping => exact bind' (damping hF) fun _ => pure' _
  case control => exact bind' (control hF) fun _ => pure' _
  case derivatives f => exact bind' (all hF f) fun _ => pure' _
  case stallOnset f n => exact bind' (onsetFile hF f n) fun _ => pure' _
  case stallAirspeed W e f n k => exact bind' (airspeed hF W e f n k) fun _ => pure' _
  case targetLift L e f => exact absurd rfl (ha L e f)
  case pitchTrim L M e f => exact bind' (trim hF L M e f) fun _ => pure' _
  case aeroCenter f => exact bind' (center hF cg f) fun _ => pure' _

end Read
end Verif
