import Verif.Lemmas.Memory
import Verif.Spec.DeadControl

/-!
# The same analysis with other deflections of controls that move nothing, in lockstep
-/

namespace Verif
open V3 Act

variable {ι : Type} {B : Backend ι} {I : Control → Prop} {ps : Option B.π} {α : Type}

/-- the wing solver does not read the controls in `I` -/
def Ignores (B : Backend ι) (I : Control → Prop) : Prop := ∀ d c c', SameMoving I c c' → B.wingSolve d c' = B.wingSolve d c

/-- the same object with the same arguments except for the controls in `I` -/
structure Unmoved (I : Control → Prop) (w w' : World B) : Prop where
  aero : w'.aero = w.aero
  ctrl : SameMoving I w.ctrl w'.ctrl
  files : w'.files = w.files
  st : w'.st = w.st

/-- two values of a control: the same, or the control is in `I` -/
def SameFor (I : Control → Prop) (x : Control) (a b : ℝ) : Prop := I x ∨ b = a

theorem SameFor.refl (x : Control) (a : ℝ) : SameFor I x a a := Or.inr rfl

theorem SameMoving.given {a a' : Option CtrlDict} (h : SameMoving I a a') : a'.any CtrlDict.truthy = a.any CtrlDict.truthy := by
  cases h with
  | same => rfl
  | entries d d' h => show d'.truthy = d.truthy; rw [h.given, h.given']

/-- `f` sets the entry of `x` -/
structure Sets (f : CtrlDict → CtrlDict) (x : Control) (a : ℝ) : Prop where
  here : ∀ d, ((f d).entry x).getD 0 = a
  there : ∀ d y, y ≠ x → (f d).entry y = d.entry y
  truthy : ∀ d, (f d).truthy = true

theorem sets_aileron (a : ℝ) : Sets (fun d => { d with aileron := some a }) .aileron a :=
  ⟨fun _ => rfl, fun d y h => by cases y <;> first | rfl | exact absurd rfl h, fun d => by simp [CtrlDict.truthy]⟩
theorem sets_elevator (a : ℝ) : Sets (fun d => { d with elevator := some a }) .elevator a :=
  ⟨fun _ => rfl, fun d y h => by cases y <;> first | rfl | exact absurd rfl h, fun d => by simp [CtrlDict.truthy]⟩
theorem sets_rudder (a : ℝ) : Sets (fun d => { d with rudder := some a }) .rudder a :=
  ⟨fun _ => rfl, fun d y h => by cases y <;> first | rfl | exact absurd rfl h, fun d => by simp [CtrlDict.truthy]⟩
theorem sets_flap (a : ℝ) : Sets (fun d => { d with flap := some a }) .flap a :=
  ⟨fun _ => rfl, fun d y h => by cases y <;> first | rfl | exact absurd rfl h, fun d => by simp [CtrlDict.truthy]⟩

theorem Sets.same {f f' : CtrlDict → CtrlDict} {x : Control} {a a' : ℝ} (h : Sets f x a) (h' : Sets f' x a') (ha : SameFor I x a a')
    {c c' : CtrlDict} (hc : ∀ y, ¬ I y → (c'.entry y).getD 0 = (c.entry y).getD 0) : (f c).SameExcept I (f' c') := by
  refine ⟨h.truthy c, h'.truthy c', fun y hy => ?_⟩
  by_cases hx : y = x
  · subst hx
    rw [h.here, h'.here]
    exact ha.resolve_left hy
  · rw [h.there c y hx, h'.there c' y hx]
    exact hc y hy

namespace Still

theorem setAero' (f : AeroDict ι → AeroDict ι) : Lock (Unmoved (B := B) I) Same (setAero f) (setAero f) := by
  rintro ⟨st, a, c, o, F⟩ ⟨st', a', c', o', F'⟩ ⟨h1, h2, h3, h4⟩
  have h1 : a' = a := h1
  subst h1
  cases a' with
  | none => exact ⟨rfl, rfl, h2, h3, h4⟩
  | some d => exact ⟨rfl, rfl, h2, h3, h4⟩

theorem setCtrl' {f f' : CtrlDict → CtrlDict} {x : Control} {a a' : ℝ} (h : Sets f x a) (h' : Sets f' x a') (ha : SameFor I x a a') :
    Lock (Unmoved (B := B) I) Same (setCtrl f) (setCtrl f') := by
  rintro ⟨st, a, c, o, F⟩ ⟨st', a', c', o', F'⟩ ⟨h1, h2, h3, h4⟩
  cases h2 with
  | same =>
    cases c with
    | none => exact ⟨rfl, h1, .same _, h3, h4⟩
    | some d => exact ⟨rfl, h1, .entries _ _ (h.same h' ha fun _ _ => rfl), h3, h4⟩
  | entries d d' hd => exact ⟨rfl, h1, .entries _ _ (h.same h' ha hd.entry), h3, h4⟩

theorem getAero' (f : AeroDict ι → α) : Lock (Unmoved (B := B) I) Same (getAero f) (getAero f) := by
  rintro ⟨st, a, c, o, F⟩ ⟨st', a', c', o', F'⟩ ⟨h1, h2, h3, h4⟩
  have h1 : a' = a := h1
  subst h1
  cases a' <;> exact ⟨rfl, rfl, h2, h3, h4⟩

theorem getCtrl' (x : Control) : Lock (Unmoved (B := B) I) (SameFor I x) (getCtrl fun d => (d.entry x).getD 0) (getCtrl fun d => (d.entry x).getD 0) := by
  rintro ⟨st, a, c, o, F⟩ ⟨st', a', c', o', F'⟩ ⟨h1, h2, h3, h4⟩
  cases h2 with
  | same => cases c <;> [exact ⟨rfl, h1, .same _, h3, h4⟩; exact ⟨.refl _ _, h1, .same _, h3, h4⟩]
  | entries d d' h =>
    refine ⟨?_, h1, .entries _ _ h, h3, h4⟩
    by_cases hx : I x
    · exact Or.inl hx
    · exact Or.inr (h.entry x hx)

theorem write (f : Option String) (doc : Doc ι) : Lock (Unmoved (B := B) I) Same (writeFile f doc) (writeFile f doc) := by
  intro w w' h
  rcases f with _ | f
  · exact ⟨rfl, h⟩
  · refine ⟨rfl, h.aero, h.ctrl, ?_, h.st⟩
    show w'.files ++ _ = w.files ++ _
    rw [h.files]

theorem withAero' (d : AeroDict ι) {m m' : Act (World B) α} (hm : Lock (Unmoved I) Same m m') :
    Lock (Unmoved I) Same (withAero d m) (withAero d m') := by
  intro w w' h
  have hk : Unmoved I { w with aero := some d } { w' with aero := some d } := ⟨rfl, h.ctrl, h.files, h.st⟩
  obtain ⟨h1, h2⟩ := hm _ _ hk
  unfold withAero
  rcases hq : m { w with aero := some d } with ⟨e | a, w1⟩ <;> rcases hq' : m' { w' with aero := some d } with ⟨e' | a', w1'⟩ <;>
    rw [hq, hq'] at h1 h2
  · exact ⟨h1, h.aero, h2.ctrl, h2.files, h2.st⟩
  · exact h1.elim
  · exact h1.elim
  · refine ⟨?_, h.aero, h2.ctrl, h2.files, h2.st⟩
    have h1 : a' = a := h1
    show (a', w1'.aero.getD d) = (a, w1.aero.getD d)
    rw [h1, h2.aero]

theorem withCtrl' (c : CtrlDict) {m : Act (World B) α} (hm : Lock (Unmoved I) Same m m) :
    Lock (Unmoved I) Same (withCtrl c m) (withCtrl c m) := by
  intro w w' h
  have hk : Unmoved I { w with ctrl := some c } { w' with ctrl := some c } := ⟨h.aero, .same _, h.files, h.st⟩
  obtain ⟨h1, h2⟩ := hm _ _ hk
  exact ⟨h1, h2.aero, h.ctrl, h2.files, h2.st⟩

theorem onSolver' {m m' : Act B.σ α} (hm : m' = m) : Lock (Unmoved I) Same (onSolver (B := B) m) (onSolver m') := by
  subst hm
  intro w w' h
  unfold onSolver
  refine ⟨?_, h.aero, h.ctrl, h.files, ?_⟩
  · show Outcome Same (m' w.st).1 (m' w'.st).1
    rw [h.st]
    exact Outcome.of_eq rfl
  · show (m' w'.st).2 = (m' w.st).2
    rw [h.st]

theorem bind' {β : Type} {m m' : Act (World B) α} {f f' : α → Act (World B) β} (hm : Lock (Unmoved I) Same m m')
    (hf : ∀ a, Lock (Unmoved I) Same (f a) (f' a)) : Lock (Unmoved I) Same (m >>= f) (m' >>= f') :=
  hm.bind fun a a' h => by
    have h : a' = a := h
    subst h
    exact hf a'

theorem pure' (a : α) : Lock (Unmoved (B := B) I) Same (pure a : Act (World B) α) (pure a) := Lock.pure rfl

theorem get' {β γ : Type} {o : World B → γ} {f : γ → Act (World B) β} (ho : ∀ w w', Unmoved I w w' → o w' = o w)
    (hf : ∀ g, Lock (Unmoved I) Same (f g) (f g)) :
    Lock (Unmoved I) Same (get >>= fun w => f (o w)) (get >>= fun w => f (o w)) :=
  Lock.get.bind fun a a' h => by rw [ho a a' h]; exact hf _

theorem ite' {β γ : Type} {P : β → γ → Prop} {p : Prop} [Decidable p] {m1 m2 : Act (World B) β} {m1' m2' : Act (World B) γ}
    (h1 : Lock (Unmoved I) P m1 m1') (h2 : Lock (Unmoved I) P m2 m2') :
    Lock (Unmoved I) P (if p then m1 else m2) (if p then m1' else m2') := by
  split_ifs
  · exact h1
  · exact h2

theorem tryFinite' {m : Act (World B) α} (hm : Lock (Unmoved I) Same m m) :
    Lock (Unmoved I) Same (tryFinite m) (tryFinite m) :=
  hm.tryFinite.mono fun a b h => by
    cases h with
    | some h => exact congrArg some h
    | none => rfl

theorem orRaise' (e : PyErr) (o : Option α) : Lock (Unmoved (B := B) I) Same (Act.orRaise e o) (Act.orRaise e o) := by
  cases o
  · exact Lock.raise _
  · exact Lock.ret rfl

theorem needKey' (o : Option α) : Lock (Unmoved (B := B) I) Same (needKey o) (needKey o) := by
  cases o
  · exact Lock.raise _
  · exact Lock.ret rfl

theorem aeroGiven' : ∀ w w' : World B, Unmoved I w w' → aeroGiven w' = aeroGiven w := fun _ _ h => by unfold aeroGiven; rw [h.aero]
theorem ctrlGiven' : ∀ w w' : World B, Unmoved I w w' → ctrlGiven w' = ctrlGiven w := fun _ _ h => h.ctrl.given

theorem props (d : AeroDict ι) : Lock (Unmoved I) Same (solveProps (B := B) ps d) (solveProps ps d) := by
  unfold solveProps
  refine ite' (bind' (onSolver' rfl) fun r => ?_) (pure' _)
  rcases r with ⟨r, _ | f⟩
  · exact bind' (Lock.ret rfl) fun _ => pure' _
  · exact bind' (setAero' _) fun _ => pure' _

theorem wings (hF : Ignores B I) : Lock (Unmoved I) Same (solveWings (B := B)) solveWings := by
  unfold solveWings
  refine ite' ?_ (pure' _)
  refine Lock.get.bind fun w w' h => ?_
  refine bind' (onSolver' ?_) fun r => pure' _
  rw [h.aero]
  exact hF _ _ _ h.ctrl

theorem parts (hF : Ignores B I) : Lock (Unmoved I) Same (solveParts (B := B) ps) (solveParts ps) := by
  unfold solveParts
  refine bind' (getAero' _) fun d => bind' (props _) fun p => bind' (wings hF) fun w => bind' ?_ fun _ => pure' _
  intro w w' h
  exact ⟨rfl, h.aero, h.ctrl, h.files, h.st⟩

theorem solve (hF : Ignores B I) : Lock (Unmoved I) Same (muSolve (B := B) ps) (muSolve ps) := by
  unfold muSolve
  refine get' (o := aeroGiven) (f := fun b => if b = true then _ else _) aeroGiven' fun b => ?_
  exact ite' (bind' (parts hF) fun r => pure' _) (bind' (withAero' _ (parts hF)) fun _ => pure' _)

theorem solveFile (hF : Ignores B I) (f : Option String) : Lock (Unmoved I) Same (muSolveFile (B := B) ps f) (muSolveFile ps f) := by
  unfold muSolveFile
  refine get' (o := aeroGiven) (f := fun b => if b = true then _ else _) aeroGiven' fun b => ?_
  refine ite' (bind' (parts hF) fun r => bind' (write _ _) fun _ => pure' _) (bind' (solve hF) fun r => ?_)
  cases f
  · exact pure' _
  · exact Lock.raise _

theorem central' (hF : Ignores B I) {set : ℝ → Act (World B) Unit} {Q : ℝ → ℝ → Prop} (hs : ∀ x y, Q x y → Lock (Unmoved I) Same (set x) (set y))
    {x0 y0 δ : ℝ} (h1 : Q (x0 - δ) (y0 - δ)) (h2 : Q (x0 + δ) (y0 + δ)) :
    Lock (Unmoved I) Same (central ps set x0 δ) (central ps set y0 δ) := by
  unfold central
  exact bind' (hs _ _ h1) fun _ => bind' (solve hF) fun b => bind' (hs _ _ h2) fun _ => bind' (solve hF) fun f => pure' _

theorem centralA (hF : Ignores B I) {set : ℝ → Act (World B) Unit} (hs : ∀ x, Lock (Unmoved I) Same (set x) (set x)) (x0 δ : ℝ) :
    Lock (Unmoved I) Same (central ps set x0 δ) (central ps set x0 δ) :=
  central' hF (Q := Eq) (fun x y h => by subst h; exact hs x) rfl rfl

theorem centralC (hF : Ignores B I) {set : ℝ → Act (World B) Unit} {x : Control} (hs : ∀ a b, SameFor I x a b → Lock (Unmoved I) Same (set a) (set b))
    {x0 y0 : ℝ} (h : SameFor I x x0 y0) (δ : ℝ) : Lock (Unmoved I) Same (central ps set x0 δ) (central ps set y0 δ) :=
  central' hF hs (h.imp_right fun h => by rw [h]) (h.imp_right fun h => by rw [h])

theorem aileron' (a b : ℝ) (h : SameFor I .aileron a b) : Lock (Unmoved (B := B) I) Same (setAileron a) (setAileron b) :=
  setCtrl' (sets_aileron a) (sets_aileron b) h
theorem elevator' (a b : ℝ) (h : SameFor I .elevator a b) : Lock (Unmoved (B := B) I) Same (setElevator a) (setElevator b) :=
  setCtrl' (sets_elevator a) (sets_elevator b) h
theorem rudder' (a b : ℝ) (h : SameFor I .rudder a b) : Lock (Unmoved (B := B) I) Same (setRudder a) (setRudder b) :=
  setCtrl' (sets_rudder a) (sets_rudder b) h
theorem flap' (a b : ℝ) (h : SameFor I .flap a b) : Lock (Unmoved (B := B) I) Same (setFlap a) (setFlap b) :=
  setCtrl' (sets_flap a) (sets_flap b) h

theorem dyn : Lock (Unmoved (B := B) I) Same dynPressure dynPressure := by
  unfold dynPressure
  exact ite' (getAero' _) (Lock.raise _)

theorem stabBody' (hF : Ignores B I) : Lock (Unmoved I) Same (stabBody (B := B) ps) (stabBody ps) := by
  unfold stabBody
  refine bind' dyn fun DP => bind' (getAero' _) fun a0 =>
    bind' (centralA hF (fun x => setAero' _) _ _) fun r => bind' (setAero' _) fun _ => ?_
  exact bind' (getAero' _) fun b0 =>
    bind' (centralA hF (fun x => setAero' _) _ _) fun r' => bind' (setAero' _) fun _ => pure' _

theorem dampBody' (hF : Ignores B I) : Lock (Unmoved I) Same (dampBody (B := B) ps) (dampBody ps) := by
  unfold dampBody
  refine bind' (getAero' _) fun V => bind' dyn fun DP => ite' (Lock.raise _) ?_
  refine bind' (getAero' _) fun p0 => bind' (centralA hF (fun x => setAero' _) _ _) fun r => bind' (setAero' _) fun _ => ?_
  refine bind' (getAero' _) fun p0 => bind' (centralA hF (fun x => setAero' _) _ _) fun r => bind' (setAero' _) fun _ => ?_
  refine bind' (getAero' _) fun p0 => bind' (centralA hF (fun x => setAero' _) _ _) fun r => bind' (setAero' _) fun _ => ?_
  exact pure' _

theorem contBody' (hF : Ignores B I) : Lock (Unmoved I) Same (contBody (B := B) ps) (contBody ps) := by
  unfold contBody
  refine bind' dyn fun DP => ?_
  refine (getCtrl' .aileron).bind fun x y h => bind' (centralC hF aileron' h _) fun r => bind' (aileron' _ _ h) fun _ => ?_
  refine (getCtrl' .elevator).bind fun x y h => bind' (centralC hF elevator' h _) fun r => bind' (elevator' _ _ h) fun _ => ?_
  refine (getCtrl' .rudder).bind fun x y h => bind' (centralC hF rudder' h _) fun r => bind' (rudder' _ _ h) fun _ => ?_
  refine (getCtrl' .flap).bind fun x y h => bind' (centralC hF flap' h _) fun r => bind' (flap' _ _ h) fun _ => ?_
  exact pure' _

theorem stability (hF : Ignores B I) : Lock (Unmoved I) Same (stabilityDerivatives (B := B) ps) (stabilityDerivatives ps) := by
  unfold stabilityDerivatives
  refine get' (o := aeroGiven) (f := fun b => if b = true then stabBody ps else _) aeroGiven' fun b => ?_
  exact ite' (stabBody' hF) (bind' (withAero' _ (stabBody' hF)) fun _ => pure' _)

theorem damping (hF : Ignores B I) : Lock (Unmoved I) Same (dampingDerivatives (B := B) ps) (dampingDerivatives ps) := by
  unfold dampingDerivatives
  refine get' (o := aeroGiven) (f := fun b => if b = true then dampBody ps else _) aeroGiven' fun b => ?_
  exact ite' (dampBody' hF) (bind' (withAero' _ (dampBody' hF)) fun _ => pure' _)

theorem control (hF : Ignores B I) : Lock (Unmoved I) Same (controlDerivatives (B := B) ps) (controlDerivatives ps) := by
  unfold controlDerivatives
  refine get' (o := ctrlGiven) (f := fun b => if b = true then contBody ps else _) ctrlGiven' fun b => ?_
  exact ite' (contBody' hF) (withCtrl' _ (contBody' hF))

theorem all (hF : Ignores B I) (f : Option String) : Lock (Unmoved I) Same (derivatives (B := B) ps f) (derivatives ps f) := by
  unfold derivatives
  refine ite' (bind' (stability hF) fun s => bind' (control hF) fun c => bind' (damping hF) fun d => bind' (write _ _) fun _ => pure' _) ?_
  cases f
  · exact Lock.raise _
  · exact bind' (write _ _) fun _ => pure' _

theorem stallLoop' (hF : Ignores B I) : ∀ (n : ℕ) (a : ℝ), Lock (Unmoved I) Same (stallLoop (B := B) ps n a) (stallLoop ps n a) := by
  intro n
  induction n with
  | zero => intro a; exact Lock.ret rfl
  | succ n ih =>
    intro a
    unfold stallLoop
    refine bind' (setAero' _) fun _ => bind' (tryFinite' (solve hF)) fun r => ?_
    refine Lock.get.bind fun w w' h => ?_
    rw [h.st]
    rcases B.stallLoc w.st with _ | s
    · exact ih _
    · rcases r with _ | r
      · exact Lock.raise _
      · exact pure' _

theorem onset (hF : Ignores B I) (n : ℕ) : Lock (Unmoved I) Same (stallOnset (B := B) ps n) (stallOnset ps n) := by
  unfold stallOnset
  refine get' (o := aeroGiven) (f := fun b => if b = true then stallLoop ps n 0 else _) aeroGiven' fun b => ?_
  exact ite' (stallLoop' hF _ _) (bind' (withAero' _ (stallLoop' hF _ _)) fun _ => pure' _)

theorem onsetFile (hF : Ignores B I) (f : Option String) (n : ℕ) :
    Lock (Unmoved I) Same (stallOnsetFile (B := B) ps f n) (stallOnsetFile ps f n) := by
  unfold stallOnsetFile
  refine ite' (bind' (onset hF n) fun r => ?_) ?_
  · cases r
    · exact pure' _
    · exact bind' (write _ _) fun _ => pure' _
  · cases f
    · exact Lock.raise _
    · exact bind' (write _ _) fun _ => pure' _

theorem airspeedLoop' (hF : Ignores B I) (W e : ℝ) (k : ℕ) : ∀ (n : ℕ) (x0 y0 x1 y1 : ℝ)
    (s : StallResult) (d : AeroDict ι), Lock (Unmoved I) Same (airspeedLoop (B := B) ps W e k n x0 y0 x1 y1 s d)
      (airspeedLoop ps W e k n x0 y0 x1 y1 s d) := by
  intro n
  induction n with
  | zero => intro x0 y0 x1 y1 s d; exact Lock.ret rfl
  | succ n ih =>
    intro x0 y0 x1 y1 s d
    unfold airspeedLoop
    refine ite' (Lock.raise _) (ite' (pure' _) (bind' (withAero' _ (onset hF k)) fun ⟨a, x⟩ => ?_))
    rcases a with _ | s2
    · exact pure' _
    · exact ih _ _ _ _ _ _

theorem airspeedBody' (hF : Ignores B I) (W e : ℝ) (n k : ℕ) :
    Lock (Unmoved I) Same (airspeedBody (B := B) ps W e n k) (airspeedBody ps W e n k) := by
  unfold airspeedBody
  refine bind' (getAero' _) fun d => bind' (needKey' _) fun x0 => ?_
  refine bind' (withAero' _ (onset hF k)) fun ⟨a, x⟩ => bind' (withAero' _ (onset hF k)) fun ⟨b, y⟩ => ?_
  rcases a with _ | s0 <;> rcases b with _ | s1
  · exact pure' _
  · exact pure' _
  · exact pure' _
  · exact airspeedLoop' hF _ _ _ _ _ _ _ _ _ _

theorem airspeed (hF : Ignores B I) (W e : ℝ) (f : Option String) (n k : ℕ) :
    Lock (Unmoved I) Same (stallAirspeed (B := B) ps W e f n k) (stallAirspeed ps W e f n k) := by
  unfold stallAirspeed
  refine ite' ?_ ?_
  · refine get' (o := aeroGiven) (f := fun b => if b = true then _ else _) aeroGiven' fun b => ?_
    refine ite' (bind' (airspeedBody' hF W e n k) fun r => ?_) (Lock.raise _)
    rcases r with _ | ⟨s, v⟩
    · exact pure' _
    · exact bind' (write _ _) fun _ => pure' _
  · cases f
    · exact Lock.raise _
    · exact bind' (write _ _) fun _ => pure' _

theorem slopes' (hF : Ignores B I) (f : Loads → ℝ) : Lock (Unmoved I) Same (slopes (B := B) ps f) (slopes ps f) := by
  unfold slopes
  refine bind' (getAero' _) fun a0 => bind' (centralA hF (fun x => setAero' _) _ _) fun r => bind' (setAero' _) fun _ => ?_
  exact (getCtrl' .elevator).bind fun x y h => bind' (centralC hF elevator' h _) fun r => bind' (elevator' _ _ h) fun _ => pure' _

theorem trimLoop' (hF : Ignores B I) (L M e : ℝ) (f : Option String) : ∀ (n : ℕ) (a de : ℝ),
    Lock (Unmoved I) Same (trimLoop (B := B) ps L M e f n a de) (trimLoop ps L M e f n a de) := by
  intro n
  induction n with
  | zero => intro a de; exact Lock.ret rfl
  | succ n ih =>
    intro a de
    unfold trimLoop
    refine bind' (setAero' _) fun _ => bind' (elevator' _ _ (.refl _ _)) fun _ => bind' (solve hF) fun cur => ?_
    refine ite' (bind' (write _ _) fun _ => pure' _) (bind' (slopes' hF _) fun s1 => bind' (slopes' hF _) fun s2 => ?_)
    refine ite' ?_ (ite' (Lock.raise _) (ite' ?_ (ih _ _)))
    · cases f
      · exact Lock.raise _
      · exact bind' (write _ _) fun _ => pure' _
    · cases f
      · exact Lock.raise _
      · exact bind' (write _ _) fun _ => pure' _

theorem trim (hF : Ignores B I) (L M e : ℝ) (f : Option String) :
    Lock (Unmoved I) Same (pitchTrim (B := B) ps L M e f) (pitchTrim ps L M e f) := by
  unfold pitchTrim
  intro w w' h
  have ha := aeroGiven' w w' h
  have hc := ctrlGiven' w w' h
  rw [get_bind, get_bind, ha, hc]
  refine (ite' (ite' (trimLoop' hF _ _ _ _ _ _ _) (withCtrl' _ (trimLoop' hF _ _ _ _ _ _ _)))
    (ite' (bind' (withAero' _ (trimLoop' hF _ _ _ _ _ _ _)) fun _ => pure' _)
      (bind' (withAero' _ (withCtrl' _ (trimLoop' hF _ _ _ _ _ _ _))) fun _ => pure' _)) : Lock (Unmoved I) Same _ _) w w' h

theorem sweep (hF : Ignores B I) : ∀ l : List ℝ, Lock (Unmoved I) Same (acSweep (B := B) ps l) (acSweep ps l) := by
  intro l
  induction l with
  | nil => exact pure' _
  | cons x l ih =>
    unfold acSweep
    exact bind' (setAero' _) fun _ => bind' (solve hF) fun r => bind' ih fun rs => pure' _

theorem acBody' (hF : Ignores B I) (cg : V3) : Lock (Unmoved I) Same (acBody (B := B) ps cg) (acBody ps cg) := by
  unfold acBody
  refine bind' (getAero' _) fun ao => bind' dyn fun DP => bind' (sweep hF _) fun rows => ite' (Lock.raise _) ?_
  exact bind' (orRaise' _ _) fun _ => bind' (orRaise' _ _) fun _ => bind' (orRaise' _ _) fun _ => bind' (orRaise' _ _) fun _ => orRaise' _ _

theorem center (hF : Ignores B I) (cg : V3) (f : Option String) :
    Lock (Unmoved I) Same (findAeroCenter (B := B) ps cg f) (findAeroCenter ps cg f) := by
  unfold findAeroCenter
  refine get' (o := aeroGiven) (f := fun b => if b = true then _ else _) aeroGiven' fun b => ?_
  exact ite' (bind' (acBody' hF cg) fun r => bind' (write _ _) fun _ => pure' _)
    (bind' (withAero' _ (acBody' hF cg)) fun _ => bind' (write _ _) fun _ => pure' _)

theorem liftAt' (hF : Ignores B I) (d : AeroDict ι) (x : Option ℝ) :
    Lock (Unmoved I) Same (liftAt (B := B) ps d x) (liftAt ps d x) := by
  cases x
  · exact bind' (onSolver' rfl) fun _ => pure' _
  · exact bind' (withAero' _ (tryFinite' (solve hF))) fun _ => pure' _

theorem targetLoop' (hF : Ignores B I) (L e : ℝ) : ∀ (n : ℕ) (x0 y0 x1 y1 : Option ℝ) (d : AeroDict ι),
    Lock (Unmoved I) Same (targetLoop (B := B) ps L e n x0 y0 x1 y1 d) (targetLoop ps L e n x0 y0 x1 y1 d) := by
  intro n
  induction n with
  | zero => intro x0 y0 x1 y1 d; exact Lock.ret rfl
  | succ n ih =>
    intro x0 y0 x1 y1 d
    unfold targetLoop
    exact ite' (pure' _) (bind' (liftAt' hF _ _) fun ⟨a, x⟩ => ite' (pure' _) (ih _ _ _ _ _))

theorem targetBody' (hF : Ignores B I) (L e : ℝ) : Lock (Unmoved I) Same (targetBody (B := B) ps L e) (targetBody ps L e) := by
  unfold targetBody
  exact bind' (getAero' _) fun d => bind' (needKey' _) fun x0 => bind' (liftAt' hF _ _) fun r => bind' (liftAt' hF _ _) fun r' =>
    targetLoop' hF _ _ _ _ _ _ _ _

theorem target (hF : Ignores B I) (L e : ℝ) (f : Option String) :
    Lock (Unmoved I) Same (targetLift (B := B) ps L e f) (targetLift ps L e f) := by
  unfold targetLift
  refine get' (o := aeroGiven) (f := fun b => if b = true then _ else _) aeroGiven' fun b => ?_
  refine ite' (bind' (targetBody' hF L e) fun r => ?_) (bind' (withAero' _ (targetBody' hF L _)) fun r => ?_)
  · cases r
    · cases f
      · exact Lock.raise _
      · exact bind' (write _ _) fun _ => pure' _
    · exact bind' (write _ _) fun _ => pure' _
  · rcases r with ⟨_ | r, x⟩
    · exact Lock.raise _
    · exact bind' (write _ _) fun _ => pure' _

/-- every method -/
theorem any (hF : Ignores B I) (cg : V3) (a : Analysis) : Lock (Unmoved I) Same (perform (B := B) ps cg a) (perform ps cg a) := by
  cases a
  case solve f => exact bind' (solveFile hF f) fun _ => pure' _
  case stability => exact bind' (stability hF) fun _ => pure' _
  case damping => exact bind' (damping hF) fun _ => pure' _
  case control => exact bind' (control hF) fun _ => pure' _
  case derivatives f => exact bind' (all hF f) fun _ => pure' _
  case stallOnset f n => exact bind' (onsetFile hF f n) fun _ => pure' _
  case stallAirspeed W e f n k => exact bind' (airspeed hF W e f n k) fun _ => pure' _
  case targetLift L e f => exact bind' (target hF L e f) fun _ => pure' _
  case pitchTrim L M e f => exact bind' (trim hF L M e f) fun _ => pure' _
  case aeroCenter f => exact bind' (center hF cg f) fun _ => pure' _

end Still
end Verif
