import Verif.Lemmas.Imitate
import Verif.Model.Session

/-!
# Running on with a larger bound

`while True` loops are modelled with a bound on the number of passes; a loop that is still running when the bound is reached has the
outcome `.error .recursion`.  `Ends R m m'`: if `m` does not reach its bound, then `m'` (with a larger bound) has the same outcome.
-/

namespace Verif
open V3 Act

/-- see the head of the file -/
def Ends {S S' α : Type} (R : S → S' → Prop) (m : Act S α) (m' : Act S' α) : Prop :=
  ∀ s s', R s s' → (m s).1 ≠ .error .recursion → (m' s').1 = (m s).1 ∧ R (m s).2 (m' s').2

namespace Ends
variable {S S' α β : Type} {R : S → S' → Prop}

theorem bind {m : Act S α} {m' : Act S' α} {f : α → Act S β} {f' : α → Act S' β} (hm : Ends R m m')
    (hf : ∀ a, Ends R (f a) (f' a)) : Ends R (m >>= f) (m' >>= f') := by
  intro s s' hs hn
  rw [bind_def] at hn
  rw [bind_def, bind_def]
  rcases hr : m s with ⟨e | a, s1⟩
  · rw [hr] at hn
    have h := hm s s' hs (by rw [hr]; exact fun h => hn (by cases h; rfl))
    rcases hr' : m' s' with ⟨e' | a', s1'⟩ <;> rw [hr, hr'] at h
    · obtain ⟨h1, h2⟩ := h
      cases h1
      exact ⟨rfl, h2⟩
    · cases h.1
  · rw [hr] at hn
    have h := hm s s' hs (by rw [hr]; simp)
    rcases hr' : m' s' with ⟨e' | a', s1'⟩ <;> rw [hr, hr'] at h
    · cases h.1
    · obtain ⟨h1, h2⟩ := h
      cases h1
      exact hf a _ _ h2 hn

theorem pure (a : α) : Ends R (pure a : Act S α) (pure a : Act S' α) := fun _ _ hs _ => ⟨rfl, hs⟩
theorem ret (a : α) : Ends R (ret a : Act S α) (ret a : Act S' α) := fun _ _ hs _ => ⟨rfl, hs⟩
theorem raise (e : PyErr) : Ends R (raise e : Act S α) (raise e : Act S' α) := fun _ _ hs _ => ⟨rfl, hs⟩

theorem getBind {f : S → Act S β} {f' : S' → Act S' β} (hf : ∀ s s', R s s' → Ends R (f s) (f' s')) :
    Ends R (get >>= f) (get >>= f') := by
  intro s s' hs hn
  rw [get_bind] at hn
  rw [get_bind, get_bind]
  exact hf s s' hs s s' hs hn

theorem tryFinite {m : Act S α} {m' : Act S' α} (hm : Ends R m m') : Ends R (tryFinite m) (tryFinite m') := by
  intro s s' hs hn
  unfold Act.tryFinite at hn ⊢
  have h := hm s s' hs (fun h => hn (by
    rcases hr : m s with ⟨e | a, s1⟩ <;> rw [hr] at h
    · cases h; rfl
    · cases h))
  rcases hr : m s with ⟨e | a, s1⟩ <;> rcases hr' : m' s' with ⟨e' | a', s1'⟩ <;> rw [hr, hr'] at h
  · obtain ⟨h1, h2⟩ := h
    cases h1
    cases e <;> exact ⟨rfl, h2⟩
  · cases h.1
  · cases h.1
  · obtain ⟨h1, h2⟩ := h
    cases h1
    exact ⟨rfl, h2⟩

theorem ite {p : Prop} [Decidable p] {m1 m2 : Act S α} {m1' m2' : Act S' α} (h1 : Ends R m1 m1') (h2 : Ends R m2 m2') :
    Ends R (if p then m1 else m2) (if p then m1' else m2') := by
  split_ifs
  · exact h1
  · exact h2

end Ends

variable {ι : Type} {B B' : Backend ι} {R : B.σ → B'.σ → Prop} {ps : Option B.π} {ps' : Option B'.π} {α : Type}

/-- the solvers of `B'` have the outcomes of those of `B` that end -/
structure Waits (B B' : Backend ι) (R : B.σ → B'.σ → Prop) (ps : Option B.π) (ps' : Option B'.π) : Prop where
  wings : B'.hasWings = B.hasWings
  props : B'.hasProps = B.hasProps
  Sw : B'.Sw = B.Sw
  lat : B'.lat = B.lat
  long : B'.long = B.long
  propSolve : ∀ d, Ends R (B.propSolve d ps) (B'.propSolve d ps')
  wingSolve : ∀ d c, Ends R (B.wingSolve d c) (B'.wingSolve d c)
  stall : ∀ s s', R s s' → B'.stallLoc s' = B.stallLoc s
  bad : Ends R B.solveBad B'.solveBad

namespace Waits

theorem derivs (hF : Waits B B' R ps ps') : derivOf B' = derivOf B := by
  funext a b k
  unfold derivOf
  rw [hF.lat, hF.long]

theorem of_lock {S S' : Type} {Q : S → S' → Prop} {m : Act S α} {m' : Act S' α} (h : Lock Q Same m m') : Ends Q m m' :=
  fun s s' hs _ => ⟨Outcome.to_eq (h s s' hs).1, (h s s' hs).2⟩

theorem setAero' (f : AeroDict ι → AeroDict ι) : Ends (Alongside (B := B) (B' := B') R) (setAero f) (setAero f) := of_lock (Imitates.setAero' f)
theorem setCtrl' (f : CtrlDict → CtrlDict) : Ends (Alongside (B := B) (B' := B') R) (setCtrl f) (setCtrl f) := of_lock (Imitates.setCtrl' f)
theorem getAero' (f : AeroDict ι → α) : Ends (Alongside (B := B) (B' := B') R) (getAero f) (getAero f) := of_lock (Imitates.getAero' f)
theorem getCtrl' (f : CtrlDict → α) : Ends (Alongside (B := B) (B' := B') R) (getCtrl f) (getCtrl f) := of_lock (Imitates.getCtrl' f)
theorem write (f : Option String) (doc : Doc ι) : Ends (Alongside (B := B) (B' := B') R) (writeFile f doc) (writeFile f doc) := of_lock (Imitates.write f doc)
theorem orRaise' (e : PyErr) (o : Option α) : Ends (Alongside (B := B) (B' := B') R) (Act.orRaise e o) (Act.orRaise e o) := of_lock (Imitates.orRaise' e o)
theorem needKey' (o : Option α) : Ends (Alongside (B := B) (B' := B') R) (needKey o) (needKey o) := of_lock (Imitates.needKey' o)

theorem withAero' (d : AeroDict ι) {m : Act (World B) α} {m' : Act (World B') α} (hm : Ends (Alongside R) m m') :
    Ends (Alongside R) (withAero d m) (withAero d m') := by
  intro w w' h hn
  have hk : Alongside R { w with aero := some d } { w' with aero := some d } := ⟨rfl, h.ctrl, h.files, h.st⟩
  have hm := hm _ _ hk
  unfold withAero at hn ⊢
  rcases hq : m { w with aero := some d } with ⟨e | a, w1⟩ <;> rcases hq' : m' { w' with aero := some d } with ⟨e' | a', w1'⟩ <;>
    rw [hq, hq'] at hm <;> rw [hq] at hn
  · obtain ⟨h1, h2⟩ := hm (fun h => hn (by cases h; rfl))
    cases h1
    exact ⟨rfl, h.aero, h2.ctrl, h2.files, h2.st⟩
  · obtain ⟨h1, h2⟩ := hm (fun h => hn (by cases h; rfl))
    cases h1
  · obtain ⟨h1, h2⟩ := hm (by simp)
    cases h1
  · obtain ⟨h1, h2⟩ := hm (by simp)
    cases h1
    refine ⟨?_, h.aero, h2.ctrl, h2.files, h2.st⟩
    show Except.ok (a, w1'.aero.getD d) = Except.ok (a, w1.aero.getD d)
    have h3 : w1'.aero = w1.aero := h2.aero
    rw [h3]

theorem withCtrl' (c : CtrlDict) {m : Act (World B) α} {m' : Act (World B') α} (hm : Ends (Alongside R) m m') :
    Ends (Alongside R) (withCtrl c m) (withCtrl c m') := by
  intro w w' h hn
  have hk : Alongside R { w with ctrl := some c } { w' with ctrl := some c } := ⟨h.aero, rfl, h.files, h.st⟩
  obtain ⟨h1, h2⟩ := hm _ _ hk hn
  exact ⟨h1, h2.aero, h.ctrl, h2.files, h2.st⟩

theorem onSolver' {m : Act B.σ α} {m' : Act B'.σ α} (hm : Ends R m m') : Ends (Alongside R) (onSolver (B := B) m) (onSolver m') := by
  intro w w' h hn
  obtain ⟨h1, h2⟩ := hm _ _ h.st hn
  exact ⟨h1, h.aero, h.ctrl, h.files, h2⟩

theorem bind' {β : Type} {m : Act (World B) α} {m' : Act (World B') α} {f : α → Act (World B) β} {f' : α → Act (World B') β} (hm : Ends (Alongside R) m m')
    (hf : ∀ a, Ends (Alongside R) (f a) (f' a)) : Ends (Alongside R) (m >>= f) (m' >>= f') := Ends.bind hm hf

theorem pure' (a : α) : Ends (Alongside (B := B) (B' := B') R) (pure a : Act (World B) α) (pure a : Act (World B') α) := Ends.pure _

theorem get' {β γ : Type} {o : World B → γ} {o' : World B' → γ} {f : γ → Act (World B) β} {f' : γ → Act (World B') β}
    (ho : ∀ w w', Alongside R w w' → o' w' = o w) (hf : ∀ g, Ends (Alongside R) (f g) (f' g)) :
    Ends (Alongside R) (get >>= fun w => f (o w)) (get >>= fun w => f' (o' w)) :=
  Ends.getBind fun a a' h => by rw [ho a a' h]; exact hf _

theorem ite' {β : Type} {p : Prop} [Decidable p] {m1 m2 : Act (World B) β} {m1' m2' : Act (World B') β}
    (h1 : Ends (Alongside R) m1 m1') (h2 : Ends (Alongside R) m2 m2') : Ends (Alongside R) (if p then m1 else m2) (if p then m1' else m2') :=
  Ends.ite h1 h2

theorem tryFinite' {m : Act (World B) α} {m' : Act (World B') α} (hm : Ends (Alongside R) m m') :
    Ends (Alongside R) (tryFinite m) (tryFinite m') := Ends.tryFinite hm

theorem aeroGiven' : ∀ (w : World B) (w' : World B'), Alongside R w w' → aeroGiven w' = aeroGiven w := fun _ _ h => by unfold aeroGiven; rw [h.aero]
theorem ctrlGiven' : ∀ (w : World B) (w' : World B'), Alongside R w w' → ctrlGiven w' = ctrlGiven w := fun _ _ h => by unfold ctrlGiven; rw [h.ctrl]

theorem solveProps' (hF : Waits B B' R ps ps') (d : AeroDict ι) : Ends (Alongside R) (solveProps (B := B) ps d) (solveProps (B := B') ps' d) := by
  unfold solveProps
  rw [hF.props]
  refine ite' (bind' (onSolver' (hF.propSolve d)) fun r => ?_) (pure' _)
  rcases r with ⟨r, _ | f⟩
  · exact bind' (Ends.ret _) fun _ => pure' _
  · exact bind' (setAero' _) fun _ => pure' _

theorem solveWings' (hF : Waits B B' R ps ps') : Ends (Alongside R) (solveWings (B := B)) (solveWings (B := B')) := by
  unfold solveWings
  rw [hF.wings]
  refine ite' ?_ (pure' _)
  refine Ends.getBind fun w w' h => ?_
  rw [h.aero, h.ctrl]
  exact bind' (onSolver' (hF.wingSolve _ _)) fun r => pure' _

theorem parts (hF : Waits B B' R ps ps') : Ends (Alongside R) (solveParts (B := B) ps) (solveParts (B := B') ps') := by
  unfold solveParts
  refine bind' (getAero' _) fun d => bind' (solveProps' hF _) fun p => bind' (solveWings' hF) fun w => bind' ?_ fun _ => pure' _
  intro w w' h _
  exact ⟨rfl, h.aero, h.ctrl, h.files, h.st⟩

theorem solve (hF : Waits B B' R ps ps') : Ends (Alongside R) (muSolve (B := B) ps) (muSolve (B := B') ps') := by
  unfold muSolve
  refine get' (o := aeroGiven) (o' := aeroGiven) (f := fun b => if b = true then _ else _) (f' := fun b => if b = true then _ else _) aeroGiven' fun b => ?_
  exact ite' (bind' (parts hF) fun r => pure' _) (bind' (withAero' _ (parts hF)) fun _ => pure' _)

theorem solveFile (hF : Waits B B' R ps ps') (f : Option String) : Ends (Alongside R) (muSolveFile (B := B) ps f) (muSolveFile (B := B') ps' f) := by
  unfold muSolveFile
  refine get' (o := aeroGiven) (o' := aeroGiven) (f := fun b => if b = true then _ else _) (f' := fun b => if b = true then _ else _) aeroGiven' fun b => ?_
  refine ite' (bind' (parts hF) fun r => bind' (write _ _) fun _ => pure' _) (bind' (solve hF) fun r => ?_)
  cases f
  · exact pure' _
  · exact Ends.raise _

theorem central' (hF : Waits B B' R ps ps') {set : ℝ → Act (World B) Unit} {set' : ℝ → Act (World B') Unit}
    (hs : ∀ x, Ends (Alongside R) (set x) (set' x)) (x0 δ : ℝ) :
    Ends (Alongside R) (central ps set x0 δ) (central ps' set' x0 δ) := by
  unfold central
  exact bind' (hs _) fun _ => bind' (solve hF) fun b => bind' (hs _) fun _ => bind' (solve hF) fun f => pure' _

theorem dyn (hF : Waits B B' R ps ps') : Ends (Alongside (B := B) (B' := B') R) dynPressure dynPressure := by
  unfold dynPressure
  have e : dynPress B' = dynPress B := by
    funext d
    unfold dynPress
    rw [hF.Sw]
  rw [hF.wings, e]
  exact ite' (getAero' _) (Ends.raise _)

theorem stabBody' (hF : Waits B B' R ps ps') : Ends (Alongside R) (stabBody (B := B) ps) (stabBody (B := B') ps') := by
  unfold stabBody
  rw [hF.derivs]
  refine bind' (dyn hF) fun DP => bind' (getAero' _) fun a0 =>
    bind' (central' hF (fun x => setAero' _) _ _) fun r => bind' (setAero' _) fun _ => ?_
  exact bind' (getAero' _) fun b0 =>
    bind' (central' hF (fun x => setAero' _) _ _) fun r' => bind' (setAero' _) fun _ => pure' _

theorem dampBody' (hF : Waits B B' R ps ps') : Ends (Alongside R) (dampBody (B := B) ps) (dampBody (B := B') ps') := by
  unfold dampBody
  rw [hF.derivs, hF.lat, hF.long]
  refine bind' (getAero' _) fun V => bind' (dyn hF) fun DP => ite' (Ends.raise _) ?_
  refine bind' (getAero' _) fun p0 => bind' (central' hF (fun x => setAero' _) _ _) fun r => bind' (setAero' _) fun _ => ?_
  refine bind' (getAero' _) fun p0 => bind' (central' hF (fun x => setAero' _) _ _) fun r => bind' (setAero' _) fun _ => ?_
  refine bind' (getAero' _) fun p0 => bind' (central' hF (fun x => setAero' _) _ _) fun r => bind' (setAero' _) fun _ => ?_
  exact pure' _

theorem contBody' (hF : Waits B B' R ps ps') : Ends (Alongside R) (contBody (B := B) ps) (contBody (B := B') ps') := by
  unfold contBody
  rw [hF.derivs]
  refine bind' (dyn hF) fun DP => ?_
  refine bind' (getCtrl' _) fun x => bind' (central' hF (fun x => setCtrl' _) _ _) fun r => bind' (setCtrl' _) fun _ => ?_
  refine bind' (getCtrl' _) fun x => bind' (central' hF (fun x => setCtrl' _) _ _) fun r => bind' (setCtrl' _) fun _ => ?_
  refine bind' (getCtrl' _) fun x => bind' (central' hF (fun x => setCtrl' _) _ _) fun r => bind' (setCtrl' _) fun _ => ?_
  refine bind' (getCtrl' _) fun x => bind' (central' hF (fun x => setCtrl' _) _ _) fun r => bind' (setCtrl' _) fun _ => ?_
  exact pure' _

theorem stability (hF : Waits B B' R ps ps') : Ends (Alongside R) (stabilityDerivatives (B := B) ps) (stabilityDerivatives (B := B') ps') := by
  unfold stabilityDerivatives
  refine get' (o := aeroGiven) (o' := aeroGiven) (f := fun b => if b = true then stabBody ps else _) (f' := fun b => if b = true then stabBody ps' else _) aeroGiven' fun b => ?_
  exact ite' (stabBody' hF) (bind' (withAero' _ (stabBody' hF)) fun _ => pure' _)

theorem damping (hF : Waits B B' R ps ps') : Ends (Alongside R) (dampingDerivatives (B := B) ps) (dampingDerivatives (B := B') ps') := by
  unfold dampingDerivatives
  refine get' (o := aeroGiven) (o' := aeroGiven) (f := fun b => if b = true then dampBody ps else _) (f' := fun b => if b = true then dampBody ps' else _) aeroGiven' fun b => ?_
  exact ite' (dampBody' hF) (bind' (withAero' _ (dampBody' hF)) fun _ => pure' _)

theorem control (hF : Waits B B' R ps ps') : Ends (Alongside R) (controlDerivatives (B := B) ps) (controlDerivatives (B := B') ps') := by
  unfold controlDerivatives
  refine get' (o := ctrlGiven) (o' := ctrlGiven) (f := fun b => if b = true then contBody ps else _) (f' := fun b => if b = true then contBody ps' else _) ctrlGiven' fun b => ?_
  exact ite' (contBody' hF) (withCtrl' _ (contBody' hF))

theorem all (hF : Waits B B' R ps ps') (f : Option String) : Ends (Alongside R) (derivatives (B := B) ps f) (derivatives (B := B') ps' f) := by
  unfold derivatives
  rw [hF.wings]
  refine ite' (bind' (stability hF) fun s => bind' (control hF) fun c => bind' (damping hF) fun d => bind' (write _ _) fun _ => pure' _) ?_
  cases f
  · exact Ends.raise _
  · exact bind' (write _ _) fun _ => pure' _

theorem stallLoop' (hF : Waits B B' R ps ps') : ∀ (n : ℕ) (a : ℝ), Ends (Alongside R) (stallLoop (B := B) ps n a) (stallLoop (B := B') ps' n a) := by
  intro n
  induction n with
  | zero => intro a; exact Ends.ret _
  | succ n ih =>
    intro a
    unfold stallLoop
    refine bind' (setAero' _) fun _ => bind' (tryFinite' (solve hF)) fun r => ?_
    refine Ends.getBind fun w w' h => ?_
    rw [hF.stall _ _ h.st]
    rcases B.stallLoc w.st with _ | s
    · exact ih _
    · rcases r with _ | r
      · exact Ends.raise _
      · exact pure' _

theorem onset (hF : Waits B B' R ps ps') (n : ℕ) : Ends (Alongside R) (stallOnset (B := B) ps n) (stallOnset (B := B') ps' n) := by
  unfold stallOnset
  refine get' (o := aeroGiven) (o' := aeroGiven) (f := fun b => if b = true then stallLoop ps n 0 else _) (f' := fun b => if b = true then stallLoop ps' n 0 else _) aeroGiven' fun b => ?_
  exact ite' (stallLoop' hF _ _) (bind' (withAero' _ (stallLoop' hF _ _)) fun _ => pure' _)

theorem onsetFile (hF : Waits B B' R ps ps') (f : Option String) (n : ℕ) :
    Ends (Alongside R) (stallOnsetFile (B := B) ps f n) (stallOnsetFile (B := B') ps' f n) := by
  unfold stallOnsetFile
  rw [hF.wings]
  refine ite' (bind' (onset hF n) fun r => ?_) ?_
  · cases r
    · exact pure' _
    · exact bind' (write _ _) fun _ => pure' _
  · cases f
    · exact Ends.raise _
    · exact bind' (write _ _) fun _ => pure' _

theorem airspeedLoop' (hF : Waits B B' R ps ps') (W e : ℝ) (k : ℕ) : ∀ (n : ℕ) (x0 y0 x1 y1 : ℝ)
    (s : StallResult) (d : AeroDict ι), Ends (Alongside R) (airspeedLoop (B := B) ps W e k n x0 y0 x1 y1 s d)
      (airspeedLoop (B := B') ps' W e k n x0 y0 x1 y1 s d) := by
  intro n
  induction n with
  | zero => intro x0 y0 x1 y1 s d; exact Ends.ret _
  | succ n ih =>
    intro x0 y0 x1 y1 s d
    unfold airspeedLoop
    refine ite' (Ends.raise _) (ite' (pure' _) (bind' (withAero' _ (onset hF k)) fun ⟨a, x⟩ => ?_))
    rcases a with _ | s2
    · exact pure' _
    · exact ih _ _ _ _ _ _

theorem airspeedBody' (hF : Waits B B' R ps ps') (W e : ℝ) (n k : ℕ) :
    Ends (Alongside R) (airspeedBody (B := B) ps W e n k) (airspeedBody (B := B') ps' W e n k) := by
  unfold airspeedBody
  refine bind' (getAero' _) fun d => bind' (needKey' _) fun x0 => ?_
  refine bind' (withAero' _ (onset hF k)) fun ⟨a, x⟩ => bind' (withAero' _ (onset hF k)) fun ⟨b, y⟩ => ?_
  rcases a with _ | s0 <;> rcases b with _ | s1
  · exact pure' _
  · exact pure' _
  · exact pure' _
  · exact airspeedLoop' hF _ _ _ _ _ _ _ _ _ _

theorem airspeed (hF : Waits B B' R ps ps') (W e : ℝ) (f : Option String) (n k : ℕ) :
    Ends (Alongside R) (stallAirspeed (B := B) ps W e f n k) (stallAirspeed (B := B') ps' W e f n k) := by
  unfold stallAirspeed
  rw [hF.wings]
  refine ite' ?_ ?_
  · refine get' (o := aeroGiven) (o' := aeroGiven) (f := fun b => if b = true then _ else _) (f' := fun b => if b = true then _ else _) aeroGiven' fun b => ?_
    refine ite' (bind' (airspeedBody' hF W e n k) fun r => ?_) (Ends.raise _)
    rcases r with _ | ⟨s, v⟩
    · exact pure' _
    · exact bind' (write _ _) fun _ => pure' _
  · cases f
    · exact Ends.raise _
    · exact bind' (write _ _) fun _ => pure' _

theorem slopes' (hF : Waits B B' R ps ps') (f : Loads → ℝ) : Ends (Alongside R) (slopes (B := B) ps f) (slopes (B := B') ps' f) := by
  unfold slopes
  refine bind' (getAero' _) fun a0 => bind' (central' hF (fun x => setAero' _) _ _) fun r => bind' (setAero' _) fun _ => ?_
  exact bind' (getCtrl' _) fun x => bind' (central' hF (fun x => setCtrl' _) _ _) fun r => bind' (setCtrl' _) fun _ => pure' _

theorem trimLoop' (hF : Waits B B' R ps ps') (L M e : ℝ) (f : Option String) : ∀ (n : ℕ) (a de : ℝ),
    Ends (Alongside R) (trimLoop (B := B) ps L M e f n a de) (trimLoop (B := B') ps' L M e f n a de) := by
  intro n
  induction n with
  | zero => intro a de; exact Ends.ret _
  | succ n ih =>
    intro a de
    unfold trimLoop
    refine bind' (setAero' _) fun _ => bind' (setCtrl' _) fun _ => bind' (solve hF) fun cur => ?_
    refine ite' (bind' (write _ _) fun _ => pure' _) (bind' (slopes' hF _) fun s1 => bind' (slopes' hF _) fun s2 => ?_)
    refine ite' ?_ (ite' (Ends.raise _) (ite' ?_ (ih _ _)))
    · cases f
      · exact Ends.raise _
      · exact bind' (write _ _) fun _ => pure' _
    · cases f
      · exact Ends.raise _
      · exact bind' (write _ _) fun _ => pure' _

theorem trim (hF : Waits B B' R ps ps') (L M e : ℝ) (f : Option String) :
    Ends (Alongside R) (pitchTrim (B := B) ps L M e f) (pitchTrim (B := B') ps' L M e f) := by
  unfold pitchTrim
  refine Ends.getBind fun w w' h => ?_
  have ha := aeroGiven' w w' h
  have hc := ctrlGiven' w w' h
  rw [ha, hc]
  refine ite' (ite' (trimLoop' hF _ _ _ _ _ _ _) (withCtrl' _ (trimLoop' hF _ _ _ _ _ _ _)))
    (ite' (bind' (withAero' _ (trimLoop' hF _ _ _ _ _ _ _)) fun _ => pure' _)
      (bind' (withAero' _ (withCtrl' _ (trimLoop' hF _ _ _ _ _ _ _))) fun _ => pure' _))

theorem sweep (hF : Waits B B' R ps ps') : ∀ l : List ℝ, Ends (Alongside R) (acSweep (B := B) ps l) (acSweep (B := B') ps' l) := by
  intro l
  induction l with
  | nil => exact pure' _
  | cons x l ih =>
    unfold acSweep
    exact bind' (setAero' _) fun _ => bind' (solve hF) fun r => bind' ih fun rs => pure' _

theorem acBody' (hF : Waits B B' R ps ps') (cg : V3) : Ends (Alongside R) (acBody (B := B) ps cg) (acBody (B := B') ps' cg) := by
  unfold acBody
  rw [hF.long]
  refine bind' (getAero' _) fun ao => bind' (dyn hF) fun DP => bind' (sweep hF _) fun rows => ite' (Ends.raise _) ?_
  exact bind' (orRaise' _ _) fun _ => bind' (orRaise' _ _) fun _ => bind' (orRaise' _ _) fun _ => bind' (orRaise' _ _) fun _ => orRaise' _ _

theorem center (hF : Waits B B' R ps ps') (cg : V3) (f : Option String) :
    Ends (Alongside R) (findAeroCenter (B := B) ps cg f) (findAeroCenter (B := B') ps' cg f) := by
  unfold findAeroCenter
  refine get' (o := aeroGiven) (o' := aeroGiven) (f := fun b => if b = true then _ else _) (f' := fun b => if b = true then _ else _) aeroGiven' fun b => ?_
  exact ite' (bind' (acBody' hF cg) fun r => bind' (write _ _) fun _ => pure' _)
    (bind' (withAero' _ (acBody' hF cg)) fun _ => bind' (write _ _) fun _ => pure' _)

theorem liftAt' (hF : Waits B B' R ps ps') (d : AeroDict ι) (x : Option ℝ) :
    Ends (Alongside R) (liftAt (B := B) ps d x) (liftAt (B := B') ps' d x) := by
  cases x
  · exact bind' (onSolver' hF.bad) fun _ => pure' _
  · exact bind' (withAero' _ (tryFinite' (solve hF))) fun _ => pure' _

theorem targetLoop' (hF : Waits B B' R ps ps') (L e : ℝ) : ∀ (n : ℕ) (x0 y0 x1 y1 : Option ℝ) (d : AeroDict ι),
    Ends (Alongside R) (targetLoop (B := B) ps L e n x0 y0 x1 y1 d) (targetLoop (B := B') ps' L e n x0 y0 x1 y1 d) := by
  intro n
  induction n with
  | zero => intro x0 y0 x1 y1 d; exact Ends.ret _
  | succ n ih =>
    intro x0 y0 x1 y1 d
    unfold targetLoop
    exact ite' (pure' _) (bind' (liftAt' hF _ _) fun ⟨a, x⟩ => ite' (pure' _) (ih _ _ _ _ _))

theorem targetBody' (hF : Waits B B' R ps ps') (L e : ℝ) : Ends (Alongside R) (targetBody (B := B) ps L e) (targetBody (B := B') ps' L e) := by
  unfold targetBody
  exact bind' (getAero' _) fun d => bind' (needKey' _) fun x0 => bind' (liftAt' hF _ _) fun r => bind' (liftAt' hF _ _) fun r' =>
    targetLoop' hF _ _ _ _ _ _ _ _

theorem target (hF : Waits B B' R ps ps') (L e : ℝ) (f : Option String) :
    Ends (Alongside R) (targetLift (B := B) ps L e f) (targetLift (B := B') ps' L e f) := by
  unfold targetLift
  refine get' (o := aeroGiven) (o' := aeroGiven) (f := fun b => if b = true then _ else _) (f' := fun b => if b = true then _ else _) aeroGiven' fun b => ?_
  refine ite' (bind' (targetBody' hF L e) fun r => ?_) (bind' (withAero' _ (targetBody' hF L _)) fun r => ?_)
  · cases r
    · cases f
      · exact Ends.raise _
      · exact bind' (write _ _) fun _ => pure' _
    · exact bind' (write _ _) fun _ => pure' _
  · rcases r with ⟨_ | r, x⟩
    · exact Ends.raise _
    · exact bind' (write _ _) fun _ => pure' _

/-- every method -/
theorem any (hF : Waits B B' R ps ps') (cg : V3) (a : Analysis) : Ends (Alongside R) (perform (B := B) ps cg a) (perform (B := B') ps' cg a) := by
  cases a
  case solve f => exact bind' (solveFile hF f) fun _ => pure' _
  case stability => exact bind' (stability hF) fun _ => pure' _
  case damping => exact bind' (damping hF) fun _ => pure' _
  case control => exact bind' (control hF) fun _ => pure' _
  case derivatives f => exact bind' (all hF f) fun _ => pure' _
  case stallOnset f n => exact bind' (onsetFile hF f n) fun _ => pure' _
  case stallAirspeed W e f n k => exact bind' (airspeed hF W e f n k) fun _ => pure' _
  case targetLift L e f => exact bind' (target hF L e f) fun _ => pure' _
  case pitchTrim L M e f => exact bind' (trim hF L M e f) fun _ => pure' _
  case aeroCenter f => exact bind' (center hF cg f) fun _ => pure' _


end Waits
end Verif
