import Verif.Lemmas.Lock
import Verif.Model.MUCalls
import Verif.Spec.PropOrder

/-!
# One run follows another

`Trails R P m m'`: started in states related by `R`, if `m` succeeds then so does `m'`, with related results, in related states.
(Unlike `Lock`, nothing is said when `m` fails.)
-/

namespace Verif
open V3 Act

/-- see the head of the file -/
def Trails {S S' α β : Type} (R : S → S' → Prop) (P : α → β → Prop) (m : Act S α) (m' : Act S' β) : Prop :=
  ∀ s s', R s s' → ∀ a s1, m s = (.ok a, s1) → ∃ b s1', m' s' = (.ok b, s1') ∧ P a b ∧ R s1 s1'

namespace Trails
variable {S S' α β γ δ : Type} {R : S → S' → Prop} {P : α → β → Prop} {Q : γ → δ → Prop}

theorem bind {m : Act S α} {m' : Act S' β} {f : α → Act S γ} {f' : β → Act S' δ} (hm : Trails R P m m')
    (hf : ∀ a a', P a a' → Trails R Q (f a) (f' a')) : Trails R Q (m >>= f) (m' >>= f') := by
  intro s s' hs c s2 h
  obtain ⟨a, s1, h1, h2⟩ := bind_ok.1 h
  obtain ⟨b, s1', k1, k2, k3⟩ := hm s s' hs a s1 h1
  obtain ⟨d, s2', l1, l2, l3⟩ := hf a b k2 s1 s1' k3 c s2 h2
  exact ⟨d, s2', by rw [bind_of_ok k1]; exact l1, l2, l3⟩

theorem pure {a : α} {b : β} (h : P a b) : Trails R P (pure a : Act S α) (pure b : Act S' β) := by
  intro s s' hs c s1 hc
  cases hc
  exact ⟨b, s', rfl, h, hs⟩

theorem ret {a : α} {b : β} (h : P a b) : Trails R P (ret a : Act S α) (ret b : Act S' β) := pure h

theorem raise (e : PyErr) (m' : Act S' β) : Trails R P (raise e : Act S α) m' := by
  intro s s' hs c s1 hc
  cases hc

theorem get : Trails R R (get : Act S S) (get : Act S' S') := by
  intro s s' hs c s1 hc
  cases hc
  exact ⟨s', s', rfl, hs, hs⟩

end Trails

section
variable {ι : Type} {B B' : Backend ι} (R : B.σ → B'.σ → Prop)

/-- the same caller's dictionaries, solver objects related by `R` -/
structure WRel (w : World B) (w' : World B') : Prop where
  aero : w'.aero = w.aero
  ctrl : w'.ctrl = w.ctrl
  st : R w.st w'.st

variable {R} {α : Type}

theorem Trails.setAero (f : AeroDict ι → AeroDict ι) : Trails (WRel (B := B) (B' := B') R) Eq (setAero f) (setAero f) := by
  intro w w' hw a w1 h
  unfold Verif.setAero at h ⊢
  rw [hw.aero]
  rcases hd : w.aero with _ | d <;> rw [hd] at h <;> cases h
  exact ⟨(), _, rfl, rfl, ⟨rfl, hw.ctrl, hw.st⟩⟩

theorem Trails.setCtrl (f : CtrlDict → CtrlDict) : Trails (WRel (B := B) (B' := B') R) Eq (setCtrl f) (setCtrl f) := by
  intro w w' hw a w1 h
  unfold Verif.setCtrl at h ⊢
  rw [hw.ctrl]
  rcases hd : w.ctrl with _ | d <;> rw [hd] at h <;> cases h
  exact ⟨(), _, rfl, rfl, ⟨hw.aero, rfl, hw.st⟩⟩

theorem Trails.getAero (f : AeroDict ι → α) : Trails (WRel (B := B) (B' := B') R) Eq (getAero f) (getAero f) := by
  intro w w' hw a w1 h
  unfold Verif.getAero at h ⊢
  rw [hw.aero]
  rcases hd : w.aero with _ | d <;> rw [hd] at h <;> cases h
  exact ⟨_, _, rfl, rfl, hw⟩

theorem Trails.getCtrl (f : CtrlDict → α) : Trails (WRel (B := B) (B' := B') R) Eq (getCtrl f) (getCtrl f) := by
  intro w w' hw a w1 h
  unfold Verif.getCtrl at h ⊢
  rw [hw.ctrl]
  rcases hd : w.ctrl with _ | d <;> rw [hd] at h <;> cases h
  exact ⟨_, _, rfl, rfl, hw⟩

theorem Trails.withAero {β : Type} {P : α → β → Prop} (d : AeroDict ι) {m : Act (World B) α} {m' : Act (World B') β}
    (hm : Trails (WRel R) P m m') :
    Trails (WRel R) (fun a b => P a.1 b.1 ∧ b.2 = a.2) (withAero d m) (withAero d m') := by
  intro w w' hw a w1 h
  unfold Verif.withAero at h ⊢
  split at h
  · rename_i a0 w0 h0
    cases h
    obtain ⟨b, w2, k1, k2, k3⟩ := hm { w with aero := some d } { w' with aero := some d } ⟨rfl, hw.ctrl, hw.st⟩ _ _ h0
    rw [k1]
    exact ⟨_, _, rfl, ⟨k2, by simp only [k3.aero]⟩, ⟨hw.aero, k3.ctrl, k3.st⟩⟩
  · cases h

theorem Trails.withCtrl {β : Type} {P : α → β → Prop} (c : CtrlDict) {m : Act (World B) α} {m' : Act (World B') β}
    (hm : Trails (WRel R) P m m') :
    Trails (WRel R) P (withCtrl c m) (withCtrl c m') := by
  intro w w' hw a w1 h
  unfold Verif.withCtrl at h ⊢
  rcases h0 : m { w with ctrl := some c } with ⟨r, w0⟩
  rw [h0] at h
  cases h
  obtain ⟨b, w2, k1, k2, k3⟩ := hm { w with ctrl := some c } { w' with ctrl := some c } ⟨hw.aero, rfl, hw.st⟩ _ _ h0
  rw [k1]
  exact ⟨_, _, rfl, k2, ⟨k3.aero, hw.ctrl, k3.st⟩⟩

theorem Trails.onSolver {β : Type} {P : α → β → Prop} {m : Act B.σ α} {m' : Act B'.σ β} (hm : Trails R P m m') :
    Trails (WRel R) P (onSolver m) (onSolver m') := by
  intro w w' hw a w1 h
  unfold Verif.onSolver at h ⊢
  rcases h0 : m w.st with ⟨r, s0⟩
  rw [h0] at h
  cases h
  obtain ⟨b, s1, k1, k2, k3⟩ := hm _ _ hw.st _ _ h0
  rw [k1]
  exact ⟨_, _, rfl, k2, ⟨hw.aero, hw.ctrl, k3⟩⟩

theorem Trails.change {f : World B → World B} {f' : World B' → World B'} (h : ∀ w w', WRel R w w' → WRel R (f w) (f' w')) :
    Trails (WRel R) Eq (Act.change f) (Act.change f') := by
  intro w w' hw a w1 h1
  cases h1
  exact ⟨(), _, rfl, rfl, h w w' hw⟩

theorem Trails.writeFile (f : Option String) (doc doc' : Doc ι) : Trails (WRel (B := B) (B' := B') R) Eq (writeFile f doc) (writeFile f doc') := by
  rcases f with _ | f
  · exact Trails.ret rfl
  · exact Trails.change fun w w' hw => ⟨hw.aero, hw.ctrl, hw.st⟩

/-- `B'` does what `B` does, up to thrust and torque of the propellers -/
structure Follows (B B' : Backend ι) (R : B.σ → B'.σ → Prop) (ps : Option B.π) (ps' : Option B'.π) : Prop where
  wings : B'.hasWings = B.hasWings
  props : B'.hasProps = B.hasProps
  Sw : B'.Sw = B.Sw
  lat : B'.lat = B.lat
  long : B'.long = B.long
  propSolve : ∀ d, Trails R (fun r r' => r'.1.loads = r.1.loads ∧ r'.2 = r.2) (B.propSolve d ps) (B'.propSolve d ps')
  wingSolve : ∀ d c, Trails R Eq (B.wingSolve d c) (B'.wingSolve d c)

namespace Follows
variable {ps : Option B.π} {ps' : Option B'.π} (F : Follows B B' R ps ps')
include F

theorem solveProps (d : AeroDict ι) : Trails (WRel R) (fun r r' => r'.map PropTotals.loads = r.map PropTotals.loads)
    (solveProps ps d) (solveProps ps' d) := by
  unfold Verif.solveProps
  rw [F.props]
  split_ifs
  · refine Trails.bind (Trails.onSolver (F.propSolve d)) ?_
    rintro ⟨r, f⟩ ⟨r', f'⟩ ⟨h1, h2⟩
    simp only at h1 h2
    subst h2
    rcases f' with _ | f
    · refine Trails.bind (P := Eq) (Trails.ret rfl) fun _ _ _ => Trails.pure ?_
      simp [h1]
    · refine Trails.bind (Trails.setAero _) fun _ _ _ => Trails.pure ?_
      simp [h1]
  · exact Trails.pure rfl

theorem solveWings : Trails (WRel R) Eq (solveWings : Act (World B) _) (solveWings : Act (World B') _) := by
  unfold Verif.solveWings
  rw [F.wings]
  split_ifs
  · refine Trails.bind Trails.get fun w w' hw => ?_
    rw [hw.aero, hw.ctrl]
    refine Trails.bind (Trails.onSolver (F.wingSolve _ _)) ?_
    rintro r _ rfl
    exact Trails.pure rfl
  · exact Trails.pure rfl

theorem solveParts : Trails (WRel R) (fun r r' => r'.2.2 = r.2.2) (solveParts ps) (solveParts ps') := by
  unfold Verif.solveParts
  refine Trails.bind (Trails.getAero id) ?_
  rintro d _ rfl
  refine Trails.bind (F.solveProps d) fun pr pr' hpr => ?_
  refine Trails.bind F.solveWings ?_
  rintro wg _ rfl
  refine Trails.bind (Trails.change fun w w' hw => ⟨hw.aero, hw.ctrl, hw.st⟩) fun _ _ _ => Trails.pure ?_
  simp only [totalOf]
  have e1 : (pr'.map fun x => x.loads) = pr.map fun x => x.loads := hpr
  rw [e1]

omit F in
theorem given {w : World B} {w' : World B'} (h : WRel R w w') : aeroGiven w' = aeroGiven w := by
  unfold aeroGiven; rw [h.aero]

theorem muSolve : Trails (WRel R) Eq (muSolve ps) (muSolve ps') := by
  unfold Verif.muSolve
  refine Trails.bind Trails.get fun w w' hw => ?_
  rw [given hw]
  split_ifs
  · refine Trails.bind F.solveParts ?_
    rintro ⟨a, b, c⟩ ⟨a', b', c'⟩ h
    exact Trails.pure h.symm
  · refine Trails.bind (Trails.withAero _ F.solveParts) ?_
    rintro ⟨⟨a, b, c⟩, d⟩ ⟨⟨a', b', c'⟩, d'⟩ ⟨h, -⟩
    exact Trails.pure h.symm

theorem muSolveFile (f : Option String) : Trails (WRel R) Eq (muSolveFile ps f) (muSolveFile ps' f) := by
  unfold Verif.muSolveFile
  refine Trails.bind Trails.get fun w w' hw => ?_
  rw [given hw]
  split_ifs
  · refine Trails.bind F.solveParts ?_
    rintro ⟨a, b, c⟩ ⟨a', b', c'⟩ h
    exact Trails.bind (Trails.writeFile _ _ _) fun _ _ _ => Trails.pure h.symm
  · refine Trails.bind F.muSolve ?_
    rintro T _ rfl
    rcases f with _ | f
    · exact Trails.pure rfl
    · exact Trails.raise _ _

theorem central {set : ℝ → Act (World B) Unit} {set' : ℝ → Act (World B') Unit} (hs : ∀ x, Trails (WRel R) Eq (set x) (set' x)) (x0 dl : ℝ) :
    Trails (WRel R) Eq (central ps set x0 dl) (central ps' set' x0 dl) := by
  unfold Verif.central
  refine Trails.bind (hs _) fun _ _ _ => Trails.bind F.muSolve ?_
  rintro b _ rfl
  refine Trails.bind (hs _) fun _ _ _ => Trails.bind F.muSolve ?_
  rintro a _ rfl
  exact Trails.pure rfl

theorem derivOf : Verif.derivOf B' = Verif.derivOf B := by
  funext a b k
  unfold Verif.derivOf
  rw [F.lat, F.long]

theorem dynPressure : Trails (WRel R) Eq (dynPressure : Act (World B) ℝ) (dynPressure : Act (World B') ℝ) := by
  unfold Verif.dynPressure
  rw [F.wings]
  have : dynPress B' = dynPress B := by funext d; unfold dynPress; rw [F.Sw]
  rw [this]
  split_ifs
  · exact Trails.getAero _
  · exact Trails.raise _ _

omit F in
theorem step {γ : Type} {α : Type} {m : Act (World B) γ} {m' : Act (World B') γ} {f : γ → Act (World B) α} {f' : γ → Act (World B') α}
    (hm : Trails (WRel R) Eq m m') (hf : ∀ a, Trails (WRel R) Eq (f a) (f' a)) : Trails (WRel R) Eq (m >>= f) (m' >>= f') :=
  Trails.bind hm (by rintro a _ rfl; exact hf a)

theorem stabBody : Trails (WRel R) Eq (stabBody ps) (stabBody ps') := by
  unfold Verif.stabBody
  rw [F.derivOf]
  exact step F.dynPressure fun DP => step (Trails.getAero _) fun a0 => step (F.central (fun x => Trails.setAero _) _ _) fun ⟨x, y⟩ =>
    step (Trails.setAero _) fun _ => step (Trails.getAero _) fun b0 => step (F.central (fun x => Trails.setAero _) _ _) fun ⟨x, y⟩ =>
    step (Trails.setAero _) fun _ => Trails.pure rfl

theorem stabilityDerivatives : Trails (WRel R) Eq (stabilityDerivatives ps) (stabilityDerivatives ps') := by
  unfold Verif.stabilityDerivatives
  refine Trails.bind Trails.get fun w w' hw => ?_
  rw [given hw]
  split_ifs
  · exact F.stabBody
  · refine Trails.bind (Trails.withAero _ F.stabBody) ?_
    rintro ⟨a, d⟩ ⟨a', d'⟩ ⟨h, -⟩
    exact Trails.pure h

theorem dampBody : Trails (WRel R) Eq (dampBody ps) (dampBody ps') := by
  unfold Verif.dampBody
  rw [F.derivOf, F.lat, F.long]
  refine step (Trails.getAero _) fun V => step F.dynPressure fun DP => ?_
  by_cases h0 : B.lat = 0 ∨ B.long = 0
  · rw [if_pos h0]
    exact Trails.raise _ _
  · rw [if_neg h0, if_neg h0]
    exact step (Trails.getAero _) fun a0 => step (F.central (fun x => Trails.setAero _) _ _) fun ⟨x, y⟩ =>
      step (Trails.setAero _) fun _ => step (Trails.getAero _) fun b0 => step (F.central (fun x => Trails.setAero _) _ _) fun ⟨x, y⟩ =>
      step (Trails.setAero _) fun _ => step (Trails.getAero _) fun b0 => step (F.central (fun x => Trails.setAero _) _ _) fun ⟨x, y⟩ =>
      step (Trails.setAero _) fun _ => Trails.pure rfl

theorem dampingDerivatives : Trails (WRel R) Eq (dampingDerivatives ps) (dampingDerivatives ps') := by
  unfold Verif.dampingDerivatives
  refine Trails.bind Trails.get fun w w' hw => ?_
  rw [given hw]
  split_ifs
  · exact F.dampBody
  · refine Trails.bind (Trails.withAero _ F.dampBody) ?_
    rintro ⟨a, d⟩ ⟨a', d'⟩ ⟨h, -⟩
    exact Trails.pure h

theorem contBody : Trails (WRel R) Eq (contBody ps) (contBody ps') := by
  unfold Verif.contBody
  rw [F.derivOf]
  exact step F.dynPressure fun DP => step (Trails.getCtrl _) fun a0 => step (F.central (fun x => Trails.setCtrl _) _ _) fun ⟨x, y⟩ =>
    step (Trails.setCtrl _) fun _ => step (Trails.getCtrl _) fun b0 => step (F.central (fun x => Trails.setCtrl _) _ _) fun ⟨x, y⟩ =>
    step (Trails.setCtrl _) fun _ => step (Trails.getCtrl _) fun b0 => step (F.central (fun x => Trails.setCtrl _) _ _) fun ⟨x, y⟩ =>
    step (Trails.setCtrl _) fun _ => step (Trails.getCtrl _) fun b0 => step (F.central (fun x => Trails.setCtrl _) _ _) fun ⟨x, y⟩ =>
    step (Trails.setCtrl _) fun _ => Trails.pure rfl

theorem controlDerivatives : Trails (WRel R) Eq (controlDerivatives ps) (controlDerivatives ps') := by
  unfold Verif.controlDerivatives
  refine Trails.bind Trails.get fun w w' hw => ?_
  rw [show ctrlGiven w' = ctrlGiven w by unfold ctrlGiven; rw [hw.ctrl]]
  split_ifs
  · exact F.contBody
  · exact Trails.withCtrl _ F.contBody

theorem derivatives (f : Option String) : Trails (WRel R) Eq (derivatives ps f) (derivatives ps' f) := by
  unfold Verif.derivatives
  rw [F.wings]
  split_ifs
  · exact step F.stabilityDerivatives fun s => step F.controlDerivatives fun c => step F.dampingDerivatives fun d =>
      step (Trails.writeFile _ _ _) fun _ => Trails.pure rfl
  · rcases f with _ | f
    · exact Trails.raise _ _
    · exact step (Trails.writeFile _ _ _) fun _ => Trails.pure rfl

theorem acSweep (l : List ℝ) : Trails (WRel R) Eq (acSweep ps l) (acSweep ps' l) := by
  induction l with
  | nil => exact Trails.pure rfl
  | cons x t ih =>
    unfold Verif.acSweep
    exact step (Trails.setAero _) fun _ => step F.muSolve fun r => step ih fun rs => Trails.pure rfl

omit F in
theorem orRaise {α : Type} (e : PyErr) (x : Option α) :
    Trails (WRel (B := B) (B' := B') R) Eq (Act.orRaise e x) (Act.orRaise e x) := by
  rcases x with _ | a
  · exact Trails.raise _ _
  · exact Trails.ret rfl

theorem acBody (cg : V3) : Trails (WRel R) Eq (acBody ps cg) (acBody ps' cg) := by
  unfold Verif.acBody
  rw [F.long]
  refine step (Trails.getAero _) fun V => step F.dynPressure fun DP => step (F.acSweep _) fun rows => ?_
  by_cases h0 : DP = 0 ∨ B.long = 0
  · rw [if_pos h0]
    exact Trails.raise _ _
  · rw [if_neg h0, if_neg h0]
    exact step (orRaise _ _) fun _ => step (orRaise _ _) fun _ => step (orRaise _ _) fun _ => step (orRaise _ _) fun _ => orRaise _ _

theorem findAeroCenter (cg : V3) (f : Option String) : Trails (WRel R) Eq (findAeroCenter ps cg f) (findAeroCenter ps' cg f) := by
  unfold Verif.findAeroCenter
  refine Trails.bind Trails.get fun w w' hw => ?_
  rw [given hw]
  split_ifs
  · exact step (F.acBody cg) fun r => step (Trails.writeFile _ _ _) fun _ => Trails.pure rfl
  · refine Trails.bind (Trails.withAero _ (F.acBody cg)) ?_
    rintro ⟨a, d⟩ ⟨a', d'⟩ ⟨h, -⟩
    simp only at h
    subst h
    exact step (Trails.writeFile _ _ _) fun _ => Trails.pure rfl

/-- the analyses that make a fixed sequence of solves -/
theorem perform (cg : V3) {a : Analysis} (ha : a.Direct) : Trails (WRel R) Eq (perform ps cg a) (perform ps' cg a) := by
  cases a with
  | solve f => exact step (F.muSolveFile f) fun _ => Trails.pure rfl
  | stability => exact step F.stabilityDerivatives fun _ => Trails.pure rfl
  | damping => exact step F.dampingDerivatives fun _ => Trails.pure rfl
  | control => exact step F.controlDerivatives fun _ => Trails.pure rfl
  | derivatives f => exact step (F.derivatives f) fun _ => Trails.pure rfl
  | aeroCenter f => exact step (F.findAeroCenter cg f) fun _ => Trails.pure rfl
  | stallOnset f n => exact ha.elim
  | stallAirspeed W e f n k => exact ha.elim
  | targetLift L e f => exact ha.elim
  | pitchTrim L M e f => exact ha.elim

end Follows
end

end Verif
