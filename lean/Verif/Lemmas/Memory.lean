import Verif.Lemmas.Lock
import Verif.Model.MUCalls

/-!
# Two objects with different pasts in lockstep

The same analysis on two `MachUp` objects for the same aircraft without propellers, whose solvers are in different states.
-/

namespace Verif
open V3 Act

variable {ι : Type} {B : Backend ι} {need need' : Prop} {K : B.σ → B.σ → Prop} {ps : Option B.π} {α : Type}

/-- equal values -/
def Same (a b : α) : Prop := b = a

/-- What a past that related states do not share has no influence on.  `need`: only if the controls are given. -/
structure Forgets (B : Backend ι) (need : Prop) (K : B.σ → B.σ → Prop) : Prop where
  noProps : B.hasProps = false
  wing : ∀ (d : AeroDict ι) (c : Option CtrlDict), d.truthy = true → (need → c.any CtrlDict.truthy = true) →
    Lock K Same (B.wingSolve d c) (B.wingSolve d c)
  stall : ∀ (d : AeroDict ι) (c : Option CtrlDict) s s', d.truthy = true → (need → c.any CtrlDict.truthy = true) → K s s' →
    (∀ e, (B.wingSolve d c s).1 = .error e → e = .nonfinite) →
    B.stallLoc (B.wingSolve d c s').2 = B.stallLoc (B.wingSolve d c s).2
  bad : Lock K Same B.solveBad B.solveBad

theorem Forgets.given (h : Forgets B need K) : Forgets B True K where
  noProps := h.noProps
  wing d c hd hc := h.wing d c hd fun _ => hc trivial
  stall d c s s' hd hc := h.stall d c s s' hd fun _ => hc trivial
  bad := h.bad

variable {F F' : List (String × Doc ι)}

/-- same arguments, the same files written since `F` and `F'`, related solvers -/
structure Alike (need : Prop) (K : B.σ → B.σ → Prop) (F F' : List (String × Doc ι)) (w w' : World B) : Prop where
  aero : w'.aero = w.aero
  ctrl : w'.ctrl = w.ctrl
  files : ∃ l, w.files = F ++ l ∧ w'.files = F' ++ l
  given : need → ctrlGiven w = true
  st : K w.st w'.st

theorem solveParts_noProps (hp : B.hasProps = false) (w : World B) {d : AeroDict ι} (hd : w.aero = some d) :
    solveParts ps w =
      if B.hasWings then
        match B.wingSolve d w.ctrl w.st with
        | (.ok R, st) => (.ok (some R, none, totalOf none (some R)), { w with st := st, objs := w.objs ++ [totalOf none (some R)] })
        | (.error e, st) => (.error e, { w with st := st })
      else (.ok (none, none, totalOf (ι := ι) none none), { w with objs := w.objs ++ [totalOf (ι := ι) none none] }) := by
  have h1 : getAero id w = (.ok d, w) := by unfold getAero; rw [hd]; rfl
  have h2 : solveProps ps d w = (.ok none, w) := by unfold solveProps; rw [hp]; rfl
  unfold solveParts
  rw [bind_of_ok h1, bind_of_ok h2, bind_def]
  unfold solveWings
  cases hw : B.hasWings
  · rfl
  · simp only [if_true]
    rw [get_bind, bind_def]
    unfold onSolver
    rw [hd, Option.getD_some]
    rcases B.wingSolve d w.ctrl w.st with ⟨e | R, st⟩ <;> rfl

/-- `solve` of an aircraft without propellers -/
theorem muSolve_noProps (hp : B.hasProps = false) (w : World B) {d : AeroDict ι} (hd : w.aero = some d) (ht : d.truthy = true) :
    muSolve ps w =
      if B.hasWings then
        match B.wingSolve d w.ctrl w.st with
        | (.ok R, st) => (.ok (totalOf none (some R)), { w with st := st, objs := w.objs ++ [totalOf none (some R)] })
        | (.error e, st) => (.error e, { w with st := st })
      else (.ok (totalOf (ι := ι) none none), { w with objs := w.objs ++ [totalOf (ι := ι) none none] }) := by
  have hg : aeroGiven w = true := by unfold aeroGiven; rw [hd]; exact ht
  unfold muSolve
  rw [get_bind, if_pos hg, bind_def, solveParts_noProps hp w hd]
  cases hw : B.hasWings
  · rfl
  · simp only [if_true]
    rcases B.wingSolve d w.ctrl w.st with ⟨e | R, st⟩ <;> rfl

/-- one solve on both objects -/
theorem alike_solveParts (hF : Forgets B need K) {w w' : World B} (h : Alike need K F F' w w') {d : AeroDict ι} (hd : w.aero = some d)
    (ht : d.truthy = true) :
    (solveParts ps w').1 = (solveParts ps w).1 ∧ Alike need K F F' (solveParts ps w).2 (solveParts ps w').2 ∧
      (B.hasWings = true → (∀ e, (solveParts ps w).1 = .error e → e = .nonfinite) →
        B.stallLoc (solveParts ps w').2.st = B.stallLoc (solveParts ps w).2.st) := by
  rw [solveParts_noProps hF.noProps w hd, solveParts_noProps hF.noProps w' (h.aero.trans hd), h.ctrl]
  cases hw : B.hasWings
  · exact ⟨rfl, ⟨h.aero, rfl, h.files, h.given, h.st⟩, fun hh => by simp at hh⟩
  · simp only [if_true]
    have h1 := hF.wing d w.ctrl ht h.given w.st w'.st h.st
    have h2 := hF.stall d w.ctrl w.st w'.st ht h.given h.st
    rcases hq : B.wingSolve d w.ctrl w.st with ⟨e | R, st⟩ <;> rcases hq' : B.wingSolve d w.ctrl w'.st with ⟨e' | R', st'⟩ <;>
      rw [hq, hq'] at h1 h2
    · have he : e = e' := h1.1
      subst he
      refine ⟨rfl, ⟨h.aero, rfl, h.files, h.given, h1.2⟩, fun _ hh => h2 fun e he => ?_⟩
      cases he
      exact hh _ rfl
    · exact h1.1.elim
    · exact h1.1.elim
    · have he : R' = R := h1.1
      subst he
      exact ⟨rfl, ⟨h.aero, rfl, h.files, h.given, h1.2⟩, fun _ hh => h2 fun e he => by cases he⟩

theorem Outcome.of_eq {ε : Type} {r r' : Except ε α} (h : r' = r) : Outcome Same r r' := by
  subst h; cases r' <;> rfl

theorem Outcome.to_eq {ε : Type} {r r' : Except ε α} (h : Outcome Same r r') : r' = r := Outcome.eq h

/-- `solve` on both objects -/
theorem alike_muSolve (hF : Forgets B need K) {w w' : World B} (h : Alike need K F F' w w') :
    (muSolve ps w').1 = (muSolve ps w).1 ∧ Alike need K F F' (muSolve ps w).2 (muSolve ps w').2 ∧
      (B.hasWings = true → (∀ e, (muSolve ps w).1 = .error e → e = .nonfinite) →
        B.stallLoc (muSolve ps w').2.st = B.stallLoc (muSolve ps w).2.st) := by
  have hg : aeroGiven w' = aeroGiven w := by unfold aeroGiven; rw [h.aero]
  unfold muSolve
  rw [get_bind, get_bind, hg]
  cases hb : aeroGiven w
  · simp only [Bool.false_eq_true, if_false]
    have ht : (defaultAeroDict : AeroDict ι).truthy = true := rfl
    have hk : Alike need K F F' { w with aero := some defaultAeroDict } { w' with aero := some defaultAeroDict } :=
      ⟨rfl, h.ctrl, h.files, h.given, h.st⟩
    obtain ⟨h1, h2, h3⟩ := alike_solveParts (ps := ps) hF hk rfl ht
    rw [bind_def, bind_def]
    unfold withAero
    rcases hq : solveParts ps { w with aero := some defaultAeroDict } with ⟨e | ⟨a, b, c⟩, w1⟩ <;>
      rcases hq' : solveParts ps { w' with aero := some defaultAeroDict } with ⟨e' | ⟨a', b', c'⟩, w1'⟩ <;>
      rw [hq, hq'] at h1 h2 h3
    · cases h1
      exact ⟨rfl, ⟨h.aero, h2.ctrl, h2.files, h2.given, h2.st⟩, fun hw hh => h3 hw fun e he => by cases he; exact hh _ rfl⟩
    · cases h1
    · cases h1
    · cases h1
      exact ⟨rfl, ⟨h.aero, h2.ctrl, h2.files, h2.given, h2.st⟩, fun hw hh => h3 hw fun e he => by cases he⟩
  · simp only [if_true]
    obtain ⟨d, hd, ht⟩ : ∃ d, w.aero = some d ∧ d.truthy = true := by
      unfold aeroGiven at hb
      rcases hd : w.aero with _ | d
      · rw [hd] at hb; cases hb
      · exact ⟨d, rfl, by rw [hd] at hb; exact hb⟩
    obtain ⟨h1, h2, h3⟩ := alike_solveParts (ps := ps) hF h hd ht
    rw [bind_def, bind_def]
    rcases hq : solveParts ps w with ⟨e | ⟨a, b, c⟩, w1⟩ <;>
      rcases hq' : solveParts ps w' with ⟨e' | ⟨a', b', c'⟩, w1'⟩ <;>
      rw [hq, hq'] at h1 h2 h3
    · cases h1
      exact ⟨rfl, h2, fun hw hh => h3 hw fun e he => by cases he; exact hh _ rfl⟩
    · cases h1
    · cases h1
    · cases h1
      exact ⟨rfl, h2, fun hw hh => h3 hw fun e he => by cases he⟩

namespace Alikes

theorem solve (hF : Forgets B need K) : Lock (Alike need K F F') Same (muSolve ps) (muSolve ps) := fun _ _ h =>
  ⟨Outcome.of_eq (alike_muSolve hF h).1, (alike_muSolve hF h).2.1⟩

theorem setAero' (f : AeroDict ι → AeroDict ι) : Lock (Alike need K F F') Same (setAero f) (setAero f) := by
  intro w w' h
  unfold setAero
  rw [h.aero]
  rcases w.aero with _ | d
  · exact ⟨rfl, h⟩
  · exact ⟨rfl, rfl, h.ctrl, h.files, h.given, h.st⟩

theorem setCtrl' (f : CtrlDict → CtrlDict) (hf : ∀ c, (f c).truthy = true) : Lock (Alike need K F F') Same (setCtrl f) (setCtrl f) := by
  intro w w' h
  unfold setCtrl
  rw [h.ctrl]
  rcases w.ctrl with _ | c
  · exact ⟨rfl, h⟩
  · exact ⟨rfl, h.aero, rfl, h.files, fun _ => hf c, h.st⟩

theorem getAero' (f : AeroDict ι → α) : Lock (Alike need K F F') Same (getAero f) (getAero f) := by
  intro w w' h
  unfold getAero
  rw [h.aero]
  rcases w.aero with _ | d <;> exact ⟨rfl, h⟩

theorem getCtrl' (f : CtrlDict → α) : Lock (Alike need K F F') Same (getCtrl f) (getCtrl f) := by
  intro w w' h
  unfold getCtrl
  rw [h.ctrl]
  rcases w.ctrl with _ | d <;> exact ⟨rfl, h⟩

theorem write (f : Option String) (doc : Doc ι) : Lock (Alike need K F F') Same (writeFile f doc) (writeFile f doc) := by
  intro w w' h
  rcases f with _ | f
  · exact ⟨rfl, h⟩
  · obtain ⟨l, h1, h2⟩ := h.files
    refine ⟨rfl, h.aero, h.ctrl, ⟨l ++ [(f, doc)], ?_, ?_⟩, h.given, h.st⟩
    · show w.files ++ _ = _; rw [h1, List.append_assoc]
    · show w'.files ++ _ = _; rw [h2, List.append_assoc]

theorem withAero' (d : AeroDict ι) {m : Act (World B) α} (hm : Lock (Alike need K F F') Same m m) :
    Lock (Alike need K F F') Same (withAero d m) (withAero d m) := by
  intro w w' h
  have hk : Alike need K F F' { w with aero := some d } { w' with aero := some d } := ⟨rfl, h.ctrl, h.files, h.given, h.st⟩
  obtain ⟨h1, h2⟩ := hm _ _ hk
  have hc : (m { w with aero := some d }).2.ctrl = (m { w with aero := some d }).2.ctrl := rfl
  unfold withAero
  rcases hq : m { w with aero := some d } with ⟨e | a, w1⟩ <;> rcases hq' : m { w' with aero := some d } with ⟨e' | a', w1'⟩ <;>
    rw [hq, hq'] at h1 h2
  · exact ⟨h1, h.aero, h2.ctrl, h2.files, h2.given, h2.st⟩
  · exact h1.elim
  · exact h1.elim
  · have h1 : a' = a := h1
    subst h1
    refine ⟨?_, h.aero, h2.ctrl, h2.files, h2.given, h2.st⟩
    show (a', w1'.aero.getD d) = (a', w1.aero.getD d)
    rw [h2.aero]

theorem withCtrl' (c : CtrlDict) (hc : c.truthy = true) {m : Act (World B) α} (hm : Lock (Alike True K F F') Same m m) :
    Lock (Alike need K F F') Same (withCtrl c m) (withCtrl c m) := by
  intro w w' h
  have hk : Alike True K F F' { w with ctrl := some c } { w' with ctrl := some c } := ⟨h.aero, rfl, h.files, fun _ => hc, h.st⟩
  obtain ⟨h1, h2⟩ := hm _ _ hk
  exact ⟨h1, h2.aero, h.ctrl, h2.files, h.given, h2.st⟩

theorem onSolver' {m : Act B.σ α} (hm : Lock K Same m m) : Lock (Alike need K F F') Same (onSolver m) (onSolver m) := by
  intro w w' h
  obtain ⟨h1, h2⟩ := hm _ _ h.st
  exact ⟨h1, h.aero, h.ctrl, h.files, h.given, h2⟩

theorem bind' {β : Type} {m : Act (World B) α} {f : α → Act (World B) β} (hm : Lock (Alike need K F F') Same m m)
    (hf : ∀ a, Lock (Alike need K F F') Same (f a) (f a)) : Lock (Alike need K F F') Same (m >>= f) (m >>= f) :=
  hm.bind fun a a' h => by
    have h : a' = a := h
    subst h
    exact hf a'

theorem pure' (a : α) : Lock (Alike (B := B) need K F F') Same (pure a : Act (World B) α) (pure a) := Lock.pure rfl

/-- looking at the object: only the arguments -/
theorem get' {β γ : Type} {o : World B → γ} {f : γ → Act (World B) β} (ho : ∀ w w', Alike need K F F' w w' → o w' = o w)
    (hf : ∀ g, Lock (Alike need K F F') Same (f g) (f g)) :
    Lock (Alike need K F F') Same (get >>= fun w => f (o w)) (get >>= fun w => f (o w)) :=
  Lock.get.bind fun a a' h => by rw [ho a a' h]; exact hf _

theorem ite' {p : Prop} [Decidable p] {m m' : Act (World B) α} (h1 : Lock (Alike need K F F') Same m m)
    (h2 : Lock (Alike need K F F') Same m' m') : Lock (Alike need K F F') Same (if p then m else m') (if p then m else m') := by
  split_ifs
  · exact h1
  · exact h2

theorem tryFinite' {m : Act (World B) α} (hm : Lock (Alike need K F F') Same m m) :
    Lock (Alike need K F F') Same (tryFinite m) (tryFinite m) :=
  hm.tryFinite.mono fun a b h => by
    cases h with
    | some h => exact congrArg some h
    | none => rfl

theorem needKey' (o : Option α) : Lock (Alike (B := B) need K F F') Same (needKey o) (needKey o) := by
  cases o
  · exact Lock.raise _
  · exact Lock.ret rfl

theorem orRaise' (e : PyErr) (o : Option α) : Lock (Alike (B := B) need K F F') Same (Act.orRaise e o) (Act.orRaise e o) := by
  cases o
  · exact Lock.raise _
  · exact Lock.ret rfl

theorem central' (hF : Forgets B need K) {set : ℝ → Act (World B) Unit} (hs : ∀ x, Lock (Alike need K F F') Same (set x) (set x))
    (x0 δ : ℝ) : Lock (Alike need K F F') Same (central ps set x0 δ) (central ps set x0 δ) := by
  unfold central
  exact bind' (hs _) fun _ => bind' (solve hF) fun b => bind' (hs _) fun _ => bind' (solve hF) fun f => pure' _

theorem dyn : Lock (Alike (B := B) need K F F') Same dynPressure dynPressure := by
  unfold dynPressure
  exact ite' (getAero' _) (Lock.raise _)

theorem stabBody' (hF : Forgets B need K) : Lock (Alike need K F F') Same (stabBody ps) (stabBody ps) := by
  unfold stabBody
  refine bind' dyn fun DP => bind' (getAero' _) fun a0 => bind' (central' hF (fun x => setAero' _) _ _) fun r => ?_
  refine bind' (setAero' _) fun _ => bind' (getAero' _) fun b0 => bind' (central' hF (fun x => setAero' _) _ _) fun r' => ?_
  exact bind' (setAero' _) fun _ => pure' _

theorem dampBody' (hF : Forgets B need K) : Lock (Alike need K F F') Same (dampBody ps) (dampBody ps) := by
  unfold dampBody
  refine bind' (getAero' _) fun V => bind' dyn fun DP => ite' (Lock.raise _) ?_
  refine bind' (getAero' _) fun p0 => bind' (central' hF (fun x => setAero' _) _ _) fun r => bind' (setAero' _) fun _ => ?_
  refine bind' (getAero' _) fun p0 => bind' (central' hF (fun x => setAero' _) _ _) fun r => bind' (setAero' _) fun _ => ?_
  refine bind' (getAero' _) fun p0 => bind' (central' hF (fun x => setAero' _) _ _) fun r => bind' (setAero' _) fun _ => ?_
  exact pure' _

theorem truthy_aileron (x : ℝ) (c : CtrlDict) : ({ c with aileron := some x } : CtrlDict).truthy = true := by
  simp [CtrlDict.truthy]
theorem truthy_elevator (x : ℝ) (c : CtrlDict) : ({ c with elevator := some x } : CtrlDict).truthy = true := by
  simp [CtrlDict.truthy]
theorem truthy_rudder (x : ℝ) (c : CtrlDict) : ({ c with rudder := some x } : CtrlDict).truthy = true := by
  simp [CtrlDict.truthy]
theorem truthy_flap (x : ℝ) (c : CtrlDict) : ({ c with flap := some x } : CtrlDict).truthy = true := by
  simp [CtrlDict.truthy]

theorem contBody' (hF : Forgets B need K) : Lock (Alike need K F F') Same (contBody ps) (contBody ps) := by
  unfold contBody
  refine bind' dyn fun DP => ?_
  refine bind' (getCtrl' _) fun a0 => bind' (central' hF (fun x => setCtrl' _ (truthy_aileron x)) _ _) fun r =>
    bind' (setCtrl' _ (truthy_aileron _)) fun _ => ?_
  refine bind' (getCtrl' _) fun a0 => bind' (central' hF (fun x => setCtrl' _ (truthy_elevator x)) _ _) fun r =>
    bind' (setCtrl' _ (truthy_elevator _)) fun _ => ?_
  refine bind' (getCtrl' _) fun a0 => bind' (central' hF (fun x => setCtrl' _ (truthy_rudder x)) _ _) fun r =>
    bind' (setCtrl' _ (truthy_rudder _)) fun _ => ?_
  refine bind' (getCtrl' _) fun a0 => bind' (central' hF (fun x => setCtrl' _ (truthy_flap x)) _ _) fun r =>
    bind' (setCtrl' _ (truthy_flap _)) fun _ => ?_
  exact pure' _

theorem aeroGiven' : ∀ w w' : World B, Alike need K F F' w w' → aeroGiven w' = aeroGiven w := fun w w' h => by
  unfold aeroGiven; rw [h.aero]
theorem ctrlGiven' : ∀ w w' : World B, Alike need K F F' w w' → ctrlGiven w' = ctrlGiven w := fun w w' h => by
  unfold ctrlGiven; rw [h.ctrl]

theorem stability (hF : Forgets B need K) : Lock (Alike need K F F') Same (stabilityDerivatives ps) (stabilityDerivatives ps) := by
  unfold stabilityDerivatives
  refine get' (o := aeroGiven) (f := fun b => if b = true then stabBody ps else _) aeroGiven' fun b => ?_
  exact ite' (stabBody' hF) (bind' (withAero' _ (stabBody' hF)) fun r => pure' _)

theorem damping (hF : Forgets B need K) : Lock (Alike need K F F') Same (dampingDerivatives ps) (dampingDerivatives ps) := by
  unfold dampingDerivatives
  refine get' (o := aeroGiven) (f := fun b => if b = true then dampBody ps else _) aeroGiven' fun b => ?_
  exact ite' (dampBody' hF) (bind' (withAero' _ (dampBody' hF)) fun r => pure' _)

theorem control (hF : Forgets B need K) : Lock (Alike need K F F') Same (controlDerivatives ps) (controlDerivatives ps) := by
  unfold controlDerivatives
  refine get' (o := ctrlGiven) (f := fun b => if b = true then contBody ps else _) ctrlGiven' fun b => ?_
  exact ite' (contBody' hF) (withCtrl' _ rfl (contBody' hF.given))

theorem all (hF : Forgets B need K) (f : Option String) : Lock (Alike need K F F') Same (derivatives ps f) (derivatives ps f) := by
  unfold derivatives
  refine ite' (bind' (stability hF) fun s => bind' (control hF) fun c => bind' (damping hF) fun d => bind' (write _ _) fun _ => pure' _) ?_
  cases f
  · exact Lock.raise _
  · exact bind' (write _ _) fun _ => pure' _

theorem stallLoop' (hF : Forgets B need K) (hw : B.hasWings = true) : ∀ (n : ℕ) (a : ℝ),
    Lock (Alike need K F F') Same (stallLoop ps n a) (stallLoop ps n a) := by
  intro n
  induction n with
  | zero => intro a; exact Lock.ret rfl
  | succ n ih =>
    intro a
    unfold stallLoop
    refine bind' (setAero' _) fun _ => ?_
    intro w w' h
    obtain ⟨h1, h2, h3⟩ := alike_muSolve (ps := ps) hF h
    rw [bind_def, bind_def]
    unfold Act.tryFinite
    have key : ∀ (x : Option Loads) (v v' : World B), Alike need K F F' v v' → B.stallLoc v'.st = B.stallLoc v.st →
        Outcome Same
          ((get >>= fun w => match B.stallLoc w.st with
            | some s => match x with
              | some r => pure (some ⟨s.wing, s.span, round2 a, r.FL⟩)
              | none => Act.raise .nonfinite
            | none => stallLoop ps n (a + 0.1) : Act (World B) (Option StallResult)) v).1
          ((get >>= fun w => match B.stallLoc w.st with
            | some s => match x with
              | some r => pure (some ⟨s.wing, s.span, round2 a, r.FL⟩)
              | none => Act.raise .nonfinite
            | none => stallLoop ps n (a + 0.1) : Act (World B) (Option StallResult)) v').1 ∧
        Alike need K F F'
          ((get >>= fun w => match B.stallLoc w.st with
            | some s => match x with
              | some r => pure (some ⟨s.wing, s.span, round2 a, r.FL⟩)
              | none => Act.raise .nonfinite
            | none => stallLoop ps n (a + 0.1) : Act (World B) (Option StallResult)) v).2
          ((get >>= fun w => match B.stallLoc w.st with
            | some s => match x with
              | some r => pure (some ⟨s.wing, s.span, round2 a, r.FL⟩)
              | none => Act.raise .nonfinite
            | none => stallLoop ps n (a + 0.1) : Act (World B) (Option StallResult)) v').2 := by
      intro x v v' hv hs
      rw [get_bind, get_bind, hs]
      rcases B.stallLoc v.st with _ | s
      · exact ih _ _ _ hv
      · rcases x with _ | r
        · exact ⟨rfl, hv⟩
        · exact ⟨rfl, hv⟩
    rcases hq : muSolve ps w with ⟨e | a, w1⟩ <;> rcases hq' : muSolve ps w' with ⟨e' | a', w1'⟩ <;> rw [hq, hq'] at h1 h2 h3
    · cases h1
      cases e
      case nonfinite => exact key none w1 w1' h2 (h3 hw fun e he => by cases he; rfl)
      all_goals exact ⟨rfl, h2⟩
    · cases h1
    · cases h1
    · cases h1
      exact key (some _) w1 w1' h2 (h3 hw fun e he => by cases he)

theorem onset (hF : Forgets B need K) (hw : B.hasWings = true) (n : ℕ) :
    Lock (Alike need K F F') Same (stallOnset ps n) (stallOnset ps n) := by
  unfold stallOnset
  refine get' (o := aeroGiven) (f := fun b => if b = true then stallLoop ps n 0 else _) aeroGiven' fun b => ?_
  exact ite' (stallLoop' hF hw _ _) (bind' (withAero' _ (stallLoop' hF hw _ _)) fun r => pure' _)

theorem onsetFile (hF : Forgets B need K) (f : Option String) (n : ℕ) :
    Lock (Alike need K F F') Same (stallOnsetFile ps f n) (stallOnsetFile ps f n) := by
  unfold stallOnsetFile
  cases hw : B.hasWings
  · simp only [Bool.false_eq_true, if_false]
    cases f
    · exact Lock.raise _
    · exact bind' (write _ _) fun _ => pure' _
  · simp only [if_true]
    refine bind' (onset hF hw n) fun r => ?_
    cases r
    · exact pure' _
    · exact bind' (write _ _) fun _ => pure' _

theorem airspeedLoop' (hF : Forgets B need K) (hw : B.hasWings = true) (W e : ℝ) (k : ℕ) : ∀ (n : ℕ) (x0 y0 x1 y1 : ℝ)
    (s : StallResult) (d : AeroDict ι), Lock (Alike need K F F') Same (airspeedLoop ps W e k n x0 y0 x1 y1 s d)
      (airspeedLoop ps W e k n x0 y0 x1 y1 s d) := by
  intro n
  induction n with
  | zero => intro x0 y0 x1 y1 s d; exact Lock.ret rfl
  | succ n ih =>
    intro x0 y0 x1 y1 s d
    unfold airspeedLoop
    refine ite' (Lock.raise _) (ite' (pure' _) (bind' (withAero' _ (onset hF hw k)) fun r => ?_))
    rcases r with ⟨_ | s2, d'⟩
    · exact pure' _
    · exact ih _ _ _ _ _ _

theorem airspeed (hF : Forgets B need K) (W e : ℝ) (f : Option String) (n k : ℕ) :
    Lock (Alike need K F F') Same (stallAirspeed ps W e f n k) (stallAirspeed ps W e f n k) := by
  unfold stallAirspeed
  cases hw : B.hasWings
  · simp only [Bool.false_eq_true, if_false]
    cases f
    · exact Lock.raise _
    · exact bind' (write _ _) fun _ => pure' _
  · simp only [if_true]
    refine get' (o := aeroGiven) (f := fun b => if b = true then _ else _) aeroGiven' fun b => ?_
    refine ite' (bind' ?_ fun r => ?_) (Lock.raise _)
    · unfold airspeedBody
      refine bind' (getAero' _) fun d => bind' (needKey' _) fun x0 => ?_
      refine bind' (withAero' _ (onset hF hw k)) fun r => bind' (withAero' _ (onset hF hw k)) fun r' => ?_
      rcases r with ⟨_ | s0, d0⟩ <;> rcases r' with ⟨_ | s1, d1⟩
      · exact pure' _
      · exact pure' _
      · exact pure' _
      · exact airspeedLoop' hF hw _ _ _ _ _ _ _ _ _ _
    · rcases r with _ | ⟨s, v⟩
      · exact pure' _
      · exact bind' (write _ _) fun _ => pure' _

theorem liftAt' (hF : Forgets B need K) (d : AeroDict ι) (x : Option ℝ) :
    Lock (Alike need K F F') Same (liftAt ps d x) (liftAt ps d x) := by
  cases x
  · exact bind' (onSolver' hF.bad) fun r => pure' _
  · exact bind' (withAero' _ (tryFinite' (solve hF))) fun r => pure' _

theorem targetLoop' (hF : Forgets B need K) (L e : ℝ) : ∀ (n : ℕ) (x0 y0 x1 y1 : Option ℝ) (d : AeroDict ι),
    Lock (Alike need K F F') Same (targetLoop ps L e n x0 y0 x1 y1 d) (targetLoop ps L e n x0 y0 x1 y1 d) := by
  intro n
  induction n with
  | zero => intro x0 y0 x1 y1 d; exact Lock.ret rfl
  | succ n ih =>
    intro x0 y0 x1 y1 d
    unfold targetLoop
    refine ite' (pure' _) (bind' (liftAt' hF _ _) fun r => ?_)
    exact ite' (pure' _) (ih _ _ _ _ _)

theorem targetBody' (hF : Forgets B need K) (L e : ℝ) : Lock (Alike need K F F') Same (targetBody ps L e) (targetBody ps L e) := by
  unfold targetBody
  refine bind' (getAero' _) fun d => bind' (needKey' _) fun x0 => bind' (liftAt' hF _ _) fun r => bind' (liftAt' hF _ _) fun r' => ?_
  exact targetLoop' hF _ _ _ _ _ _ _ _

theorem target (hF : Forgets B need K) (L e : ℝ) (f : Option String) :
    Lock (Alike need K F F') Same (targetLift ps L e f) (targetLift ps L e f) := by
  unfold targetLift
  refine get' (o := aeroGiven) (f := fun b => if b = true then _ else _) aeroGiven' fun b => ?_
  refine ite' (bind' (targetBody' hF _ _) fun r => ?_) (bind' (withAero' _ (targetBody' hF _ _)) fun r => ?_)
  · cases r
    · cases f
      · exact Lock.raise _
      · exact bind' (write _ _) fun _ => pure' _
    · exact bind' (write _ _) fun _ => pure' _
  · rcases r with ⟨_ | a, d⟩
    · exact Lock.raise _
    · exact bind' (write _ _) fun _ => pure' _

theorem slopes' (hF : Forgets B need K) (f : Loads → ℝ) : Lock (Alike need K F F') Same (slopes ps f) (slopes ps f) := by
  unfold slopes
  refine bind' (getAero' _) fun a0 => bind' (central' hF (fun x => setAero' _) _ _) fun r => bind' (setAero' _) fun _ => ?_
  refine bind' (getCtrl' _) fun a0 => bind' (central' hF (fun x => setCtrl' _ (truthy_elevator x)) _ _) fun r =>
    bind' (setCtrl' _ (truthy_elevator _)) fun _ => pure' _

theorem trimLoop' (hF : Forgets B need K) (L M e : ℝ) (f : Option String) : ∀ (n : ℕ) (a de : ℝ),
    Lock (Alike need K F F') Same (trimLoop ps L M e f n a de) (trimLoop ps L M e f n a de) := by
  intro n
  induction n with
  | zero => intro a de; exact Lock.ret rfl
  | succ n ih =>
    intro a de
    unfold trimLoop
    refine bind' (setAero' _) fun _ => bind' (setCtrl' _ (truthy_elevator _)) fun _ => bind' (solve hF) fun cur => ?_
    refine ite' (bind' (write _ _) fun _ => pure' _) (bind' (slopes' hF _) fun s1 => bind' (slopes' hF _) fun s2 => ?_)
    refine ite' ?_ (ite' (Lock.raise _) (ite' ?_ (ih _ _)))
    · cases f
      · exact Lock.raise _
      · exact bind' (write _ _) fun _ => pure' _
    · cases f
      · exact Lock.raise _
      · exact bind' (write _ _) fun _ => pure' _

theorem weaken {w w' : World B} (h : Alike True K F F' w w') : Alike need K F F' w w' := ⟨h.aero, h.ctrl, h.files, fun _ => h.given trivial, h.st⟩

theorem trim (hF : Forgets B True K) (L M e : ℝ) (f : Option String) :
    Lock (Alike need K F F') Same (pitchTrim ps L M e f) (pitchTrim ps L M e f) := by
  unfold pitchTrim
  intro w w' h
  have ha := aeroGiven' w w' h
  have hc := ctrlGiven' w w' h
  rw [get_bind, get_bind, ha, hc]
  have hw : ctrlGiven w = true → ∀ m : Act (World B) TrimAnswer, Lock (Alike True K F F') Same m m →
      Outcome Same (m w).1 (m w').1 ∧ Alike need K F F' (m w).2 (m w').2 := by
    intro hb m hm
    have hk : Alike True K F F' w w' := ⟨h.aero, h.ctrl, h.files, fun _ => hb, h.st⟩
    exact ⟨(hm w w' hk).1, weaken (hm w w' hk).2⟩
  cases h1 : aeroGiven w <;> cases h2 : ctrlGiven w <;> simp only [if_true, Bool.false_eq_true, if_false]
  · exact (bind' (withAero' _ (withCtrl' zeroCtrlDict rfl (trimLoop' hF _ _ _ _ _ _ _))) fun r => pure' _ : Lock (Alike need K F F') Same _ _) w w' h
  · exact hw h2 _ (bind' (withAero' _ (trimLoop' hF _ _ _ _ _ _ _)) fun r => pure' _)
  · exact (withCtrl' zeroCtrlDict rfl (trimLoop' hF _ _ _ _ _ _ _) : Lock (Alike need K F F') Same _ _) w w' h
  · exact hw h2 _ (trimLoop' hF _ _ _ _ _ _ _)

/-- `control_derivatives` brings its own controls if none are given -/
theorem control_any (hF : Forgets B True K) : Lock (Alike need K F F') Same (controlDerivatives ps) (controlDerivatives ps) := by
  unfold controlDerivatives
  intro w w' h
  have hc := ctrlGiven' w w' h
  rw [get_bind, get_bind, hc]
  cases h2 : ctrlGiven w
  · exact (withCtrl' zeroCtrlDict rfl (contBody' hF) : Lock (Alike need K F F') Same _ _) w w' h
  · have hk : Alike True K F F' w w' := ⟨h.aero, h.ctrl, h.files, fun _ => h2, h.st⟩
    exact ⟨(contBody' hF w w' hk).1, weaken (contBody' hF w w' hk).2⟩

theorem sweep (hF : Forgets B need K) : ∀ l : List ℝ, Lock (Alike need K F F') Same (acSweep ps l) (acSweep ps l) := by
  intro l
  induction l with
  | nil => exact pure' _
  | cons x l ih =>
    unfold acSweep
    exact bind' (setAero' _) fun _ => bind' (solve hF) fun r => bind' ih fun rs => pure' _

theorem acBody' (hF : Forgets B need K) (cg : V3) : Lock (Alike need K F F') Same (acBody ps cg) (acBody ps cg) := by
  unfold acBody
  refine bind' (getAero' _) fun ao => bind' dyn fun DP => bind' (sweep hF _) fun rows => ite' (Lock.raise _) ?_
  exact bind' (orRaise' _ _) fun _ => bind' (orRaise' _ _) fun _ => bind' (orRaise' _ _) fun _ => bind' (orRaise' _ _) fun _ => orRaise' _ _

theorem center (hF : Forgets B need K) (cg : V3) (f : Option String) :
    Lock (Alike need K F F') Same (findAeroCenter ps cg f) (findAeroCenter ps cg f) := by
  unfold findAeroCenter
  refine get' (o := aeroGiven) (f := fun b => if b = true then _ else _) aeroGiven' fun b => ?_
  exact ite' (bind' (acBody' hF cg) fun r => bind' (write _ _) fun _ => pure' _)
    (bind' (withAero' _ (acBody' hF cg)) fun r => bind' (write _ _) fun _ => pure' _)

theorem solveFile (hF : Forgets B need K) (f : Option String) :
    Lock (Alike need K F F') Same (muSolveFile ps f) (muSolveFile ps f) := by
  unfold muSolveFile
  intro w w' h
  have ha := aeroGiven' w w' h
  rw [get_bind, get_bind, ha]
  cases h1 : aeroGiven w
  · refine (bind' (solve hF) fun r => ?_ : Lock (Alike need K F F') Same _ _) w w' h
    cases f
    · exact pure' _
    · exact Lock.raise _
  · obtain ⟨d, hd, ht⟩ : ∃ d, w.aero = some d ∧ d.truthy = true := by
      unfold aeroGiven at h1
      rcases hd : w.aero with _ | d
      · rw [hd] at h1; cases h1
      · exact ⟨d, rfl, by rw [hd] at h1; exact h1⟩
    obtain ⟨h1, h2, -⟩ := alike_solveParts (ps := ps) hF h hd ht
    simp only [if_true]
    rw [bind_def, bind_def]
    rcases hq : solveParts ps w with ⟨e | ⟨a, b, c⟩, w1⟩ <;>
      rcases hq' : solveParts ps w' with ⟨e' | ⟨a', b', c'⟩, w1'⟩ <;> rw [hq, hq'] at h1 h2
    · cases h1
      exact ⟨rfl, h2⟩
    · cases h1
    · cases h1
    · cases h1
      exact (bind' (write _ _) fun _ => pure' _ : Lock (Alike need K F F') Same _ _) w1 w1' h2

/-- every method -/
theorem any (hF : Forgets B need K) (cg : V3) (a : Analysis) : Lock (Alike need K F F') Same (perform ps cg a) (perform ps cg a) := by
  cases a
  case solve f => exact bind' (solveFile hF f) fun _ => pure' _
  case stability => exact bind' (stability hF) fun _ => pure' _
  case damping => exact bind' (damping hF) fun _ => pure' _
  case control => exact bind' (control hF) fun _ => pure' _
  case derivatives f => exact bind' (all hF f) fun _ => pure' _
  case stallOnset f n => exact bind' (onsetFile hF f n) fun _ => pure' _
  case stallAirspeed W e f n k => exact bind' (airspeed hF W e f n k) fun _ => pure' _
  case targetLift L e f => exact bind' (target hF L e f) fun _ => pure' _
  case pitchTrim L M e f => exact bind' (trim hF.given L M e f) fun _ => pure' _
  case aeroCenter f => exact bind' (center hF cg f) fun _ => pure' _

end Alikes
end Verif
