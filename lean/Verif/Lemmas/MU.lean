import Verif.Spec.MU
import Mathlib.Tactic.Ring
import Mathlib.Tactic.Linarith
import Mathlib.Tactic.FieldSimp

/-! # Lemmas on the `MachUp` actions -/

namespace Verif

namespace Act
variable {S α β γ : Type}

theorem bind_def (m : Act S α) (f : α → Act S β) (s : S) : (m >>= f) s =
    match m s with
    | (.ok a, s') => f a s'
    | (.error e, s') => (.error e, s') := rfl

@[simp] theorem pure_run (a : α) (s : S) : (pure a : Act S α) s = (.ok a, s) := rfl
@[simp] theorem ret_run (a : α) (s : S) : (ret a : Act S α) s = (.ok a, s) := rfl
@[simp] theorem raise_run (e : PyErr) (s : S) : (raise e : Act S α) s = (.error e, s) := rfl
@[simp] theorem change_run (f : S → S) (s : S) : (change f) s = (.ok (), f s) := rfl
@[simp] theorem get_run (s : S) : (get : Act S S) s = (.ok s, s) := rfl

theorem bind_of_ok {m : Act S α} {s s1 : S} {a : α} (h : m s = (.ok a, s1)) (f : α → Act S β) :
    (m >>= f) s = f a s1 := by rw [bind_def, h]

theorem bind_of_error {m : Act S α} {s s1 : S} {e : PyErr} (h : m s = (.error e, s1)) (f : α → Act S β) :
    (m >>= f) s = (.error e, s1) := by rw [bind_def, h]

@[simp] theorem get_bind (f : S → Act S β) (s : S) : ((get : Act S S) >>= f) s = f s s := rfl
@[simp] theorem change_bind (g : S → S) (f : Unit → Act S β) (s : S) : (change g >>= f) s = f () (g s) := rfl
@[simp] theorem pure_bind_run (a : α) (f : α → Act S β) (s : S) : ((pure a : Act S α) >>= f) s = f a s := rfl
@[simp] theorem ret_bind_run (a : α) (f : α → Act S β) (s : S) : ((ret a : Act S α) >>= f) s = f a s := rfl
@[simp] theorem raise_bind_run (e : PyErr) (f : α → Act S β) (s : S) :
    ((raise e : Act S α) >>= f) s = (.error e, s) := rfl

theorem bind_ok {m : Act S α} {f : α → Act S β} {s s' : S} {b : β} :
    (m >>= f) s = (.ok b, s') ↔ ∃ a s1, m s = (.ok a, s1) ∧ f a s1 = (.ok b, s') := by
  rw [bind_def]
  rcases h : m s with ⟨_ | a, s1⟩
  · simp
  · constructor
    · intro h'; exact ⟨a, s1, rfl, h'⟩
    · rintro ⟨a', s1', h1, h2⟩
      simp only [Prod.mk.injEq, Except.ok.injEq] at h1
      obtain ⟨rfl, rfl⟩ := h1
      exact h2

theorem bind_error {m : Act S α} {f : α → Act S β} {s s' : S} {e : PyErr} :
    (m >>= f) s = (.error e, s') ↔ m s = (.error e, s') ∨ ∃ a s1, m s = (.ok a, s1) ∧ f a s1 = (.error e, s') := by
  rw [bind_def]
  rcases h : m s with ⟨e1 | a, s1⟩
  · simp
  · simp

/-- the computation does not change `p` of the state, whether it returns or raises -/
def Keeps (p : S → γ) (m : Act S α) : Prop := ∀ s, p (m s).2 = p s

variable {p : S → γ}

theorem Keeps.bind {m : Act S α} {f : α → Act S β} (hm : Keeps p m) (hf : ∀ a, Keeps p (f a)) : Keeps p (m >>= f) := by
  intro s
  rw [bind_def]
  have := hm s
  rcases h : m s with ⟨e | a, s1⟩ <;> rw [h] at this
  · exact this
  · exact (hf a s1).trans this

theorem Keeps.pure (a : α) : Keeps p (pure a : Act S α) := fun _ => rfl
theorem Keeps.ret (a : α) : Keeps p (ret a : Act S α) := fun _ => rfl
theorem Keeps.raise (e : PyErr) : Keeps p (raise e : Act S α) := fun _ => rfl
theorem Keeps.get : Keeps p (get : Act S S) := fun _ => rfl
theorem Keeps.change {f : S → S} (h : ∀ s, p (f s) = p s) : Keeps p (change f) := h

theorem Keeps.ite {c : Prop} [Decidable c] {m n : Act S α} (hm : Keeps p m) (hn : Keeps p n) :
    Keeps p (if c then m else n) := by split <;> assumption

theorem Keeps.tryFinite {m : Act S α} (hm : Keeps p m) : Keeps p (tryFinite m) := by
  intro s
  have := hm s
  unfold Act.tryFinite
  rcases h : m s with ⟨e | a, s1⟩ <;> rw [h] at this
  · cases e <;> exact this
  · exact this

theorem Keeps.comp {δ : Type} {m : Act S α} (hm : Keeps p m) (g : γ → δ) : Keeps (fun s => g (p s)) m :=
  fun s => congrArg g (hm s)

theorem Keeps.and {δ : Type} {q : S → δ} {m : Act S α} (hm : Keeps p m) (hq : Keeps q m) :
    Keeps (fun s => (p s, q s)) m := fun s => Prod.ext (hm s) (hq s)

theorem tryFinite_ok {m : Act S α} {s s' : S} {a : Option α} (h : tryFinite m s = (.ok a, s')) :
    (∃ x, a = some x ∧ m s = (.ok x, s')) ∨ (a = none ∧ m s = (.error .nonfinite, s')) := by
  unfold tryFinite at h
  rcases hm : m s with ⟨e | x, s1⟩ <;> rw [hm] at h
  · cases e <;> simp at h
    obtain ⟨rfl, rfl⟩ := h
    exact .inr ⟨rfl, rfl⟩
  · simp at h
    obtain ⟨rfl, rfl⟩ := h
    exact .inl ⟨x, rfl, rfl⟩

theorem tryFinite_of_ok {m : Act S α} {s s' : S} {a : α} (h : m s = (.ok a, s')) :
    tryFinite m s = (.ok (some a), s') := by unfold tryFinite; rw [h]
theorem tryFinite_of_nonfinite {m : Act S α} {s s' : S} (h : m s = (.error .nonfinite, s')) :
    tryFinite m s = (.ok none, s') := by unfold tryFinite; rw [h]

end Act

open Act

variable {ι : Type} {B : Backend ι}

theorem SameEntries.refl (d : AeroDict ι) : SameEntries B d d := ⟨rfl, fun _ => rfl⟩
theorem SameEntries.trans {a b c : AeroDict ι} (h1 : SameEntries B a b) (h2 : SameEntries B b c) : SameEntries B a c :=
  ⟨h2.1.trans h1.1, fun h => (h2.2 h).trans (h1.2 h)⟩

section keeps
variable {α γ : Type} {p : World B → γ}

theorem keeps_onSolver {m : Act B.σ α} (h : ∀ (w : World B) st, p { w with st := st } = p w) :
    Keeps p (onSolver m) := by
  intro w
  unfold onSolver
  rcases m w.st with ⟨r, st⟩
  exact h w st

theorem keeps_setAero {f : AeroDict ι → AeroDict ι}
    (h : ∀ (w : World B) d, w.aero = some d → p { w with aero := some (f d) } = p w) : Keeps p (setAero f) := by
  intro w
  unfold setAero
  rcases hw : w.aero with _ | d
  · rfl
  · exact h w d hw

theorem keeps_setCtrl {f : CtrlDict → CtrlDict}
    (h : ∀ (w : World B) d, w.ctrl = some d → p { w with ctrl := some (f d) } = p w) : Keeps p (setCtrl f) := by
  intro w
  unfold setCtrl
  rcases hw : w.ctrl with _ | d
  · rfl
  · exact h w d hw

theorem keeps_getAero (f : AeroDict ι → α) : Keeps p (getAero f : Act (World B) α) := by
  intro w
  unfold getAero
  rcases w.aero <;> rfl

theorem keeps_getCtrl (f : CtrlDict → α) : Keeps p (getCtrl f : Act (World B) α) := by
  intro w
  unfold getCtrl
  rcases w.ctrl <;> rfl

theorem keeps_needKey (o : Option α) : Keeps p (needKey o : Act (World B) α) := by
  unfold needKey
  cases o
  · exact Keeps.raise _
  · exact Keeps.ret _

/-- running with another dictionary leaves everything alone that the computation leaves alone, and the caller's
dictionary -/
theorem keeps_withAero {d : AeroDict ι} {m : Act (World B) α} (hm : Keeps p m)
    (h : ∀ w w' : World B, p { w with aero := some d } = p w' → p { w' with aero := w.aero } = p w) :
    Keeps p (withAero d m) := by
  intro w
  have := hm { w with aero := some d }
  unfold withAero
  rcases hr : m { w with aero := some d } with ⟨e | a, w'⟩ <;> rw [hr] at this
  · exact h w w' this.symm
  · exact h w w' this.symm

theorem withAero_aero (d : AeroDict ι) (m : Act (World B) α) (w : World B) : (withAero d m w).2.aero = w.aero := by
  unfold withAero
  rcases m { w with aero := some d } with ⟨e | a, w'⟩ <;> rfl

theorem withCtrl_ctrl (c : CtrlDict) (m : Act (World B) α) (w : World B) : (withCtrl c m w).2.ctrl = w.ctrl := by
  unfold withCtrl
  rcases m { w with ctrl := some c } with ⟨e | a, w'⟩ <;> rfl

theorem keeps_withAero_aero (d : AeroDict ι) (m : Act (World B) α) : Keeps World.aero (withAero d m) :=
  withAero_aero d m

theorem keeps_withCtrl_ctrl (d : CtrlDict) (m : Act (World B) α) : Keeps World.ctrl (withCtrl d m) :=
  withCtrl_ctrl d m

theorem keeps_withAero_ctrl {d : AeroDict ι} {m : Act (World B) α} (hm : Keeps World.ctrl m) :
    Keeps World.ctrl (withAero d m) := keeps_withAero hm fun _ _ h => h.symm
theorem keeps_withAero_files {d : AeroDict ι} {m : Act (World B) α} (hm : Keeps World.files m) :
    Keeps World.files (withAero d m) := keeps_withAero hm fun _ _ h => h.symm

theorem keeps_withCtrl {d : CtrlDict} {m : Act (World B) α} (hm : Keeps p m)
    (h : ∀ w w' : World B, p { w with ctrl := some d } = p w' → p { w' with ctrl := w.ctrl } = p w) :
    Keeps p (withCtrl d m) := by
  intro w
  have := hm { w with ctrl := some d }
  unfold withCtrl
  rcases hr : m { w with ctrl := some d } with ⟨r, w'⟩
  rw [hr] at this
  exact h w w' this.symm
theorem keeps_withCtrl_files {d : CtrlDict} {m : Act (World B) α} (hm : Keeps World.files m) :
    Keeps World.files (withCtrl d m) := keeps_withCtrl hm fun _ _ h => h.symm
theorem keeps_withCtrl_aero {γ : Type} {g : Option (AeroDict ι) → γ} {d : CtrlDict} {m : Act (World B) α}
    (hm : Keeps (fun w => g w.aero) m) :
    Keeps (fun w => g w.aero) (withCtrl d m) := keeps_withCtrl hm fun _ _ h => h.symm

/-- `p` ignores the solver objects, the result objects and the `local_state` entry -/
structure Coarse (p : World B → γ) : Prop where
  st : ∀ (w : World B) st, p { w with st := st } = p w
  objs : ∀ (w : World B) o, p { w with objs := o } = p w
  field : ∀ (w : World B) d f, w.aero = some d → p { w with aero := some { d with localState := f } } = p w

theorem keeps_solveProps (hp : Coarse p) (ps : Option B.π) (d : AeroDict ι) :
    Keeps p (solveProps ps d : Act (World B) _) := by
  unfold solveProps
  refine Keeps.ite ?_ (Keeps.pure _)
  refine Keeps.bind (keeps_onSolver hp.st) fun ⟨r, field⟩ => ?_
  dsimp only
  cases field
  · exact Keeps.bind (Keeps.ret _) fun _ => Keeps.pure _
  · exact Keeps.bind (keeps_setAero fun w d h => hp.field w d _ h) fun _ => Keeps.pure _

theorem keeps_solveWings (hp : Coarse p) : Keeps p (solveWings : Act (World B) _) := by
  unfold solveWings
  refine Keeps.ite ?_ (Keeps.pure _)
  exact Keeps.bind Keeps.get fun w => Keeps.bind (keeps_onSolver hp.st) fun _ => Keeps.pure _

theorem keeps_solveParts (hp : Coarse p) (ps : Option B.π) : Keeps p (solveParts ps : Act (World B) _) := by
  unfold solveParts
  refine Keeps.bind (keeps_getAero _) fun d => Keeps.bind (keeps_solveProps hp _ _) fun pr => ?_
  refine Keeps.bind (keeps_solveWings hp) fun wg => ?_
  exact Keeps.bind (Keeps.change fun w => hp.objs w _) fun _ => Keeps.pure _

theorem keeps_muSolve_gen (hp : Coarse p) (ps : Option B.π)
    (h : ∀ w w' : World B, p { w with aero := some defaultAeroDict } = p w' → p { w' with aero := w.aero } = p w) :
    Keeps p (muSolve ps : Act (World B) _) := by
  unfold muSolve
  refine Keeps.bind Keeps.get fun w => Keeps.ite ?_ ?_
  · exact Keeps.bind (keeps_solveParts hp ps) fun _ => Keeps.pure _
  · exact Keeps.bind (keeps_withAero (keeps_solveParts hp ps) h) fun _ => Keeps.pure _

theorem keeps_muSolve_ctrl (ps : Option B.π) : Keeps World.ctrl (muSolve ps : Act (World B) _) :=
  keeps_muSolve_gen ⟨fun _ _ => rfl, fun _ _ => rfl, fun _ _ _ _ => rfl⟩ ps fun _ _ h => h.symm
theorem keeps_muSolve_files (ps : Option B.π) : Keeps World.files (muSolve ps : Act (World B) _) :=
  keeps_muSolve_gen ⟨fun _ _ => rfl, fun _ _ => rfl, fun _ _ _ _ => rfl⟩ ps fun _ _ h => h.symm

/-- the entries of the caller's aero dictionary other than `local_state` -/
def World.sans (w : World B) : Option (AeroDict ι) := w.aero.map AeroDict.sansField

theorem coarse_sans : Coarse (World.sans : World B → _) :=
  ⟨fun _ _ => rfl, fun _ _ => rfl, fun w d f h => by simp [World.sans, h, AeroDict.sansField]⟩

theorem keeps_muSolve_sans (ps : Option B.π) : Keeps World.sans (muSolve ps : Act (World B) _) := by
  unfold muSolve
  refine Keeps.bind Keeps.get fun w => Keeps.ite ?_ ?_
  · exact Keeps.bind (keeps_solveParts coarse_sans ps) fun _ => Keeps.pure _
  · refine Keeps.bind (fun w => ?_) fun _ => Keeps.pure _
    simp only [World.sans, withAero_aero]

/-- no propellers or no wings: the caller's dictionary is not touched at all -/
theorem keeps_solveParts_aero (hB : (B.hasProps && B.hasWings) = false) (ps : Option B.π) :
    Keeps World.aero (solveParts ps : Act (World B) _) := by
  unfold solveParts
  refine Keeps.bind (keeps_getAero _) fun d => Keeps.bind ?_ fun pr => ?_
  · intro w
    unfold solveProps
    by_cases hpr : B.hasProps = true
    · have hwg : B.hasWings = false := by simpa [hpr] using hB
      rw [if_pos hpr, bind_def]
      unfold onSolver
      rcases hs : B.propSolve d ps w.st with ⟨_ | ⟨r, f⟩, st⟩
      · rfl
      · have := B.noField hwg _ _ _ _ _ _ hs
        subst this
        rfl
    · rw [if_neg hpr]; rfl
  · refine Keeps.bind ?_ fun wg => Keeps.bind (Keeps.change fun w => rfl) fun _ => Keeps.pure _
    unfold solveWings
    refine Keeps.ite ?_ (Keeps.pure _)
    exact Keeps.bind Keeps.get fun w => Keeps.bind (keeps_onSolver fun _ _ => rfl) fun _ => Keeps.pure _

theorem keeps_muSolve_aero (hB : (B.hasProps && B.hasWings) = false) (ps : Option B.π) :
    Keeps World.aero (muSolve ps : Act (World B) _) := by
  unfold muSolve
  refine Keeps.bind Keeps.get fun w => Keeps.ite ?_ ?_
  · exact Keeps.bind (keeps_solveParts_aero hB ps) fun _ => Keeps.pure _
  · exact Keeps.bind (keeps_withAero_aero _ _) fun _ => Keeps.pure _

/-- what `solve` does to the caller's dictionary -/
theorem muSolve_aero {ps : Option B.π} {w w' : World B} {r : Except PyErr Loads} {d : AeroDict ι} (hd : w.aero = some d)
    (h : muSolve ps w = (r, w')) : ∃ d', w'.aero = some d' ∧ SameEntries B d d' := by
  have h1 := keeps_muSolve_sans ps w
  rw [h] at h1
  simp only [World.sans, hd, Option.map_some, Option.map_eq_some_iff] at h1
  obtain ⟨d', hd', he⟩ := h1
  refine ⟨d', hd', he, fun hB => ?_⟩
  have h2 := keeps_muSolve_aero hB ps w
  rw [h] at h2
  simp only [hd] at h2
  rw [hd'] at h2
  exact Option.some.inj h2

theorem muSolve_ctrl {ps : Option B.π} {w w' : World B} {r : Except PyErr Loads}
    (h : muSolve ps w = (r, w')) : w'.ctrl = w.ctrl := by
  have h1 := keeps_muSolve_ctrl ps w
  rwa [h] at h1

theorem muSolve_files {ps : Option B.π} {w w' : World B} {r : Except PyErr Loads}
    (h : muSolve ps w = (r, w')) : w'.files = w.files := by
  have h1 := keeps_muSolve_files ps w
  rwa [h] at h1

end keeps

/-! ### central differences -/

/-- a setter of one entry of the aero dictionary that is not `local_state` -/
structure KeySetter (f : ℝ → AeroDict ι → AeroDict ι) : Prop where
  sans : ∀ x d, (f x d).sansField = f x d.sansField
  over : ∀ x y d, f y (f x d) = f y d

theorem KeySetter.same {f : ℝ → AeroDict ι → AeroDict ι} (hf : KeySetter f) {d d' : AeroDict ι} (h : SameEntries B d d')
    (x : ℝ) : SameEntries B (f x d) (f x d') :=
  ⟨by rw [hf.sans, hf.sans, h.1], fun hB => by rw [h.2 hB]⟩

theorem central_aero {ps : Option B.π} {f : ℝ → AeroDict ι → AeroDict ι} (hf : KeySetter f) {x0 δ : ℝ} {w w' : World B}
    {d : AeroDict ι} {r : Loads × Loads} (hd : w.aero = some d)
    (h : central ps (fun x => setAero (f x)) x0 δ w = (.ok r, w')) :
    (∃ d', w'.aero = some d' ∧ SameEntries B (f (x0 + δ) d) d') ∧ w'.ctrl = w.ctrl ∧ w'.files = w.files ∧
    SolvedAt ps (f (x0 + δ) d) w.ctrl r.1 ∧ SolvedAt ps (f (x0 - δ) d) w.ctrl r.2 := by
  unfold central at h
  obtain ⟨_, w1, h1, h⟩ := bind_ok.1 h
  obtain ⟨back, w2, h2, h⟩ := bind_ok.1 h
  obtain ⟨_, w3, h3, h⟩ := bind_ok.1 h
  obtain ⟨forw, w4, h4, h⟩ := bind_ok.1 h
  simp only [pure_run, Prod.mk.injEq, Except.ok.injEq] at h
  obtain ⟨rfl, rfl⟩ := h
  simp only [setAero, hd, Prod.mk.injEq, true_and] at h1
  subst h1
  obtain ⟨d2, hd2, hs2⟩ := muSolve_aero rfl h2
  have hc2 := muSolve_ctrl h2
  have hf2 := muSolve_files h2
  simp only [setAero, hd2, Prod.mk.injEq, true_and] at h3
  subst h3
  obtain ⟨d4, hd4, hs4⟩ := muSolve_aero rfl h4
  have hc4 := muSolve_ctrl h4
  have hf4 := muSolve_files h4
  have hs2' : SameEntries B (f (x0 + δ) d) (f (x0 + δ) d2) := by
    have := hf.same hs2 (x0 + δ)
    rwa [hf.over] at this
  refine ⟨⟨d4, hd4, hs2'.trans hs4⟩, hc4.trans hc2, hf4.trans hf2, ?_, ?_⟩
  · exact ⟨{ w2 with aero := some (f (x0 + δ) d2) }, _, _, rfl, hs2', hc2, h4⟩
  · exact ⟨{ w with aero := some (f (x0 - δ) d) }, _, _, rfl, SameEntries.refl _, rfl, h2⟩

theorem central_ctrl {ps : Option B.π} {f : ℝ → CtrlDict → CtrlDict} (over : ∀ x y d, f y (f x d) = f y d) {x0 δ : ℝ}
    {w w' : World B} {d : AeroDict ι} {c : CtrlDict} {r : Loads × Loads} (hd : w.aero = some d) (hc : w.ctrl = some c)
    (h : central ps (fun x => setCtrl (f x)) x0 δ w = (.ok r, w')) :
    (∃ d', w'.aero = some d' ∧ SameEntries B d d') ∧ w'.ctrl = some (f (x0 + δ) c) ∧ w'.files = w.files ∧
    SolvedAt ps d (some (f (x0 + δ) c)) r.1 ∧ SolvedAt ps d (some (f (x0 - δ) c)) r.2 := by
  unfold central at h
  obtain ⟨_, w1, h1, h⟩ := bind_ok.1 h
  obtain ⟨back, w2, h2, h⟩ := bind_ok.1 h
  obtain ⟨_, w3, h3, h⟩ := bind_ok.1 h
  obtain ⟨forw, w4, h4, h⟩ := bind_ok.1 h
  simp only [pure_run, Prod.mk.injEq, Except.ok.injEq] at h
  obtain ⟨rfl, rfl⟩ := h
  simp only [setCtrl, hc, Prod.mk.injEq, true_and] at h1
  subst h1
  obtain ⟨d2, hd2, hs2⟩ := muSolve_aero (w := { w with ctrl := some (f (x0 - δ) c) }) hd h2
  have hc2 := muSolve_ctrl h2
  have hf2 := muSolve_files h2
  simp only [setCtrl, hc2, Prod.mk.injEq, true_and] at h3
  subst h3
  obtain ⟨d4, hd4, hs4⟩ := muSolve_aero (w := { w2 with ctrl := some (f (x0 + δ) (f (x0 - δ) c)) }) hd2 h4
  have hc4 := muSolve_ctrl h4
  have hf4 := muSolve_files h4
  rw [over] at hc4
  refine ⟨⟨d4, hd4, hs2.trans hs4⟩, hc4, hf4.trans hf2, ?_, ?_⟩
  · exact ⟨{ w2 with ctrl := some (f (x0 + δ) (f (x0 - δ) c)) }, _, _, hd2, hs2, by simp only [over], h4⟩
  · exact ⟨{ w with ctrl := some (f (x0 - δ) c) }, _, _, hd, SameEntries.refl _, rfl, h2⟩

theorem keySetter_alpha : KeySetter (fun x (d : AeroDict ι) => { d with alpha := some x }) := ⟨fun _ _ => rfl, fun _ _ _ => rfl⟩
theorem keySetter_beta : KeySetter (fun x (d : AeroDict ι) => { d with beta := some x }) := ⟨fun _ _ => rfl, fun _ _ _ => rfl⟩
theorem keySetter_roll : KeySetter (fun x (d : AeroDict ι) => { d with roll := some x }) := ⟨fun _ _ => rfl, fun _ _ _ => rfl⟩
theorem keySetter_pitch : KeySetter (fun x (d : AeroDict ι) => { d with pitch := some x }) := ⟨fun _ _ => rfl, fun _ _ _ => rfl⟩
theorem keySetter_yaw : KeySetter (fun x (d : AeroDict ι) => { d with yaw := some x }) := ⟨fun _ _ => rfl, fun _ _ _ => rfl⟩

theorem reported_of {D : Option Deriv} {forw back : Loads} {h q : ℝ} (hh : h ≠ 0)
    (hD : D = derivOf B forw back (2 * h * (q * B.Sw))) : ReportedDerivative B D forw back h q := by
  subst hD
  unfold derivOf
  have h0 : 2 * h * (q * B.Sw) = 0 ↔ q * B.Sw = 0 := by
    rw [mul_eq_zero]; simp [hh]
  constructor
  · intro D' hD
    split_ifs at hD with hc
    simp only [Option.some.injEq] at hD
    subst hD
    simp only [Deriv.IsCentralDifference, div_div]
    refine ⟨?_, ?_, ?_, ?_, ?_, ?_, ?_, ?_, ?_⟩ <;> first | trivial | (congr 1; ring)
  · rw [← h0]
    split_ifs with hc
    · simp only [true_iff]; exact hc
    · simp only [false_iff]; exact hc

theorem dynPress_eq (d : AeroDict ι) : dynPress B d = d.q * B.Sw := by
  unfold dynPress AeroDict.q; ring

end Verif
