import Verif.Spec.Incomplete
import Verif.Thm.Omitted
import Verif.Thm.StraightWing

/-!
# Incomplete flight conditions are rejected by every method (C134), and so is the documented spelling (C135)
-/

namespace Verif
open V3 Act

/-! ### Computations that raise -/

section
variable {S α β : Type}

/-- from states with `P`, `m` raises, and what `v` looks at stays -/
def Dies {τ : Type} (P : S → Prop) (v : S → τ) (m : Act S α) : Prop := ∀ s, P s → (∃ e, (m s).1 = .error e) ∧ v (m s).2 = v s

/-- from states with `P`, `m` raises or ends in such a state; what `v` looks at stays -/
def Passes {τ : Type} (P : S → Prop) (v : S → τ) (m : Act S α) : Prop :=
  ∀ s, P s → ((∃ e, (m s).1 = .error e) ∨ P (m s).2) ∧ v (m s).2 = v s

variable {τ : Type} {P : S → Prop} {v : S → τ}

theorem Dies.bind {m : Act S α} {f : α → Act S β} (hm : Dies P v m) : Dies P v (m >>= f) := by
  intro s hs
  obtain ⟨⟨e, he⟩, h2⟩ := hm s hs
  rw [bind_def]
  rcases hq : m s with ⟨e' | a, s1⟩ <;> rw [hq] at he h2
  · exact ⟨⟨e', rfl⟩, h2⟩
  · cases he

theorem Passes.bind {m : Act S α} {f : α → Act S β} (hm : Passes P v m) (hf : ∀ a, Dies P v (f a)) : Dies P v (m >>= f) := by
  intro s hs
  obtain ⟨h1, h2⟩ := hm s hs
  rw [bind_def]
  rcases hq : m s with ⟨e' | a, s1⟩ <;> rw [hq] at h1 h2
  · exact ⟨⟨e', rfl⟩, h2⟩
  · rcases h1 with ⟨e, he⟩ | h1
    · cases he
    · obtain ⟨k1, k2⟩ := hf a s1 h1
      exact ⟨k1, k2.trans h2⟩

theorem dies_raise (e : PyErr) : Dies P v (raise e : Act S α) := fun _ _ => ⟨⟨e, rfl⟩, rfl⟩

end

section
variable {ι : Type} {B : Backend ι} {ps : Option B.π} {α : Type}

/-- the object and the caller's dictionaries in a state in which `solve` refuses -/
structure Hopeless (B : Backend ι) (ps : Option B.π) (w : World B) : Prop where
  aero : ∃ d, w.aero = some d ∧ d.Incomplete
  solve : ∀ (d : AeroDict ι) (c : Option CtrlDict), d.Incomplete → ∃ e w', e ≠ .nonfinite ∧
    muSolve ps { w with aero := some d, ctrl := c } = (.error e, w') ∧ w'.files = w.files

theorem Hopeless.incomplete_alpha {d : AeroDict ι} (h : d.Incomplete) (x : ℝ) : ({ d with alpha := some x } : AeroDict ι).Incomplete :=
  ⟨by simp [AeroDict.truthy], h.noField, h.lacks⟩
theorem Hopeless.incomplete_beta {d : AeroDict ι} (h : d.Incomplete) (x : ℝ) : ({ d with beta := some x } : AeroDict ι).Incomplete :=
  ⟨by simp [AeroDict.truthy], h.noField, h.lacks⟩
theorem Hopeless.incomplete_roll {d : AeroDict ι} (h : d.Incomplete) (x : ℝ) : ({ d with roll := some x } : AeroDict ι).Incomplete :=
  ⟨by simp [AeroDict.truthy], h.noField, h.lacks⟩

theorem hopeless_update {w : World B} (h : Hopeless B ps w) {d : AeroDict ι} (hd : d.Incomplete) (c : Option CtrlDict) :
    Hopeless B ps { w with aero := some d, ctrl := c } :=
  ⟨⟨d, rfl, hd⟩, fun d c hd => h.solve d c hd⟩

theorem dies_solve : Dies (Hopeless B ps) World.files (muSolve ps) := by
  intro w h
  obtain ⟨d, hd, hi⟩ := h.aero
  obtain ⟨e, w', -, h1, h2⟩ := h.solve d w.ctrl hi
  have hw : ({ w with aero := some d, ctrl := w.ctrl } : World B) = w := by rw [← hd]
  rw [hw] at h1
  rw [h1]
  exact ⟨⟨e, rfl⟩, h2⟩

theorem dies_tryFinite : Dies (Hopeless B ps) World.files (tryFinite (muSolve ps)) := by
  intro w h
  obtain ⟨d, hd, hi⟩ := h.aero
  obtain ⟨e, w', hne, h1, h2⟩ := h.solve d w.ctrl hi
  have hw : ({ w with aero := some d, ctrl := w.ctrl } : World B) = w := by rw [← hd]
  rw [hw] at h1
  unfold Act.tryFinite
  rw [h1]
  cases e
  case nonfinite => exact absurd rfl hne
  all_goals exact ⟨⟨_, rfl⟩, h2⟩

theorem passes_set {f : AeroDict ι → AeroDict ι} (hf : ∀ d, d.Incomplete → (f d).Incomplete) :
    Passes (Hopeless B ps) World.files (setAero f) := by
  intro w h
  obtain ⟨d, hd, hi⟩ := h.aero
  unfold setAero
  rw [hd]
  refine ⟨Or.inr ?_, rfl⟩
  exact hopeless_update h (hf d hi) w.ctrl

theorem passes_setCtrl (f : CtrlDict → CtrlDict) : Passes (Hopeless B ps) World.files (setCtrl f) := by
  intro w h
  obtain ⟨d, hd, hi⟩ := h.aero
  unfold setCtrl
  cases hc : w.ctrl with
  | none => exact ⟨Or.inl ⟨_, rfl⟩, rfl⟩
  | some c => exact ⟨Or.inr ⟨⟨d, hd, hi⟩, h.solve⟩, rfl⟩

theorem passes_get (f : AeroDict ι → α) : Passes (Hopeless B ps) World.files (getAero f) := by
  intro w h
  obtain ⟨d, hd, hi⟩ := h.aero
  unfold getAero
  rw [hd]
  exact ⟨Or.inr h, rfl⟩

theorem passes_getCtrl (f : CtrlDict → α) : Passes (Hopeless B ps) World.files (getCtrl f) := by
  intro w h
  unfold getCtrl
  cases hc : w.ctrl with
  | none => exact ⟨Or.inl ⟨_, rfl⟩, rfl⟩
  | some c => exact ⟨Or.inr h, rfl⟩

theorem passes_dyn : Passes (Hopeless B ps) World.files dynPressure := by
  unfold dynPressure
  split_ifs
  · exact passes_get _
  · exact fun w _ => ⟨Or.inl ⟨_, rfl⟩, rfl⟩

theorem dies_withCtrl (c : CtrlDict) {m : Act (World B) α} (hm : Dies (Hopeless B ps) World.files m) :
    Dies (Hopeless B ps) World.files (withCtrl c m) := by
  intro w h
  obtain ⟨d, hd, hi⟩ := h.aero
  have := hm { w with ctrl := some c } ⟨⟨d, hd, hi⟩, h.solve⟩
  exact this

theorem dies_withAero {d : AeroDict ι} (hd : d.Incomplete) {m : Act (World B) α} (hm : Dies (Hopeless B ps) World.files m) :
    Dies (Hopeless B ps) World.files (withAero d m) := by
  intro w h
  obtain ⟨⟨e, he⟩, h2⟩ := hm { w with aero := some d } ⟨⟨d, rfl, hd⟩, h.solve⟩
  unfold withAero
  rcases hq : m { w with aero := some d } with ⟨e' | a, w1⟩ <;> rw [hq] at he h2
  · exact ⟨⟨e', rfl⟩, h2⟩
  · cases he

/-- looking whether an `aero_state` is given -/
theorem dies_given {m m' : Act (World B) α} (hm : Dies (Hopeless B ps) World.files m) :
    Dies (Hopeless B ps) World.files (get >>= fun w => if aeroGiven w = true then m else m') := by
  intro w h
  obtain ⟨d, hd, hi⟩ := h.aero
  rw [get_bind, if_pos (by simp [aeroGiven, hd, hi.given])]
  exact hm w h

theorem dies_ite {p : Prop} [Decidable p] {m m' : Act (World B) α} (h1 : Dies (Hopeless B ps) World.files m)
    (h2 : Dies (Hopeless B ps) World.files m') : Dies (Hopeless B ps) World.files (if p then m else m') := by
  split_ifs
  · exact h1
  · exact h2

theorem dies_central {set : ℝ → Act (World B) Unit} (hs : ∀ x, Passes (Hopeless B ps) World.files (set x)) (x0 δ : ℝ) :
    Dies (Hopeless B ps) World.files (central ps set x0 δ) := by
  unfold central
  exact (hs _).bind fun _ => dies_solve.bind

theorem passes_alpha (x : ℝ) : Passes (Hopeless B ps) World.files (setAlpha (B := B) x) :=
  passes_set fun _ h => Hopeless.incomplete_alpha h x

theorem dies_stab : Dies (Hopeless B ps) World.files (stabBody ps) := by
  unfold stabBody
  exact passes_dyn.bind fun _ => (passes_get _).bind fun _ => (dies_central passes_alpha _ _).bind

theorem dies_damp : Dies (Hopeless B ps) World.files (dampBody ps) := by
  unfold dampBody
  refine (passes_get _).bind fun _ => passes_dyn.bind fun _ => dies_ite (dies_raise _) ?_
  exact (passes_get _).bind fun _ => (dies_central (fun x => passes_set fun _ h => Hopeless.incomplete_roll h x) _ _).bind

theorem dies_cont : Dies (Hopeless B ps) World.files (contBody ps) := by
  unfold contBody
  exact passes_dyn.bind fun _ => (passes_getCtrl _).bind fun _ => (dies_central (fun x => passes_setCtrl _) _ _).bind

theorem dies_control : Dies (Hopeless B ps) World.files (controlDerivatives ps) := by
  intro w h
  unfold controlDerivatives
  rw [get_bind]
  split_ifs
  · exact dies_cont w h
  · exact dies_withCtrl _ dies_cont w h

theorem dies_onset {n : ℕ} (hn : 0 < n) : Dies (Hopeless B ps) World.files (stallOnset ps n) := by
  unfold stallOnset
  refine dies_given ?_
  obtain ⟨m, rfl⟩ : ∃ m, n = m + 1 := ⟨n - 1, by omega⟩
  unfold stallLoop
  exact (passes_alpha _).bind fun _ => dies_tryFinite.bind

theorem dies_airspeed (W e : ℝ) (n : ℕ) {k : ℕ} (hk : 0 < k) : Dies (Hopeless B ps) World.files (airspeedBody ps W e n k) := by
  intro w h
  obtain ⟨d, hd, hi⟩ := h.aero
  unfold airspeedBody
  rw [bind_of_ok (getAero_some hd)]
  simp only [id]
  cases hV : d.Vmag with
  | none => exact ⟨⟨_, rfl⟩, rfl⟩
  | some V =>
    simp only [needKey]
    rw [bind_of_ok (ret_run _ _)]
    have hi' : ({ d with Vmag := some V } : AeroDict ι).Incomplete := by
      refine ⟨by simp [AeroDict.truthy], hi.noField, Or.inr ?_⟩
      rcases hi.lacks with h | h
      · rw [hV] at h; cases h
      · exact h
    exact (dies_withAero hi' (dies_onset hk)).bind w h

theorem dies_target (L e : ℝ) : Dies (Hopeless B ps) World.files (targetBody ps L e) := by
  intro w h
  obtain ⟨d, hd, hi⟩ := h.aero
  unfold targetBody
  rw [bind_of_ok (getAero_some hd)]
  simp only [id]
  cases hV : d.alpha with
  | none => exact ⟨⟨_, rfl⟩, rfl⟩
  | some x =>
    simp only [needKey]
    rw [bind_of_ok (ret_run _ _)]
    have : Dies (Hopeless B ps) World.files (liftAt ps d (some x)) :=
      (dies_withAero (Hopeless.incomplete_alpha hi x) dies_tryFinite).bind
    exact this.bind w h

theorem dies_trim (L M e : ℝ) (f : Option String) (n : ℕ) (a de : ℝ) :
    Dies (Hopeless B ps) World.files (trimLoop ps L M e f (n + 1) a de) := by
  unfold trimLoop
  exact (passes_alpha _).bind fun _ => (passes_setCtrl _).bind fun _ => dies_solve.bind

theorem dies_center (cg : V3) : Dies (Hopeless B ps) World.files (acBody ps cg) := by
  unfold acBody
  refine (passes_get _).bind fun _ => passes_dyn.bind fun _ => Dies.bind ?_
  have : acAngles ≠ [] := by simp [acAngles]
  obtain ⟨x, l, hx⟩ := List.exists_cons_of_ne_nil this
  rw [hx]
  unfold acSweep
  exact (passes_alpha _).bind fun _ => dies_solve.bind

/-- every method of an aircraft with wings -/
theorem dies_any (hw : B.hasWings = true) (cg : V3) {a : Analysis} (ha : a.Runs) :
    Dies (Hopeless B ps) World.files (perform ps cg a) := by
  cases a
  case solve f =>
    refine Dies.bind ?_
    intro w h
    obtain ⟨d, hd, hi⟩ := h.aero
    have hg : aeroGiven w = true := by simp [aeroGiven, hd, hi.given]
    obtain ⟨⟨e, he⟩, h2⟩ := dies_solve w h
    unfold muSolve at he h2
    unfold muSolveFile
    rw [get_bind, if_pos hg] at he h2 ⊢
    rw [bind_def] at he h2 ⊢
    rcases hq : solveParts ps w with ⟨e' | ⟨a, b, c⟩, w1⟩ <;> rw [hq] at he h2
    · exact ⟨⟨e', rfl⟩, h2⟩
    · cases he
  case stability => exact (dies_given dies_stab).bind
  case damping => exact (dies_given dies_damp).bind
  case control => exact dies_control.bind
  case derivatives f =>
    refine Dies.bind ?_
    unfold derivatives
    rw [if_pos hw]
    exact (dies_given dies_stab).bind
  case stallOnset f n =>
    refine Dies.bind ?_
    unfold stallOnsetFile
    rw [if_pos hw]
    exact (dies_onset ha).bind
  case stallAirspeed W e f n k =>
    refine Dies.bind ?_
    unfold stallAirspeed
    rw [if_pos hw]
    exact dies_given (dies_airspeed W e n ha).bind
  case targetLift L e f => exact (dies_given (dies_target L e).bind).bind
  case pitchTrim L M e f =>
    refine Dies.bind ?_
    unfold pitchTrim
    intro w h
    obtain ⟨d, hd, hi⟩ := h.aero
    rw [get_bind, if_pos (by simp [aeroGiven, hd, hi.given])]
    exact (dies_ite (dies_trim _ _ _ _ _ _ _) (dies_withCtrl _ (dies_trim _ _ _ _ _ _ _))) w h
  case aeroCenter f => exact (dies_given (dies_center cg).bind).bind

end

/-! ### The aircraft -/

section
variable {ι : Type}

theorem propFlow_incomplete {d : AeroDict ι} (hi : d.Incomplete) : ∃ e, propFlow (some d) = .error e ∧ e ≠ .nonfinite := by
  unfold propFlow
  simp only [hi.given, if_true]
  cases freestream 1 (d.alpha.getD 0) (d.beta.getD 0) with
  | none => exact ⟨_, rfl, by simp⟩
  | some u =>
    rcases hi.lacks with h | h
    · rw [h]; exact ⟨_, rfl, by simp⟩
    · rw [h]
      cases d.Vmag <;> exact ⟨_, rfl, by simp⟩

theorem propsSolve_incomplete (simps : List ℝ → List ℝ → ℝ) (fuel : ℕ) (pts : Option (ι → V3)) {d : AeroDict ι} (hi : d.Incomplete)
    (ps : PropDict) {sls : List (PropSlot ι)} (hs : sls ≠ []) :
    ∃ e, (propsSolve simps fuel pts (some d) ps sls).1 = .error e ∧ e ≠ .nonfinite := by
  obtain ⟨sl, rest, rfl⟩ := List.exists_cons_of_ne_nil hs
  obtain ⟨e, he, hne⟩ := propFlow_incomplete hi
  have hr : ∀ (s : PropDict), runProp simps fuel sl.model (some d) s sl.st = (.error e, sl.st) := by
    intro s
    unfold runProp
    rw [he]
    rfl
  have hl : ∃ e, (propsLoop simps fuel (some d) ps (sl :: rest) {}).1 = .error e ∧ e ≠ .nonfinite := by
    unfold propsLoop
    cases hp : localPS ps sl.name with
    | error e' =>
      refine ⟨e', rfl, ?_⟩
      unfold localPS at hp
      rintro rfl
      split_ifs at hp
      split at hp
      · cases hp
      · cases hp
      · split_ifs at hp; cases hp
    | ok s =>
      simp only [hr s]
      exact ⟨e, rfl, hne⟩
  obtain ⟨e', he', hne'⟩ := hl
  refine ⟨e', ?_, hne'⟩
  unfold propsSolve
  rw [bind_def]
  unfold propsForces
  rcases hq : propsLoop simps fuel (some d) ps (sl :: rest) {} with ⟨e'' | a, s1⟩ <;> rw [hq] at he'
  · cases he'; rfl
  · cases he'

theorem llSolve_incomplete {n : ℕ} (G : LLGeom (Fin n)) (st : LLState (Fin n)) {d : AeroDict (Fin n)} (hi : d.Incomplete)
    (c : Option CtrlDict) : llSolve G st "linear" (some d) c = (.error .runtime, st) := by
  have : processAero G st (some d) = (.error .runtime, st) := by
    unfold processAero
    simp only [hi.given, if_true, hi.noField]
    rcases hi.lacks with h | h
    · rw [h]
    · rw [h]; cases d.Vmag <;> rfl
  unfold llSolve
  rw [this]

/-- the number of propeller models is kept -/
theorem propsLoop_keeps (simps : List ℝ → List ℝ → ℝ) (fuel : ℕ) (aero : Option (AeroDict ι)) (ps : PropDict) :
    ∀ (sls : List (PropSlot ι)) (acc : PropAcc), (propsLoop simps fuel aero ps sls acc).2.length = sls.length := by
  intro sls
  induction sls with
  | nil => intro acc; rfl
  | cons sl rest ih =>
    intro acc
    unfold propsLoop
    cases localPS ps sl.name with
    | error e => rfl
    | ok s =>
      simp only
      rcases runProp simps fuel sl.model aero s sl.st with ⟨e | o, st⟩
      · rfl
      · have := ih { F := acc.F + o.F, M := acc.M + o.M, last := some (o.T, o.l) }
        simp only
        generalize propsLoop simps fuel aero ps rest { F := acc.F + o.F, M := acc.M + o.M, last := some (o.T, o.l) } = q at this ⊢
        rcases q with ⟨e | a, s1⟩
        · exact congrArg (· + 1) this
        · exact congrArg (· + 1) this

theorem propsSolve_keeps (simps : List ℝ → List ℝ → ℝ) (fuel : ℕ) (pts : Option (ι → V3)) (aero : Option (AeroDict ι)) (ps : PropDict)
    (sls : List (PropSlot ι)) : (propsSolve simps fuel pts aero ps sls).2.length = sls.length := by
  have h1 : (propsForces simps fuel aero ps sls).2.length = sls.length := by
    have := propsLoop_keeps simps fuel aero ps sls {}
    unfold propsForces
    rcases hq : propsLoop simps fuel aero ps sls {} with ⟨e | ⟨a, b⟩, s1⟩ <;> rw [hq] at this
    · exact this
    · simp only
      split
      · exact this
      · split
        · exact this
        · split <;> exact this
  unfold propsSolve
  rw [bind_def]
  rcases hq : propsForces simps fuel aero ps sls with ⟨e | ⟨a, b⟩, s1⟩ <;> rw [hq] at h1
  · exact h1
  · simp only
    cases pts with
    | none => exact h1
    | some p =>
      simp only
      rw [bind_def]
      cases hf : propFlow aero with
      | error e => exact h1
      | ok fl =>
        show ((Act.get >>= fun sls => _) s1).2.length = _
        rw [get_bind]
        split_ifs <;> exact h1

/-- what a backend has to do for `solve` to refuse -/
theorem hopeless_abs {B : Backend ι} (hw : B.hasWings = true) {ps : Option B.π} {w : World B} {d : AeroDict ι} (hd : w.aero = some d)
    (hi : d.Incomplete)
    (hp : B.hasProps = true → ∀ d : AeroDict ι, d.Incomplete → ∃ e, (B.propSolve d ps w.st).1 = .error e ∧ e ≠ .nonfinite)
    (hl : ∀ (d : AeroDict ι) (c : Option CtrlDict), d.Incomplete → (B.wingSolve d c w.st).1 = .error .runtime) : Hopeless B ps w := by
  refine ⟨⟨d, hd, hi⟩, fun d c hi => ?_⟩
  set w1 : World B := { w with aero := some d, ctrl := c } with hw1
  have key : ∃ e w', e ≠ .nonfinite ∧ solveParts ps w1 = (.error e, w') ∧ w'.files = w.files := by
    unfold solveParts
    rw [bind_of_ok (getAero_some (show w1.aero = some d from rfl))]
    simp only [id]
    by_cases h : B.hasProps = true
    · obtain ⟨e, he, hne⟩ := hp h d hi
      unfold solveProps
      rw [if_pos h]
      refine ⟨e, { w1 with st := (B.propSolve d ps w.st).2 }, hne, ?_, rfl⟩
      have : onSolver (B.propSolve d ps) w1 = (.error e, { w1 with st := (B.propSolve d ps w.st).2 }) := by
        unfold onSolver
        show (((B.propSolve d ps) w.st).1, _) = _
        rw [he]
      rw [bind_def, bind_def, this]
    · have h1 : solveProps ps d w1 = (.ok none, w1) := by
        unfold solveProps
        rw [if_neg h]; rfl
      rw [bind_of_ok h1]
      have this : onSolver (B.wingSolve d c) w1 = (.error .runtime, { w1 with st := (B.wingSolve d c w.st).2 }) := by
        unfold onSolver
        show (((B.wingSolve d c) w.st).1, _) = _
        rw [hl d c hi]
      have h2 : solveWings w1 = (.error .runtime, { w1 with st := (B.wingSolve d c w.st).2 }) := by
        unfold solveWings
        rw [if_pos hw, get_bind, bind_def]
        rw [show onSolver (B.wingSolve (w1.aero.getD {}) w1.ctrl) w1 = _ from this]
      refine ⟨.runtime, { w1 with st := (B.wingSolve d c w.st).2 }, by simp, ?_, rfl⟩
      rw [bind_def, h2]
  obtain ⟨e, w', hne, h1, h2⟩ := key
  refine ⟨e, w', hne, ?_, h2⟩
  unfold muSolve
  rw [get_bind, if_pos (by simp [aeroGiven, hw1, hi.given]), bind_def, h1]

end

section
variable {table : String → ℝ → ℝ} {mem : String → ℕ → ℕ → Option ℝ} {p : Plane} {o : Analyser} {simps : List ℝ → List ℝ → ℝ} {fuel : ℕ}
  {bad : Act (LLState (Fin (sectionsOf o.wing)) × List (PropSlot (Fin (sectionsOf o.wing)))) (Option Loads)}

theorem hopeless_of (hw : p.wings ≠ []) (ho : openMachUp table mem p = .ok o) (ps : Option PropDict)
    (st : LLState (Fin (sectionsOf o.wing)) × List (PropSlot (Fin (sectionsOf o.wing)))) (hs : p.props ≠ [] → st.2 ≠ [])
    {w : World (o.backend p simps fuel bad)} (hst : w.st = st)
    {d : AeroDict (Fin (sectionsOf o.wing))} (hd : w.aero = some d) (hi : d.Incomplete) :
    Hopeless (o.backend p simps fuel bad) ps w := by
  obtain ⟨hwp, hsl⟩ := openMachUp_ok table mem ho
  refine hopeless_abs (by show (!p.wings.isEmpty) = true; simp [hw]) hd hi (fun hp d hi => ?_) (fun d c hi => ?_)
  · have hp' : p.props ≠ [] := by
      rintro h
      change (!p.props.isEmpty) = true at hp
      rw [h] at hp
      cases hp
    rw [hst]
    have k := backend_propSolve_run (o := o) (p := p) (simps := simps) (fuel := fuel) (bad := bad) d ps st
    rw [if_pos (hsl.mpr hp')] at k
    obtain ⟨e, he, hne⟩ := propsSolve_incomplete simps fuel (if (!p.wings.isEmpty) then pointsOf o.wing else none) hi (ps.getD [])
      (sls := st.2.map (·.withCg p.cg)) (by simpa using hs hp')
    exact ⟨e, (congrArg Prod.fst k).trans he, hne⟩
  · rw [hst]
    have k := backend_wingSolve (o := o) (p := p) (simps := simps) (fuel := fuel) (bad := bad) d c st
    rw [if_pos ((wing_isSome hwp).mpr hw), llSolve_incomplete _ _ hi] at k
    exact congrArg Prod.fst k

theorem foldlM_dict {α β : Type} {f : List (String × β) → α → Except PyErr (List (String × β))}
    (hf : ∀ d x d', f d x = .ok d' → d' ≠ []) : ∀ (l : List α) (d d' : List (String × β)), (l ≠ [] ∨ d ≠ []) →
      l.foldlM f d = .ok d' → d' ≠ [] := by
  intro l
  induction l with
  | nil =>
    intro d d' hd h
    rcases hd with h' | h'
    · exact absurd rfl h'
    · cases h; exact h'
  | cons x l ih =>
    intro d d' _ h
    rw [List.foldlM_cons] at h
    cases hx : f d x with
    | error e => rw [hx] at h; cases h
    | ok d1 =>
      rw [hx] at h
      exact ih d1 d' (Or.inr (hf d x d1 hx)) h

theorem openProps_ne {ι : Type} {pts : Option (ι → V3)} {s : List (PropSlot ι)} (hp : p.props ≠ []) (h : openProps table mem p pts = .ok s) :
    s ≠ [] := by
  unfold openProps at h
  cases hq : (p.props.map Prod.snd).foldlM (fun d q => do
    let u ← p.getUnits
    let m ← mkPropM table q p.cg u pts
    return dictSet d q.name m) [] with
  | error e => rw [hq] at h; cases h
  | ok ms =>
    rw [hq] at h
    cases h
    have : ms ≠ [] := by
      refine foldlM_dict (fun d x d' h => ?_) _ _ _ (Or.inl (by simpa using hp)) hq
      cases hu : p.getUnits with
      | error e => rw [hu] at h; cases h
      | ok u =>
        rw [hu] at h
        cases hm : mkPropM table x p.cg u pts with
        | error e => simp [hm, bind, Except.bind] at h
        | ok m =>
          simp only [hm, bind, Except.bind] at h
          cases h
          exact dictSet_ne_nil _ _ _
    simpa using this

theorem open_slots (hp : p.props ≠ []) (ho : openMachUp table mem p = .ok o) : o.slots.getD [] ≠ [] := by
  unfold openMachUp at ho
  cases hw : mkWingPart p with
  | error e => rw [hw] at ho; cases ho
  | ok w =>
    rw [hw] at ho
    change (if p.props = [] then _ else _) = _ at ho
    rw [if_neg hp] at ho
    cases hs : openProps table mem p (pointsOf w) with
    | error e => rw [hs] at ho; cases ho
    | ok s =>
      rw [hs] at ho
      cases ho
      exact openProps_ne hp hs

/-- the propeller models of the object -/
def slotsOf (w : World (o.backend p simps fuel bad)) : List (PropSlot (Fin (sectionsOf o.wing))) := (id w.st : LLState (Fin (sectionsOf o.wing)) × List (PropSlot (Fin (sectionsOf o.wing)))).2

/-- propeller models do not disappear -/
theorem slots_respected (hb : ∀ s, s.2 ≠ [] → (bad s).2.2 ≠ []) :
    Respected (B := o.backend p simps fuel bad) fun w w' =>
      slotsOf w ≠ [] →
      slotsOf w' ≠ [] where
  refl w h := h
  trans w w' w'' h h' k := h' (h k)
  aero w a h := h
  ctrl w a h := h
  objs w a h := h
  files w a h := h
  prop w d ps h := by
    have k := backend_propSolve_run (o := o) (p := p) (simps := simps) (fuel := fuel) (bad := bad) d ps w.st
    refine Eq.mpr (congrArg (fun x => x.2.2 ≠ []) k) ?_
    by_cases hs : o.slots.isSome = true
    · rw [if_pos hs]
      have := propsSolve_keeps simps fuel (if (!p.wings.isEmpty) then pointsOf o.wing else none) (some d) (ps.getD [])
        ((slotsOf w).map (·.withCg p.cg))
      intro hn
      change (propsSolve simps fuel (if (!p.wings.isEmpty) then pointsOf o.wing else none) (some d) (ps.getD [])
        ((slotsOf w).map (·.withCg p.cg))).2 = [] at hn
      rw [hn, List.length_map] at this
      exact h (List.length_eq_zero_iff.mp this.symm)
    · rw [if_neg hs]
      exact h
  wing w d c h := by
    have k := backend_wingSolve (o := o) (p := p) (simps := simps) (fuel := fuel) (bad := bad) d c w.st
    refine Eq.mpr (congrArg (fun x => x.2.2 ≠ []) k) ?_
    split_ifs <;> exact h
  bad w h := hb _ h

/-- **C134.** On every `MachUp` object of an aircraft with wings, with or without propellers, after any calls: a call of any
method with an `aero_state` that is not empty, has no `local_state` and lacks `V_mag` or `rho` raises an exception and writes no
file.  (`bad` is the part of `solve` that is not modelled, see `Backend.solveBad`; propeller models do not disappear in it.) -/
theorem C134_rejected (hw : p.wings ≠ []) (ho : openMachUp table mem p = .ok o) (hb : ∀ s, s.2 ≠ [] → (bad s).2.2 ≠ [])
    (a0 : Option (AeroDict (Fin (sectionsOf o.wing)))) (c0 : Option CtrlDict) (hist : List (AnyCall (o.backend p simps fuel bad)))
    (c : AnyCall (o.backend p simps fuel bad)) (hc : c.what.Runs) {d : AeroDict (Fin (sectionsOf o.wing))} (hd : c.aero = some d)
    (hi : d.Incomplete) :
    let w := afterCalls p.cg (o.fresh p simps fuel bad a0 c0) hist
    (∃ e, (c.run p.cg w).1 = .error e) ∧ (c.run p.cg w).2.files = w.files := by
  intro w
  have h0 : p.props ≠ [] → slotsOf w ≠ [] :=
    fun hp => Goes.history (slots_respected hb) p.cg hist (o.fresh p simps fuel bad a0 c0) (open_slots hp ho)
  have := dies_any (B := o.backend p simps fuel bad) (ps := c.ps) (by show (!p.wings.isEmpty) = true; simp [hw]) p.cg hc
    { w with aero := c.aero, ctrl := c.ctrl }
    (hopeless_of hw ho c.ps _ h0 rfl hd hi)
  exact this

end
/-! ### The documented spelling -/

theorem documented_incomplete {ι : Type} (a b V r : ℝ) : (documentedState a b V r : AeroDict ι).Incomplete :=
  ⟨by simp [documentedState, AeroDict.ofEntries, AeroDict.truthy, dictGet], rfl, Or.inl (by simp [documentedState, AeroDict.ofEntries, dictGet])⟩

theorem example_plain {ι : Type} (a b V r : ℝ) : Plain (exampleState a b V r : AeroDict ι) V r a b := by
  constructor <;> simp [exampleState, AeroDict.ofEntries, dictGet]

section
variable {table : String → ℝ → ℝ} {mem : String → ℕ → ℕ → Option ℝ} {p : Plane} {o : Analyser} {simps : List ℝ → List ℝ → ℝ} {fuel : ℕ}
  {bad : Act (LLState (Fin (sectionsOf o.wing)) × List (PropSlot (Fin (sectionsOf o.wing)))) (Option Loads)}

/-- **C135, the documented key.** On every `MachUp` object of an aircraft with wings, after any calls: every method, called with an
`aero_state` with the keys its documentation names, raises an exception. -/
theorem C135_documented (hw : p.wings ≠ []) (ho : openMachUp table mem p = .ok o) (hb : ∀ s, s.2 ≠ [] → (bad s).2.2 ≠ [])
    (a0 : Option (AeroDict (Fin (sectionsOf o.wing)))) (c0 : Option CtrlDict) (hist : List (AnyCall (o.backend p simps fuel bad)))
    (c : AnyCall (o.backend p simps fuel bad)) (hc : c.what.Runs) (alpha beta V rho : ℝ) (hd : c.aero = some (documentedState alpha beta V rho)) :
    ∃ e, (c.run p.cg (afterCalls p.cg (o.fresh p simps fuel bad a0 c0) hist)).1 = .error e :=
  (C134_rejected hw ho hb a0 c0 hist c hc hd (documented_incomplete _ _ _ _)).1

end

/-- a `solve` of a straight wing, at any time -/
theorem straight_muSolve {nm : String} {pos : Option V3} {ops : List PlaneOp} {wp : WingPart}
    {slots : Option (List (PropSlot (Fin (sectionsOf (some wp)))))} {simps : List ℝ → List ℝ → ℝ} {fuel : ℕ}
    {bad : Act (LLState (Fin (sectionsOf (some wp))) × List (PropSlot (Fin (sectionsOf (some wp))))) (Option Loads)}
    (hs : StraightWing (built nm pos ops)) (hw : (built nm pos ops).wings ≠ []) (hp : (built nm pos ops).props = [])
    (hg : mkGrid (built nm pos ops) true = .ok wp.grid) {d : AeroDict (Fin (sectionsOf (some wp)))} {alpha beta V rho : ℝ}
    (hd : Plain d V rho alpha beta) (hV : 0 < V) (hf : FromFront (built nm pos ops) alpha beta)
    (w : World (Analyser.backend ⟨some wp, slots⟩ (built nm pos ops) simps fuel bad)) (ha : w.aero = some d) (ps : Option PropDict) :
    ∃ t, (muSolve (B := Analyser.backend ⟨some wp, slots⟩ (built nm pos ops) simps fuel bad) ps w).1 = .ok t := by
  obtain ⟨R, hR⟩ := C128_solvable hs hg (built nm pos ops).cg hd hV hf
    (id w.st : LLState (Fin (sectionsOf (some wp))) × List (PropSlot (Fin (sectionsOf (some wp))))).1 w.ctrl
  have ht : aeroGiven w = true := by
    unfold aeroGiven
    rw [ha]
    exact hd.truthy
  have k := muSolve_wingsOnly (B := (Analyser.backend ⟨some wp, slots⟩ (built nm pos ops) simps fuel bad)) (ps := ps) (w := w) (d := d)
    (by show (!(built nm pos ops).props.isEmpty) = false; rw [hp]; rfl) (by show (!(built nm pos ops).wings.isEmpty) = true; simp [hw]) ha ht
  have k2 := backend_wingSolve (o := ⟨some wp, slots⟩) (p := built nm pos ops) (simps := simps) (fuel := fuel) (bad := bad) d w.ctrl w.st
  rw [if_pos (show (Analyser.mk (some wp) slots).wing.isSome = true from rfl)] at k2
  have k3 : ((Analyser.backend ⟨some wp, slots⟩ (built nm pos ops) simps fuel bad).wingSolve d w.ctrl w.st).1 = .ok R := (congrArg Prod.fst k2).trans hR
  rw [k3] at k
  exact ⟨_, k⟩

/-- the same as a call -/
theorem straight_run {nm : String} {pos : Option V3} {ops : List PlaneOp} {wp : WingPart}
    {slots : Option (List (PropSlot (Fin (sectionsOf (some wp)))))} {simps : List ℝ → List ℝ → ℝ} {fuel : ℕ}
    {bad : Act (LLState (Fin (sectionsOf (some wp))) × List (PropSlot (Fin (sectionsOf (some wp))))) (Option Loads)}
    (hs : StraightWing (built nm pos ops)) (hw : (built nm pos ops).wings ≠ []) (hp : (built nm pos ops).props = [])
    (hg : mkGrid (built nm pos ops) true = .ok wp.grid) (alpha beta V rho : ℝ) (hV : 0 < V) (hf : FromFront (built nm pos ops) alpha beta)
    (w : World (Analyser.backend ⟨some wp, slots⟩ (built nm pos ops) simps fuel bad)) (ctrl : Option CtrlDict) (ps : Option PropDict) (cg : V3) :
    ∃ r, ((⟨.solve none, some (exampleState alpha beta V rho), ctrl, ps⟩ :
      AnyCall (Analyser.backend ⟨some wp, slots⟩ (built nm pos ops) simps fuel bad)).run cg w).1 = .ok r := by
  set w1 : World (Analyser.backend ⟨some wp, slots⟩ (built nm pos ops) simps fuel bad) := { w with aero := some (exampleState alpha beta V rho), ctrl := ctrl } with hw1
  obtain ⟨t, k⟩ := straight_muSolve hs hw hp hg (example_plain alpha beta V rho) hV hf w1 rfl ps
  have ht : aeroGiven w1 = true := by
    show (exampleState alpha beta V rho : AeroDict (Fin (sectionsOf (some wp)))).truthy = true
    exact (example_plain alpha beta V rho).truthy
  show ∃ r, ((muSolveFile (B := (Analyser.backend ⟨some wp, slots⟩ (built nm pos ops) simps fuel bad)) ps none >>= fun r => pure (Answer.loads r)) w1).1 = .ok r
  unfold muSolve at k
  unfold muSolveFile
  rw [get_bind, if_pos ht] at k
  rw [bind_def, get_bind, if_pos ht]
  rw [bind_def] at k ⊢
  rcases hq : solveParts ps w1 with ⟨e | ⟨a, b, t⟩, w2⟩ <;> rw [hq] at k
  · cases k
  · exact ⟨.loads t, by rw [hq]; rfl⟩

/-- **C135, partial.** With the key the examples use, the same `aero_state` is accepted: on an aircraft without propellers whose wings
are straight, `solve` returns loads after any calls, if the wind comes from the front.
Missing: the key has to be `V_mag`, not the documented `v_mag`, see `C135_documented`. -/
theorem C135_spelled_partial {table : String → ℝ → ℝ} {mem : String → ℕ → ℕ → Option ℝ} {nm : String} {pos : Option V3} {ops : List PlaneOp}
    {o : Analyser} {simps : List ℝ → List ℝ → ℝ} {fuel : ℕ}
    {bad : Act (LLState (Fin (sectionsOf o.wing)) × List (PropSlot (Fin (sectionsOf o.wing)))) (Option Loads)}
    (hs : StraightWing (built nm pos ops)) (hw : (built nm pos ops).wings ≠ []) (hp : (built nm pos ops).props = [])
    (ho : openMachUp table mem (built nm pos ops) = .ok o) (alpha beta V rho : ℝ) (hV : 0 < V) (hf : FromFront (built nm pos ops) alpha beta)
    (a0 : Option (AeroDict (Fin (sectionsOf o.wing)))) (c0 : Option CtrlDict)
    (hist : List (AnyCall (o.backend (built nm pos ops) simps fuel bad))) (ctrl : Option CtrlDict) (ps : Option PropDict) :
    let cg := (built nm pos ops).cg
    let c : AnyCall (o.backend (built nm pos ops) simps fuel bad) := ⟨.solve none, some (exampleState alpha beta V rho), ctrl, ps⟩
    ∃ r, (c.run cg (afterCalls cg (o.fresh (built nm pos ops) simps fuel bad a0 c0) hist)).1 = .ok r := by
  intro cg c
  obtain ⟨hwp, -⟩ := openMachUp_ok table mem ho
  obtain ⟨wing, slots⟩ := o
  cases wing with
  | none => exact absurd ((wing_isSome hwp).mpr hw) (by simp)
  | some wp =>
    have hg : mkGrid (built nm pos ops) true = .ok wp.grid := by
      change mkWingPart (built nm pos ops) = .ok (some wp) at hwp
      unfold mkWingPart at hwp
      rw [if_neg hw] at hwp
      cases hq : mkGrid (built nm pos ops) true with
      | error e => rw [hq] at hwp; cases hwp
      | ok g =>
        rw [hq] at hwp
        cases hr : refLengths (built nm pos ops) g.refArea with
        | error e => simp [hr, bind, Except.bind] at hwp
        | ok r => simp only [bind, Except.bind, hr] at hwp; cases hwp; rfl
    exact straight_run hs hw hp hg alpha beta V rho hV hf _ ctrl ps cg

theorem unit_straight : StraightWing unitPlane := by
  obtain ⟨t1, -, t3, -⟩ := unit_tips
  constructor
  · intro s hs; rw [unit_segments] at hs; rcases List.mem_pair.1 hs with rfl | rfl <;> exact ⟨rfl, rfl⟩
  · intro s hs; rw [unit_segments] at hs; rcases List.mem_pair.1 hs with rfl | rfl <;> simp [unitSeg]
  · intro s hs; rw [unit_segments] at hs; rcases List.mem_pair.1 hs with rfl | rfl <;> simp [unitSeg, unitAf]
  · refine ⟨0, 0, fun s hs => ?_⟩
    rw [unit_segments] at hs
    rcases List.mem_pair.1 hs with rfl | rfl
    · exact ⟨_, t1⟩
    · exact ⟨_, t3⟩
  · rw [unit_segments, List.pairwise_pair]
    intro a b ha hb
    rw [t1] at ha; rw [t3] at hb
    cases ha; cases hb
    left
    show (-1 : ℝ) + 1 ≤ 0
    norm_num

/-- **C135 is refuted**: on an aircraft with a wing, `solve` returns loads if the airspeed is given as in the examples, and raises if it
is given as documented. -/
theorem C135_refuted (table : String → ℝ → ℝ) (mem : String → ℕ → ℕ → Option ℝ) (alpha beta V rho : ℝ) (ha : |alpha| < 90) (hb : |beta| < 90)
    (hV : 0 < V) : ∃ o, openMachUp table mem unitPlane = .ok o ∧
      ∀ (simps : List ℝ → List ℝ → ℝ) (fuel : ℕ) bad, (∀ s, s.2 ≠ [] → (bad s).2.2 ≠ []) → ∀ a0 c0,
        let call (d : AeroDict (Fin (sectionsOf o.wing))) : AnyCall (o.backend unitPlane simps fuel bad) := ⟨.solve none, some d, none, none⟩
        let fresh := o.fresh unitPlane simps fuel bad a0 c0
        (∃ r, ((call (exampleState alpha beta V rho)).run unitPlane.cg fresh).1 = .ok r) ∧
        ∃ e, ((call (documentedState alpha beta V rho)).run unitPlane.cg fresh).1 = .error e := by
  obtain ⟨g, hg⟩ := grid_exists _ _ _ unit_wellFormed true
  refine ⟨_, unit_open table mem hg, fun simps fuel bad hbad a0 c0 => ?_⟩
  refine ⟨C135_spelled_partial unit_straight (by rw [← unitPlane, unit_wings]; simp) rfl (unit_open table mem hg) alpha beta V rho hV
    ⟨hb, fun s hs => ?_⟩ a0 c0 [] none none,
    C135_documented (by rw [unit_wings]; simp) (unit_open table mem hg) hbad a0 c0 [] _ trivial alpha beta V rho rfl⟩
  rw [← unitPlane, unit_segments] at hs
  rcases List.mem_pair.1 hs with rfl | rfl <;> simpa [unitSeg] using ha

/-- Non-vacuity of C134: the demonstration aircraft, opened; `target_lift` without a density, after a `solve` -/
example (table : String → ℝ → ℝ) (mem : String → ℕ → ℕ → Option ℝ) : ∃ o, openMachUp table mem unitPlane = .ok o ∧
    ∀ (simps : List ℝ → List ℝ → ℝ) (fuel : ℕ) bad, (∀ s, s.2 ≠ [] → (bad s).2.2 ≠ []) → ∀ a0 c0,
      let solved := afterCalls unitPlane.cg (o.fresh unitPlane simps fuel bad a0 c0) [⟨.solve none, some (exampleState 3 0 10 1), none, none⟩]
      ∃ e, ((⟨.targetLift 5 (1 / 100) none, some { Vmag := some 10, alpha := some 3 }, none, none⟩ :
        AnyCall (o.backend unitPlane simps fuel bad)).run unitPlane.cg solved).1 = .error e := by
  obtain ⟨g, hg⟩ := grid_exists _ _ _ unit_wellFormed true
  refine ⟨_, unit_open table mem hg, fun simps fuel bad hbad a0 c0 => ?_⟩
  exact (C134_rejected (by rw [unit_wings]; simp) (unit_open table mem hg) hbad a0 c0 _
    ⟨.targetLift 5 (1 / 100) none, some { Vmag := some 10, alpha := some 3 }, none, none⟩ trivial rfl ⟨rfl, rfl, Or.inr rfl⟩).1

end Verif
