import Verif.Lemmas.PropNames
import Verif.Spec.CgFree
import Verif.Thm.PropSame
import Verif.Thm.Omitted
import Verif.Thm.MUHistory

/-!
# The names of propellers (C148)
-/

namespace Verif
open V3 Act

/-- opening the aircraft with other names of the propellers -/
theorem open_renamed (table : String → ℝ → ℝ) {mem mem' : String → ℕ → ℕ → Option ℝ} {ρ : String → String} (hρ : Function.Injective ρ)
    (hm : ∀ n, mem' (ρ n) = mem n) (p : Plane) : openMachUp table mem' (p.renameProps ρ) =
      (openMachUp table mem p).map fun o => ⟨o.wing, o.slots.map fun s => s.map (·.renamed ρ)⟩ := by
  unfold openMachUp
  rw [show mkWingPart (p.renameProps ρ) = mkWingPart p from mkWingPart_congr rfl rfl rfl rfl rfl]
  cases mkWingPart p with
  | error e => rfl
  | ok w =>
    simp only [bind, Except.bind]
    have h0 : (p.renameProps ρ).props = [] ↔ p.props = [] := by simp [Plane.renameProps]
    by_cases h : p.props = []
    · rw [if_pos h, if_pos (h0.2 h)]; rfl
    · rw [if_neg h, if_neg (fun q => h (h0.1 q)), openProps_renamed table hρ hm]
      cases openProps table mem p (pointsOf w) <;> rfl

theorem outcome_image {α S S' : Type} (φ : S → S') {x : Except PyErr α × S} {y : Except PyErr α × S'} (h : y = (x.1, φ x.2)) :
    Outcome Same x.1 y.1 ∧ y.2 = φ x.2 := by
  subst h
  exact ⟨Outcome.of_eq rfl, rfl⟩

/-- the solvers of the two aircraft do the same -/
theorem backend_renamed {ρ : String → String} (hρ : Function.Injective ρ) (hw : ∀ w ∈ stateWords, ρ w = w) (wg : Option WingPart)
    (sl : Option (List (PropSlot (Fin (sectionsOf wg))))) (p : Plane) (simps : List ℝ → List ℝ → ℝ) (fuel : ℕ)
    (bad bad' : Act (LLState (Fin (sectionsOf wg)) × List (PropSlot (Fin (sectionsOf wg)))) (Option Loads))
    (hb : ∀ st, bad' (renamedState ρ st) = ((bad st).1, renamedState ρ (bad st).2)) (ps : Option PropDict) :
    Imitates (Analyser.backend ⟨wg, sl⟩ p simps fuel bad)
      (Analyser.backend ⟨wg, sl.map fun s => s.map (·.renamed ρ)⟩ (p.renameProps ρ) simps fuel bad')
      (fun st st' => st' = renamedState ρ st) ps (ps.map (·.renameProps ρ)) where
  wings := rfl
  props := by
    show (!(p.renameProps ρ).props.isEmpty) = !p.props.isEmpty
    simp [Plane.renameProps]
  Sw := rfl
  lat := rfl
  long := rfl
  propSolve := by
    rintro d ⟨ll, sls⟩ _ rfl
    have k := backend_propSolve_run (o := ⟨wg, sl⟩) (p := p) (simps := simps) (fuel := fuel) (bad := bad) d ps (ll, sls)
    have k' := backend_propSolve_run (o := ⟨wg, sl.map fun s => s.map (·.renamed ρ)⟩) (p := p.renameProps ρ) (simps := simps) (fuel := fuel)
      (bad := bad') d (ps.map (·.renameProps ρ)) (ll, sls.map (·.renamed ρ))
    simp only at k k'
    cases sl with
    | none =>
      simp only [Option.map_none, Option.isSome_none, Bool.false_eq_true, if_false] at k k'
      exact outcome_image (renamedState ρ) (by rw [k]; exact k')
    | some s =>
      simp only [Option.map_some, Option.isSome_some, if_true] at k k'
      have hp : (ps.map (·.renameProps ρ)).getD [] = (ps.getD []).renameProps ρ := by cases ps <;> rfl
      have hs : (sls.map (·.renamed ρ)).map (·.withCg (p.renameProps ρ).cg) = (sls.map (·.withCg p.cg)).map (·.renamed ρ) := by
        rw [List.map_map, List.map_map]; rfl
      rw [hp, hs, show (p.renameProps ρ).wings = p.wings from rfl] at k'
      have e := propsSolve_rename hρ hw simps fuel (if (!p.wings.isEmpty) = true then pointsOf wg else none) (some d) (ps.getD []) (sls.map (·.withCg p.cg))
      rw [e] at k'
      exact outcome_image (renamedState ρ) (by rw [k]; exact k')
  wingSolve := by
    rintro d c ⟨ll, sls⟩ _ rfl
    have k := backend_wingSolve (o := ⟨wg, sl⟩) (p := p) (simps := simps) (fuel := fuel) (bad := bad) d c (ll, sls)
    have k' := backend_wingSolve (o := ⟨wg, sl.map fun s => s.map (·.renamed ρ)⟩) (p := p.renameProps ρ) (simps := simps) (fuel := fuel)
      (bad := bad') d c (ll, sls.map (·.renamed ρ))
    simp only at k k'
    cases wg with
    | none => exact outcome_image (renamedState ρ) (by rw [k]; exact k')
    | some x => exact outcome_image (renamedState ρ) (by rw [k]; exact k')
  stall := by rintro ⟨ll, sls⟩ _ rfl; rfl
  bad := by
    rintro st _ rfl
    exact outcome_image (renamedState ρ) (hb st)

section
variable {table : String → ℝ → ℝ} {mem mem' : String → ℕ → ℕ → Option ℝ} {ρ : String → String} {simps : List ℝ → List ℝ → ℝ} {fuel : ℕ}

/-- **C148** (partial: the words that have a meaning of their own in a `prop_state` are not used as new names, see `C148_refuted`).
An aircraft is built by any calls, and again by the same calls with the names of its propellers replaced by others, different for
different propellers.  A `MachUp` object can be constructed for one if and only if it can for the other (with the same exception
otherwise; the uninitialised memory `mem` of corresponding propellers is taken to be the same).  In two sessions with these objects,
with the same calls except that the names in the `prop_state`s are replaced as well, every call has the same outcome, writes the same
files and leaves the caller's dictionaries the same.  (`bad`: what an analysis with values that are not numbers does, here the same.) -/
theorem C148_renamed_partial (hρ : Function.Injective ρ) (hw : ∀ w ∈ ["J", "rot_per_sec", "brake_power", "electric_throttle"], ρ w = w)
    (hm : ∀ n, mem' (ρ n) = mem n) (nm : String) (pos : Option V3) (ops : List PlaneOp) (units : Option (Option String)) :
    let p : Plane := { built nm pos ops with units }
    let p' : Plane := { built nm pos (ops.map (PlaneOp.renameProps ρ)) with units }
    (∀ e, openMachUp table mem' p' = .error e ↔ openMachUp table mem p = .error e) ∧
    ∀ o, openMachUp table mem p = .ok o → ∃ s', openMachUp table mem' p' = .ok ⟨o.wing, s'⟩ ∧
      ∀ bad bad', (∀ st, bad' (renamedState ρ st) = ((bad st).1, renamedState ρ (bad st).2)) →
      ∀ (hist : List (Request (Fin (sectionsOf o.wing)))) (q : Request (Fin (sectionsOf o.wing))) a0 c0 a0' c0',
        let call (r : Request (Fin (sectionsOf o.wing))) : AnyCall (o.backend p simps fuel bad) := ⟨r.what, r.aero, r.ctrl, r.ps⟩
        let call' (r : Request (Fin (sectionsOf o.wing))) : AnyCall (Analyser.backend ⟨o.wing, s'⟩ p' simps fuel bad') :=
          ⟨r.what, r.aero, r.ctrl, r.ps.map (PropDict.renameProps ρ)⟩
        let r := (call q).run p.cg (afterCalls p.cg (o.fresh p simps fuel bad a0 c0) (hist.map call))
        let r' := (call' q).run p'.cg (afterCalls p'.cg (Analyser.fresh ⟨o.wing, s'⟩ p' simps fuel bad' a0' c0') (hist.map call'))
        r'.1 = r.1 ∧ r'.2.aero = r.2.aero ∧ r'.2.ctrl = r.2.ctrl ∧ r'.2.files = r.2.files := by
  intro p p'
  have hp' : p' = p.renameProps ρ := by
    show ({ built nm pos (ops.map (PlaneOp.renameProps ρ)) with units } : Plane) = _
    rw [built_renameProps hρ]
    rfl
  rw [hp']
  have ho := open_renamed table hρ hm p
  refine ⟨fun e => ?_, ?_⟩
  · rw [ho]
    cases openMachUp table mem p <;> simp [Except.map]
  · rintro ⟨wg, sl⟩ h
    rw [h] at ho
    refine ⟨_, ho, fun bad bad' hb hist q a0 c0 a0' c0' => ?_⟩
    intro call call' r r'
    have hI := backend_renamed hρ hw wg sl p simps fuel bad bad' hb
    obtain ⟨k1, k2⟩ := imitate_calls p.cg (R := fun st st' => st' = renamedState ρ st) (hist := hist.map call) (hist' := hist.map call') (c := call q)
      (c' := call' q) (by
        have : ∀ l : List (Request (Fin (sectionsOf wg))), List.Forall₂ (AnyCall.Imitated (fun st st' => st' = renamedState ρ st)) (l.map call) (l.map call') := by
          intro l
          induction l with
          | nil => exact .nil
          | cons x t ih => exact .cons ⟨rfl, rfl, rfl, hI x.ps⟩ ih
        have h2 := this (hist ++ [q])
        rwa [List.map_append, List.map_append] at h2) (w := Analyser.fresh ⟨wg, sl⟩ p simps fuel bad a0 c0)
      (w' := Analyser.fresh ⟨wg, sl.map fun s => s.map (·.renamed ρ)⟩ (p.renameProps ρ) simps fuel bad' a0' c0') rfl (by
        show (LLState.init _, (sl.map fun s => s.map (·.renamed ρ)).getD []) = renamedState ρ (LLState.init _, sl.getD [])
        cases sl <;> rfl)
    exact ⟨k1, k2.aero, k2.ctrl, k2.files⟩

end

/-! ### An aircraft with one propeller -/

/-- the aircraft of the examples with another name of its propeller -/
noncomputable def rotorCalled (name : String) : Plane :=
  { built "rotor" none (rotorOps.map (PlaneOp.renameProps (Equiv.swap "prop" name))) with units := some none }

/-- the calls that build it -/
example : rotorOps.map (PlaneOp.renameProps (Equiv.swap "prop" "engine")) =
    [.addProp "engine" demoPropDims,
      .propAirfoil "engine" "sym" { al0 := some 0, cla := some 6, clMax := some 1.2, cml0 := some 0, cma := some 0, cd0 := some 0.01, cd1 := some 0, cd2 := some 0.01 }] := by
  simp [rotorOps, PlaneOp.renameProps]

theorem rotorCalled_eq (name : String) : rotorCalled name = rotor.renameProps (Equiv.swap "prop" name) := by
  unfold rotorCalled
  rw [built_renameProps (Equiv.injective _)]
  rfl

/-- the result of `solve` as an answer of a call -/
theorem run_solve {ι : Type} {B : Backend ι} {ps : Option B.π} {d : AeroDict ι} {c : Option CtrlDict} {cg : V3} {w : World B} (hd : d.truthy = true)
    (ha : w.aero = some d) (hc : w.ctrl = c) : (AnyCall.run cg w ⟨.solve none, some d, c, ps⟩).1 = (muSolve ps w).1.map Answer.loads := by
  obtain ⟨st, a, c', ob, f⟩ := w
  simp only at ha hc
  subst ha hc
  unfold AnyCall.run perform
  simp only
  rw [bind_def, muSolveFile_none (by exact hd)]
  rcases muSolve ps ⟨st, some d, c', ob, f⟩ with ⟨e | T, w'⟩ <;> rfl

/-- C148: the same propeller called "prop" and called "engine", with the states `{"J": 0.5}`.  The loads are not all 0. -/
example : ∃ (mem mem' : String → ℕ → ℕ → Option ℝ) (o o' : Analyser) (T : Loads), openMachUp (fun _ _ => 0) mem rotor = .ok o ∧
    openMachUp (fun _ _ => 0) mem' (rotorCalled "engine") = .ok o' ∧ T.MX ≠ 0 ∧
    (AnyCall.run 0 (o.fresh rotor (fun _ _ => 1) 1 (Act.raise .nonfinite) none none)
      ⟨.solve none, some { Vmag := some 10, rho := some 1 }, none, some [("J", .num 0.5)]⟩).1 = .ok (.loads T) ∧
    (AnyCall.run 0 (o'.fresh (rotorCalled "engine") (fun _ _ => 1) 1 (Act.raise .nonfinite) none none)
      ⟨.solve none, some { Vmag := some 10, rho := some 1 }, none, some [("J", .num 0.5)]⟩).1 = .ok (.loads T) := by
  obtain ⟨mem, o, ho, h⟩ := rotor_solve
  obtain ⟨T, w', h1, h2⟩ := h (Act.raise .nonfinite)
  have hr : (AnyCall.run 0 (o.fresh rotor (fun _ _ => 1) 1 (Act.raise .nonfinite) none none)
      ⟨.solve none, some { Vmag := some 10, rho := some 1 }, none, some [("J", .num 0.5)]⟩).1 = .ok (.loads T) := by
    have := run_solve (ps := some [("J", .num 0.5)]) (cg := 0) (d := { Vmag := some 10, rho := some 1 }) (c := none)
      (w := o.fresh rotor (fun _ _ => 1) 1 (Act.raise .nonfinite) (some { Vmag := some 10, rho := some 1 }) none) rfl rfl rfl
    rw [h1] at this
    exact this
  obtain ⟨s', h3, h4⟩ := (C148_renamed_partial (simps := fun _ _ => 1) (fuel := 1) (ρ := Equiv.swap "prop" "engine") (Equiv.injective _)
    (by intro w hw; simp only [List.mem_cons, List.not_mem_nil, or_false] at hw; rcases hw with rfl | rfl | rfl | rfl <;> decide)
    (mem' := fun n => mem (Equiv.swap "prop" "engine" n)) (by intro n; simp) "rotor" none rotorOps (some none)).2 o ho
  refine ⟨mem, _, o, _, T, ho, h3, h2, hr, ?_⟩
  have k := (h4 (Act.raise .nonfinite) (Act.raise .nonfinite) (fun _ => rfl) [] ⟨.solve none, some { Vmag := some 10, rho := some 1 }, none, some [("J", .num 0.5)]⟩
    none none none none).1
  refine Eq.trans ?_ (Eq.trans k hr)
  rfl

/-- a number other than 0 under the name of the first propeller -/
theorem solve_clash {o : Analyser} {p : Plane} (hp : p.props ≠ []) {sl : PropSlot (Fin (sectionsOf o.wing))} {rest : List (PropSlot (Fin (sectionsOf o.wing)))}
    (hs : o.slots = some (sl :: rest)) {x : ℝ} (hx : x ≠ 0) (simps : List ℝ → List ℝ → ℝ) (fuel : ℕ)
    (bad : Act (LLState (Fin (sectionsOf o.wing)) × List (PropSlot (Fin (sectionsOf o.wing)))) (Option Loads))
    {d : AeroDict (Fin (sectionsOf o.wing))} (hd : d.truthy = true) (c : Option CtrlDict) :
    (muSolve (some [(sl.name, .num x)]) (o.fresh p simps fuel bad (some d) c)).1 = .error .type := by
  have hl : localPS [(sl.name, .num x)] sl.name = .error .type := by
    unfold localPS
    rw [if_neg (by simp)]
    simp [dictGet, hx]
  have hP : (o.backend p simps fuel bad).hasProps = true := by
    show (!p.props.isEmpty) = true
    cases h : p.props with
    | nil => exact absurd h hp
    | cons => rfl
  have e := muSolve_props hP (some [(sl.name, .num x)]) (o.fresh p simps fuel bad (some d) c) (d := d) rfl hd
  have k := backend_propSolve_run (o := o) (p := p) (simps := simps) (fuel := fuel) (bad := bad) d (some [(sl.name, .num x)]) (LLState.init _, sl :: rest)
  have hst : (o.fresh p simps fuel bad (some d) c).st = (LLState.init _, sl :: rest) := by
    show (LLState.init _, o.slots.getD []) = _
    rw [hs]; rfl
  rw [if_pos (by rw [hs]; rfl)] at k
  have kk : ∀ pts, propsSolve simps fuel pts (some d) [(sl.name, .num x)] ((sl :: rest).map (·.withCg p.cg)) =
      (.error .type, (sl :: rest).map (·.withCg p.cg)) := by
    intro pts
    have h1 : propsForces simps fuel (some d) [(sl.name, .num x)] ((sl :: rest).map (·.withCg p.cg)) = (.error .type, (sl :: rest).map (·.withCg p.cg)) := by
      unfold propsForces
      rw [List.map_cons]
      unfold propsLoop
      rw [show (sl.withCg p.cg).name = sl.name from rfl, hl]
    unfold propsSolve
    rw [bind_of_error h1]
  simp only [Option.getD_some, kk] at k
  rw [e, hst]
  erw [k]

/-- **C148 is false in general:** with `prop_state={"J": 0.5}` the aircraft whose propeller is called "prop" can be analysed.
The same aircraft whose propeller is called "J" can be opened, but the analysis raises `TypeError`: the advance ratio is taken for
the state of that propeller. -/
theorem C148_refuted : ∃ (mem mem' : String → ℕ → ℕ → Option ℝ) (o o' : Analyser), openMachUp (fun _ _ => 0) mem rotor = .ok o ∧
    openMachUp (fun _ _ => 0) mem' (rotorCalled "J") = .ok o' ∧ ∀ bad bad',
    (∃ T w', muSolve (some [("J", .num 0.5)]) (o.fresh rotor (fun _ _ => 1) 1 bad (some { Vmag := some 10, rho := some 1 }) none) = (.ok T, w')) ∧
    (muSolve (some [("J", .num 0.5)]) (o'.fresh (rotorCalled "J") (fun _ _ => 1) 1 bad' (some { Vmag := some 10, rho := some 1 }) none)).1 =
      .error .type := by
  obtain ⟨mem, o, ho, h⟩ := rotor_solve
  have hr := open_renamed (fun _ _ => 0) (mem := mem) (mem' := fun n => mem (Equiv.swap "prop" "J" n)) (Equiv.injective (Equiv.swap "prop" "J"))
    (by intro n; simp) rotor
  rw [← rotorCalled_eq, ho] at hr
  obtain ⟨M, rfl, -⟩ := rotor_slots ho
  refine ⟨mem, _, _, _, ho, hr, fun bad bad' => ⟨?_, ?_⟩⟩
  · obtain ⟨T, w', h1, -⟩ := h bad
    exact ⟨T, w', h1⟩
  · have hp : (rotorCalled "J").props ≠ [] := by
      rw [rotorCalled_eq]
      have : rotor.props = _ := rotor_props
      simp [Plane.renameProps, this]
    have k := solve_clash (o := ⟨none, some [(⟨"prop", M, { mem := mem "prop" }, none⟩ : PropSlot (Fin (sectionsOf none))).renamed (Equiv.swap "prop" "J")]⟩)
      hp rfl (x := 0.5) (by norm_num) (fun _ _ => 1) 1 bad' (d := { Vmag := some 10, rho := some 1 }) rfl none
    have hn : ((⟨"prop", M, { mem := mem "prop" }, none⟩ : PropSlot (Fin (sectionsOf none))).renamed (Equiv.swap "prop" "J")).name = "J" :=
      Equiv.swap_apply_left _ _
    rw [hn] at k
    exact k

end Verif
