import Verif.Lemmas.Steps
import Verif.Lemmas.Memory
import Verif.Thm.Session
import Verif.Thm.Distrib
import Verif.Thm.MUFiles

/-!
# The analyses of an aircraft without propellers do not depend on what was analysed before (C112)
-/

namespace Verif
open V3 Act

section
variable {n : ℕ}

/-- the first pass of `_process_aero_state` leaves controls and results alone -/
theorem processAero_keeps (G : LLGeom (Fin n)) (st : LLState (Fin n)) (d : AeroDict (Fin n)) (ht : d.truthy = true) :
    (processAero G st (some d)).2.results = st.results := by
  have h := processAero_explicit G st d ht
  cases ha : arrOf G d with
  | error e => rw [ha] at h; simp only at h; rw [h]
  | ok a => rw [ha] at h; obtain ⟨rt, h⟩ := h; rw [h]

theorem processCtrl_given (G : LLGeom (Fin n)) (st st' : LLState (Fin n)) (c : Option CtrlDict) (hc : c.any CtrlDict.truthy = true) :
    (processCtrl G st' c).ctrl = (processCtrl G st c).ctrl := by
  rcases c with _ | c
  · cases hc
  · have hc : c.truthy = true := hc
    unfold processCtrl
    simp only [hc, if_true]

/-- a solve with flight condition and controls given: the outcome does not depend on the state of the solver -/
theorem llSolve_given (G : LLGeom (Fin n)) (st st' : LLState (Fin n)) (d : AeroDict (Fin n)) (c : Option CtrlDict)
    (ht : d.truthy = true) (hc : c.any CtrlDict.truthy = true) :
    (llSolve G st' "linear" (some d) c).1 = (llSolve G st "linear" (some d) c).1 := by
  rw [llSolve_aero _ _ _ _ ht, llSolve_aero _ _ _ _ ht, processCtrl_given G st st' c hc]

/-- the results a solve leaves -/
theorem llSolve_results (G : LLGeom (Fin n)) (st : LLState (Fin n)) (d : AeroDict (Fin n)) (c : Option CtrlDict)
    (ht : d.truthy = true) :
    (∀ R, (llSolve G st "linear" (some d) c).1 = .ok R → (llSolve G st "linear" (some d) c).2.results = some R) ∧
    ((llSolve G st "linear" (some d) c).1 = .error .nonfinite → (llSolve G st "linear" (some d) c).2.results = none) := by
  have h := processAero_explicit G st d ht
  unfold llSolve
  cases ha : arrOf G d with
  | error e =>
    rw [ha] at h
    simp only at h
    rw [h]
    have he : e = .runtime := by
      unfold arrOf at ha
      cases hl : d.localState <;> cases hV : d.Vmag <;> rw [hl] at ha <;> simp only [hV] at ha
      · cases ha; rfl
      · cases hr : d.rho <;> simp only [hr] at ha
        · cases ha; rfl
        · cases ha
      · cases ha
      · cases ha
    subst he
    exact ⟨fun R hR => (by cases hR), fun hR => (by cases hR)⟩
  | ok a =>
    rw [ha] at h
    obtain ⟨rt, h⟩ := h
    rw [h]
    simp only [if_true]
    rcases runLinear G (processCtrl G { st with v := a.v, u := a.u, rho := a.rho, rates := rt } c) with e | R
    · refine ⟨fun R hR => ?_, fun hR => ?_⟩
      · cases e <;> cases hR
      · cases e <;> first | rfl | cases hR
    · exact ⟨fun R' hR => (by cases hR; rfl), fun hR => (by cases hR)⟩

end

section
variable {o : Analyser} {p : Plane} {simps : List ℝ → List ℝ → ℝ} {fuel : ℕ}
  {bad : Act (LLState (Fin (sectionsOf o.wing)) × List (PropSlot (Fin (sectionsOf o.wing)))) (Option Loads)}

theorem backend_wingSolve (d : AeroDict (Fin (sectionsOf o.wing))) (c : Option CtrlDict)
    (s : LLState (Fin (sectionsOf o.wing)) × List (PropSlot (Fin (sectionsOf o.wing)))) :
    (o.backend p simps fuel bad).wingSolve d c s =
      if o.wing.isSome then
        ((llSolve (geomOf p.cg o.wing) s.1 "linear" (some d) c).1, ((llSolve (geomOf p.cg o.wing) s.1 "linear" (some d) c).2, s.2))
      else (.error .attribute, s) := rfl

theorem backend_forgets (hp : p.props = []) (hbad : ∀ s s', (bad s').1 = (bad s).1) :
    Forgets (o.backend p simps fuel bad) True (fun _ _ => True) where
  noProps := by show (!p.props.isEmpty) = false; rw [hp]; rfl
  wing d c ht hc := by
    intro s s' _
    refine ⟨Outcome.of_eq ?_, trivial⟩
    by_cases hw : o.wing.isSome = true
    · refine (congrArg Prod.fst ((backend_wingSolve d c s').trans (if_pos hw))).trans
        (Eq.trans ?_ (congrArg Prod.fst ((backend_wingSolve d c s).trans (if_pos hw))).symm)
      exact llSolve_given _ _ _ d c ht (hc trivial)
    · exact (congrArg Prod.fst ((backend_wingSolve d c s').trans (if_neg hw))).trans
        (congrArg Prod.fst ((backend_wingSolve d c s).trans (if_neg hw))).symm
  stall d c s s' ht hc _ he := by
    by_cases hw : o.wing.isSome = true
    · have e1 := (backend_wingSolve (o := o) (p := p) (simps := simps) (fuel := fuel) (bad := bad) d c s).trans (if_pos hw)
      have e2 := (backend_wingSolve (o := o) (p := p) (simps := simps) (fuel := fuel) (bad := bad) d c s').trans (if_pos hw)
      refine (congrArg (fun x => (o.backend p simps fuel bad).stallLoc x.2) e2).trans
        (Eq.trans ?_ (congrArg (fun x => (o.backend p simps fuel bad).stallLoc x.2) e1).symm)
      show (llSolve (geomOf p.cg o.wing) s'.1 "linear" (some d) c).2.results.bind _ =
        (llSolve (geomOf p.cg o.wing) s.1 "linear" (some d) c).2.results.bind _
      have h1 := llSolve_results (geomOf p.cg o.wing) s.1 d c ht
      have h2 := llSolve_results (geomOf p.cg o.wing) s'.1 d c ht
      rw [llSolve_given _ s.1 s'.1 d c ht (hc trivial)] at h2
      rcases hq : (llSolve (geomOf p.cg o.wing) s.1 "linear" (some d) c).1 with e | R
      · have := he e ((congrArg Prod.fst e1).trans hq)
        subst this
        rw [h1.2 hq, h2.2 hq]
      · rw [h1.1 R hq, h2.1 R hq]
    · have := he _ (congrArg Prod.fst ((backend_wingSolve d c s).trans (if_neg hw)))
      cases this
  bad := fun s s' _ => ⟨Outcome.of_eq (hbad s s'), trivial⟩

/-- **C112.** For an aircraft without propellers: whatever calls were made on the object before (`hist`, any methods, any
arguments, successful or not), a call whose `control_state` is given and not empty — or that is `control_derivatives` or
`pitch_trim`, which bring their own controls — has the outcome it has on a fresh object: the same return value or the same
exception, the same files, and the caller's two dictionaries are left the same. -/
theorem C112_history (hp : p.props = []) (hbad : ∀ s s', (bad s').1 = (bad s).1)
    (hist : List (AnyCall (o.backend p simps fuel bad))) (c : AnyCall (o.backend p simps fuel bad))
    (hc : (∃ x, c.ctrl = some x ∧ x.truthy = true) ∨ c.what = .control ∨ ∃ L M e f, c.what = .pitchTrim L M e f)
    (a0 : Option (AeroDict (Fin (sectionsOf o.wing)))) (c0 : Option CtrlDict) :
    let fresh := o.fresh p simps fuel bad a0 c0
    let used := afterCalls p.cg fresh hist
    (c.run p.cg used).1 = (c.run p.cg fresh).1 ∧
      (c.run p.cg used).2.aero = (c.run p.cg fresh).2.aero ∧ (c.run p.cg used).2.ctrl = (c.run p.cg fresh).2.ctrl ∧
      (c.run p.cg used).2.files = used.files ++ (c.run p.cg fresh).2.files := by
  intro fresh used
  have hF := backend_forgets (simps := simps) (fuel := fuel) (o := o) hp hbad
  have hf0 : fresh.files = [] := rfl
  have key : ∃ need : Prop, Lock (Alike need (fun _ _ => True) fresh.files used.files) Same
      (perform c.ps p.cg c.what) (perform c.ps p.cg c.what) ∧
      (need → ctrlGiven ({ fresh with aero := c.aero, ctrl := c.ctrl } : World (o.backend p simps fuel bad)) = true) := by
    rcases hc with ⟨x, hx, hxt⟩ | hc | ⟨L, M, e, f, hc⟩
    · exact ⟨True, Alikes.any hF _ _, fun _ => by unfold ctrlGiven; rw [hx]; exact hxt⟩
    · refine ⟨False, ?_, fun h => h.elim⟩
      rw [hc]
      exact Alikes.bind' (Alikes.control_any hF) fun _ => Alikes.pure' _
    · refine ⟨False, ?_, fun h => h.elim⟩
      rw [hc]
      exact Alikes.bind' (Alikes.trim hF _ _ _ _) fun _ => Alikes.pure' _
  obtain ⟨need, hlock, hneed⟩ := key
  obtain ⟨h1, h2⟩ := hlock { fresh with aero := c.aero, ctrl := c.ctrl } { used with aero := c.aero, ctrl := c.ctrl }
    ⟨rfl, rfl, ⟨[], by simp, by simp⟩, hneed, trivial⟩
  refine ⟨Outcome.to_eq h1, h2.aero, h2.ctrl, ?_⟩
  obtain ⟨l, h3, h4⟩ := h2.files
  rw [hf0, List.nil_append] at h3
  exact h4.trans (by rw [← h3]; rfl)

/-- **C112**, the solves inside the analyses. For an aircraft without propellers "the result of a solve" at given flight condition
and controls is one definite result: `r` is what some `solve` on some object in some state returned iff it is what `solve`
returns on a fresh object. -/
theorem C112_solved (hp : p.props = []) (hbad : ∀ s s', (bad s').1 = (bad s).1) (ps : Option PropDict)
    (d : AeroDict (Fin (sectionsOf o.wing))) (c : CtrlDict) (hc : c.truthy = true) (r : Loads) :
    SolvedAt (B := o.backend p simps fuel bad) ps d (some c) r ↔
      (muSolve ps (o.fresh p simps fuel bad (some d) (some c))).1 = .ok r := by
  have hF := backend_forgets (simps := simps) (fuel := fuel) (o := o) hp hbad
  have hsame : ∀ d', SameEntries (o.backend p simps fuel bad) d d' → d' = d := fun d' h =>
    h.2 (by show ((!p.props.isEmpty) && _) = false; rw [hp]; rfl)
  constructor
  · rintro ⟨w, w', d', hd, hs, hcw, hr⟩
    have hd' := hsame d' hs
    subst hd'
    have hA : Alike (B := o.backend p simps fuel bad) True (fun _ _ => True) (o.fresh p simps fuel bad (some d') (some c)).files w.files
        (o.fresh p simps fuel bad (some d') (some c)) w :=
      ⟨hd, hcw, ⟨[], by simp, by simp⟩, fun _ => hc, trivial⟩
    have := (alike_muSolve (ps := ps) hF hA).1
    rw [hr] at this
    exact this.symm
  · intro h
    rcases hq : muSolve ps (o.fresh p simps fuel bad (some d) (some c)) with ⟨e | r', w'⟩
    · rw [hq] at h; cases h
    · rw [hq] at h
      cases h
      exact ⟨_, w', d, rfl, ⟨rfl, fun _ => rfl⟩, rfl, hq⟩

end

/-! ### `distributions` -/

section
variable {n : ℕ} {G : LLGeom (Fin n)} {wings : Bool} {simps : List ℝ → List ℝ → ℝ} {fuel : ℕ} {Sw lat long : ℝ}
  {bad : Act (LLState (Fin n) × List (PropSlot (Fin n))) (Option Loads)}

/-- **C112**, the distribution tables: of an aircraft without propellers, with `aero_state` and `control_state` given. -/
theorem C112_distributions (ps : Option PropDict) (w w' : World (fullBackend G wings false simps fuel Sw lat long bad))
    (d : AeroDict (Fin n)) (c : CtrlDict) (hd : d.truthy = true) (hc : c.truthy = true) (h : w.aero = some d) (h' : w'.aero = some d)
    (k : w.ctrl = some c) (k' : w'.ctrl = some c) :
    (distributions G wings false simps fuel Sw lat long bad ps w').1 = (distributions G wings false simps fuel Sw lat long bad ps w).1 := by
  have key : ∀ w : World (fullBackend G wings false simps fuel Sw lat long bad), w.aero = some d → w.ctrl = some c →
      (distributions G wings false simps fuel Sw lat long bad ps w).1 =
        if wings then
          match (llSolve G (LLState.init _) "linear" (some d) (some c)).1 with
          | .ok R => (if long = 0 then .error .nonfinite else .ok (some (List.ofFn fun i => wingRow G long R i), none))
          | .error e => .error e
        else .ok (none, none) := by
    intro w h k
    have hm := muSolve_noProps (B := fullBackend G wings false simps fuel Sw lat long bad) (ps := ps) rfl w h hd
    unfold distributions
    cases wings
    · rw [bind_of_ok hm]
      rfl
    · have e : (fullBackend G true false simps fuel Sw lat long bad).wingSolve d w.ctrl w.st =
          ((llSolve G (Prod.fst w.st) "linear" (some d) (some c)).1,
            ((llSolve G (Prod.fst w.st) "linear" (some d) (some c)).2, Prod.snd w.st)) := by rw [k]; rfl
      have e1 := llSolve_given G (LLState.init _) (Prod.fst w.st) d (some c) hd hc
      have e2 := llSolve_results G (Prod.fst w.st) d (some c) hd
      rw [if_pos (show (fullBackend G true false simps fuel Sw lat long bad).hasWings = true from rfl), e] at hm
      rw [← e1]
      rcases hq : (llSolve G (Prod.fst w.st) "linear" (some d) (some c)).1 with er | R
      · rw [hq] at hm
        rw [bind_of_error hm]
        rfl
      · rw [hq] at hm
        have e3 := e2.1 R hq
        rw [bind_of_ok hm, get_bind]
        have e4 : wingTable (n := n) ((llSolve G (Prod.fst w.st) "linear" (some d) (some c)).2, Prod.snd w.st) G true long =
            if long = 0 then .error .nonfinite else .ok (some (List.ofFn fun i => wingRow G long R i)) := by
          unfold wingTable
          rw [if_pos rfl]
          show (match (llSolve G (Prod.fst w.st) "linear" (some d) (some c)).2.results with
          | none => _
          | some R => _) = _
          rw [e3]
        by_cases hl : long = 0
        · rw [if_pos hl] at e4
          simp only [if_true, if_pos hl]
          exact (congrArg Prod.fst (bind_of_error (show Act.lift (wingTable _ G true long) _ = (.error .nonfinite, _) from
            congrArg (fun x => (x, _)) e4) _)).trans rfl
        · rw [if_neg hl] at e4
          simp only [if_true, if_neg hl]
          exact (congrArg Prod.fst (bind_of_ok (show Act.lift (wingTable _ G true long) _ = (.ok _, _) from
            congrArg (fun x => (x, _)) e4) _)).trans rfl
  rw [key w h k, key w' h' k']

end

/-! ### The default flight condition of `MachUp` (C19) -/

section
variable {ι : Type} {B : Backend ι} {ps : Option B.π}

theorem withAero_fst {α : Type} (d : AeroDict ι) (m : Act (World B) α) (w : World B) :
    ((withAero d m >>= fun r => pure r.1 : Act (World B) α) w).1 = (m { w with aero := some d }).1 := by
  rw [bind_def]
  unfold withAero
  rcases m { w with aero := some d } with ⟨e | a, w'⟩ <;> rfl

/-- **C19, the part that holds for `MachUp`.** Whatever was analysed before, `solve`, `stability_derivatives`, `stall_onset`,
`find_aero_center` and `damping_derivatives` without `aero_state` (or with an empty one) have the outcome they have with the
documented default given explicitly: airspeed 10, density 0.0023769, angle of attack 0, no sideslip and no rotation.
Missing: `LLModel.solve`, for which it is false (`C19_refuted`). -/
theorem C19_machup_partial (w : World B) (h : ∀ d, w.aero = some d → d.truthy = false) (cg : V3) (n : ℕ) :
    let w1 : World B := { w with aero := some { Vmag := some 10, rho := some 0.0023769, alpha := some 0 } }
    let w2 : World B := { w with aero := some { Vmag := some 10, rho := some 0.0023769 } }
    (muSolve ps w).1 = (muSolve ps w1).1 ∧
    (stabilityDerivatives ps w).1 = (stabilityDerivatives ps w1).1 ∧
    (stallOnset ps n w).1 = (stallOnset ps n w1).1 ∧
    (findAeroCenter ps cg none w).1 = (findAeroCenter ps cg none w1).1 ∧
    (dampingDerivatives ps w).1 = (dampingDerivatives ps w2).1 := by
  intro w1 w2
  have hg : ¬ aeroGiven w = true := by
    unfold aeroGiven
    rcases hd : w.aero with _ | d
    · simp
    · simp [h d hd]
  have h1 : aeroGiven w1 = true := rfl
  have h2 : aeroGiven w2 = true := rfl
  refine ⟨?_, ?_, ?_, ?_, ?_⟩
  · unfold muSolve
    rw [get_bind, get_bind, if_neg hg, if_pos h1, bind_def, bind_def]
    unfold withAero
    rw [show w1 = { w with aero := some defaultAeroDict } from rfl]
    rcases solveParts ps { w with aero := some defaultAeroDict } with ⟨e | a, w'⟩ <;> rfl
  · unfold stabilityDerivatives
    rw [get_bind, get_bind, if_neg hg, if_pos h1]
    exact withAero_fst _ _ _
  · unfold stallOnset
    rw [get_bind, get_bind, if_neg hg, if_pos h1]
    exact withAero_fst _ _ _
  · unfold findAeroCenter
    rw [get_bind, get_bind, if_neg hg, if_pos h1, bind_def, bind_def]
    unfold withAero
    rw [show w1 = { w with aero := some defaultAeroDict } from rfl]
    rcases acBody ps cg { w with aero := some defaultAeroDict } with ⟨e | a, w'⟩ <;> rfl
  · unfold dampingDerivatives
    rw [get_bind, get_bind, if_neg hg, if_pos h2]
    exact withAero_fst _ _ _

example : (muSolve (B := flatB) none { flatWorld with aero := none }).1 =
    (muSolve (B := flatB) none { flatWorld with aero := some { Vmag := some 10, rho := some 0.0023769, alpha := some 0 } }).1 :=
  (C19_machup_partial (B := flatB) { flatWorld with aero := none } (by rintro d ⟨⟩) 0 0).1

/-- **C19 for `target_lift` and `pitch_trim`, the part that holds.** Without `aero_state` they have the outcome they have with the
default given explicitly and with the default tolerance 1e-9 and no file.  (Their own tolerance and file are dropped, see C51.) -/
theorem C19_trim_partial (w : World B) (h : ∀ d, w.aero = some d → d.truthy = false) (L M error : ℝ) :
    let w1 : World B := { w with aero := some { Vmag := some 10, rho := some 0.0023769, alpha := some 0 } }
    let w2 : World B := { w with aero := some { Vmag := some 10, rho := some 0.0023769 } }
    (targetLift ps L error none w).1 = (targetLift ps L 1e-9 none w1).1 ∧
    ∀ f, (pitchTrim ps L M error f w).1 = (pitchTrim ps L M 1e-9 none w2).1 := by
  intro w1 w2
  have hg : ¬ aeroGiven w = true := by
    unfold aeroGiven
    rcases hd : w.aero with _ | d
    · simp
    · simp [h d hd]
  have h1 : aeroGiven w1 = true := rfl
  have h2 : aeroGiven w2 = true := rfl
  have he : (1e-9 : ℝ) = 10 * 10 ^ (-10 : ℤ) := by norm_num
  constructor
  · unfold targetLift
    rw [get_bind, get_bind, if_neg hg, if_pos h1, he, bind_def, bind_def]
    unfold withAero
    rw [show w1 = { w with aero := some defaultAeroDict } from rfl]
    rcases targetBody ps L (10 * 10 ^ (-10 : ℤ)) { w with aero := some defaultAeroDict } with ⟨e | _ | a, w'⟩ <;> rfl
  · intro f
    have he : (1e-9 : ℝ) = defaultError := he
    have hc : ctrlGiven w2 = ctrlGiven w := rfl
    unfold pitchTrim
    rw [get_bind, get_bind, if_neg hg, if_pos h2, hc, he]
    split_ifs
    · exact withAero_fst _ _ _
    · exact withAero_fst _ _ _

/-- **C20 for `MachUp`, the part that holds.** Whatever was analysed before, `control_derivatives` without `control_state` (or with an
empty one) has the outcome it has with all four deflections given as zero, and so has `pitch_trim` with the default
tolerance and no file (see C51); the argument of the caller is not touched.  Missing: the other analyses, for which it is
false (`C20_refuted`). -/
theorem C20_machup_partial (w : World B) (h : ∀ c, w.ctrl = some c → c.truthy = false) (L M error : ℝ) (f : Option String) :
    let w1 : World B := { w with ctrl := some { aileron := some 0, elevator := some 0, rudder := some 0, flap := some 0 } }
    (controlDerivatives ps w).1 = (controlDerivatives ps w1).1 ∧ (controlDerivatives ps w).2.ctrl = w.ctrl ∧
    (pitchTrim ps L M error f w).1 = (pitchTrim ps L M 1e-9 none w1).1 ∧ (pitchTrim ps L M error f w).2.ctrl = w.ctrl := by
  intro w1
  have hg : ¬ ctrlGiven w = true := by
    unfold ctrlGiven
    rcases hd : w.ctrl with _ | d
    · simp
    · simp [h d hd]
  have h1 : ctrlGiven w1 = true := rfl
  have he : (1e-9 : ℝ) = defaultError := by unfold defaultError; norm_num
  have ha : aeroGiven w1 = aeroGiven w := rfl
  refine ⟨?_, ?_, ?_, ?_⟩
  · unfold controlDerivatives
    rw [get_bind, get_bind, if_neg hg, if_pos h1]
    rfl
  · unfold controlDerivatives
    rw [get_bind, if_neg hg]
    rfl
  · unfold pitchTrim
    rw [get_bind, get_bind, if_neg hg, if_pos h1, ha, if_neg hg, if_pos h1, he]
    split_ifs
    · rfl
    · refine (withAero_fst _ _ _).trans (Eq.trans ?_ (withAero_fst _ _ _).symm)
      rfl
  · unfold pitchTrim
    rw [get_bind, if_neg hg, if_neg hg]
    split_ifs
    · rfl
    · rw [bind_def]
      unfold withAero withCtrl
      dsimp only
      generalize trimLoop ps L M defaultError none 101 0 0 _ = x
      rcases x with ⟨e | a, w'⟩ <;> rfl

example : (controlDerivatives (B := flatB) none { flatWorld with ctrl := none }).1 =
    (controlDerivatives (B := flatB) none { flatWorld with ctrl := some { aileron := some 0, elevator := some 0, rudder := some 0, flap := some 0 } }).1 :=
  (C20_machup_partial (B := flatB) { flatWorld with ctrl := none } (by rintro d ⟨⟩) 0 0 0 none).1

end

/-! ### Results keep their values (C21) -/

section
variable {ι : Type} {B : Backend ι}

/-- **C21 for all analyses.** The result of a successful `MachUp.solve` is a new object; after every sequence of later calls of any
of the analysis methods, with any arguments and successful or not, it and all results returned before read as they did.
Missing: `LLModel.solve`, for which it is false (`C21_llmodel_refuted`). -/
theorem C21_analyses_partial {ps : Option B.π} {w w' : World B} {T : Loads} (h : muSolve ps w = (.ok T, w')) (cg : V3)
    (later : List (AnyCall B)) :
    w'.objs[w.objs.length]? = some T ∧ w'.objs.length = w.objs.length + 1 ∧
      ∀ i < w'.objs.length, (afterCalls cg w' later).objs[i]? = w'.objs[i]? := by
  obtain ⟨h1, h2, -⟩ := C21_machup_partial h []
  refine ⟨h1, h2, fun i hi => ?_⟩
  have hP : Respected (B := B) (fun (w w' : World B) => ∃ l : List Loads, w'.objs = w.objs ++ l) :=
    { refl := fun w => ⟨[], by simp⟩
      trans := fun w w' w'' h h' => by
        obtain ⟨l, h⟩ := h
        obtain ⟨l', h'⟩ := h'
        exact ⟨l ++ l', by rw [h', h, List.append_assoc]⟩
      aero := fun w a => ⟨[], by simp⟩
      ctrl := fun w c => ⟨[], by simp⟩
      objs := fun w l => ⟨l, rfl⟩
      files := fun w l => ⟨[], by simp⟩
      prop := fun w d ps => ⟨[], by simp⟩
      wing := fun w d c => ⟨[], by simp⟩
      bad := fun w => ⟨[], by simp⟩ }
  obtain ⟨l, hl⟩ : ∃ l, (afterCalls cg w' later).objs = w'.objs ++ l := Goes.history hP cg later w'
  rw [hl, List.getElem?_append_left hi]

end

/-! ### The demonstration wing -/

/-- The demonstration wing: a `solve` that succeeds with a drag force, after the derivatives were computed with other controls and
a stall sweep was made. -/
example (table : String → ℝ → ℝ) (mem : String → ℕ → ℕ → Option ℝ) (simps : List ℝ → List ℝ → ℝ) (fuel : ℕ) :
    ∃ (o : Analyser) (T : Loads), openMachUp table mem unitPlane = .ok o ∧ unitPlane.props = [] ∧ T.FX < 0 ∧
      ∀ (f : Option String) (W : ℝ),
        let fresh := o.fresh unitPlane simps fuel (fun s => (.ok none, s)) none none
        let used := afterCalls unitPlane.cg fresh
          [⟨.derivatives f, none, some { elevator := some 3 }, none⟩, ⟨.stallAirspeed W 1 none 5 5, none, none, none⟩,
           ⟨.stallOnset f 7, some { Vmag := some 1 }, none, none⟩]
        (AnyCall.run unitPlane.cg used ⟨.solve none, some (unitAero _), some exCtrl, none⟩).1 = .ok (.loads T) := by
  obtain ⟨g, hg, hsol⟩ := unit_forces true
  obtain ⟨R, hR, -, hF⟩ := hsol (LLState.init _)
  have hw : unitPlane.wings ≠ [] := by rw [unit_wings]; simp
  have e1 := unit_session simps fuel g unitPlane hw rfl (fun s => (.ok none, s))
  refine ⟨_, totalOf none (some R), unit_open table mem hg, rfl, ?_, fun f W => ?_⟩
  · simpa [totalOf, Loads.add, Loads.zero] using hF
  · intro fresh used
    refine (C112_history (o := ⟨some ⟨g, 2, g.refArea / 2⟩, none⟩) (p := unitPlane) (simps := simps) (fuel := fuel)
      (bad := fun s => (.ok none, s)) rfl (fun _ _ => rfl) _ ⟨.solve none, some (unitAero _), some exCtrl, none⟩
      (.inl ⟨exCtrl, rfl, rfl⟩) none none).1.trans ?_
    rw [hR] at e1
    rcases hq : muSolve none (Analyser.fresh ⟨some ⟨g, 2, g.refArea / 2⟩, none⟩ unitPlane simps fuel (fun s => (.ok none, s))
      (some (unitAero _)) (some exCtrl)) with ⟨e | T, w'⟩
    · rw [hq] at e1; cases e1
    · rw [hq] at e1
      cases e1
      exact congrArg Prod.fst (bind_of_ok ((muSolveFile_none rfl).trans hq) _)

end Verif
