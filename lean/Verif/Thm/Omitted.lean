import Verif.Lemmas.Omitted
import Verif.Thm.MUHistory
import Verif.Thm.StraightWing

/-!
# Entries that are left out of a state dictionary count as 0 (C133)
-/

namespace Verif
open V3 Act

section
variable {n : ℕ}

theorem rotArr_omitted (G : LLGeom (Fin n)) {d d' : AeroDict (Fin n)} (h : d.SameCondition d') (v : Option (Fin n → V3)) :
    rotArr G d' v = rotArr G d v := by
  have hz : ∀ e : AeroDict (Fin n), e.hasRates = false → e.roll.getD 0 = 0 ∧ e.pitch.getD 0 = 0 ∧ e.yaw.getD 0 = 0 := by
    intro e he
    unfold AeroDict.hasRates at he
    simp only [Bool.or_eq_false_iff, Option.isSome_eq_false_iff, Option.isNone_iff_eq_none] at he
    obtain ⟨⟨h1, h2⟩, h3⟩ := he
    rw [h1, h2, h3]
    exact ⟨rfl, rfl, rfl⟩
  have key : ∀ e : AeroDict (Fin n), rotArr G e v =
      v.map fun v i => v i - cross ⟨e.roll.getD 0, e.pitch.getD 0, e.yaw.getD 0⟩ ((G.S i).rcp - G.cg) := by
    intro e
    unfold rotArr
    cases he : e.hasRates
    · obtain ⟨h1, h2, h3⟩ := hz e he
      simp only [Bool.false_eq_true, if_false, h1, h2, h3]
      cases v with
      | none => rfl
      | some v =>
        rw [Option.map_some]
        congr 1
        funext i
        ext <;> simp [cross]
    · rfl
  rw [key, key, h.roll.value, h.pitch.value, h.yaw.value]

theorem arrOf_omitted (G : LLGeom (Fin n)) {d d' : AeroDict (Fin n)} (h : d.SameCondition d') : arrOf G d' = arrOf G d := by
  unfold arrOf
  simp only [h.localState, h.Vmag, h.rho, h.alpha.value, h.beta.value, rotArr_omitted G h]

/-- two wing models that agree except in the stored rotation rates, which are never read -/
def ButRates (s s' : LLState (Fin n)) : Prop := ∃ r, s' = { s with rates := r }

theorem processAero_omitted (G : LLGeom (Fin n)) {s s' : LLState (Fin n)} (hs : ButRates s s') {d d' : AeroDict (Fin n)}
    (h : SameDict d d') :
    (processAero G s' (some d')).1 = (processAero G s (some d)).1 ∧
      ButRates (processAero G s (some d)).2 (processAero G s' (some d')).2 := by
  obtain ⟨r, rfl⟩ := hs
  have main : ∀ d d' : AeroDict (Fin n), d.truthy = true → d'.truthy = true → arrOf G d' = arrOf G d →
      (processAero G { s with rates := r } (some d')).1 = (processAero G s (some d)).1 ∧
      ButRates (processAero G s (some d)).2 (processAero G { s with rates := r } (some d')).2 := by
    intro d d' hd hd' ha
    have h1 := processAero_explicit G s d hd
    have h2 := processAero_explicit G { s with rates := r } d' hd'
    rw [ha] at h2
    cases hq : arrOf G d with
    | error e =>
      rw [hq] at h1 h2
      simp only at h1 h2
      rw [h1, h2]
      exact ⟨rfl, r, rfl⟩
    | ok a =>
      rw [hq] at h1 h2
      obtain ⟨r1, h1⟩ := h1
      obtain ⟨r2, h2⟩ := h2
      rw [h1, h2]
      exact ⟨rfl, r2, rfl⟩
  rcases h.cases with rfl | h
  · cases ht : d'.truthy
    · unfold processAero
      simp only [ht, Bool.false_eq_true, if_false]
      exact ⟨rfl, r, rfl⟩
    · exact main _ _ ht ht rfl
  · exact main _ _ h.given h.given' (arrOf_omitted G h)

theorem processCtrl_omitted (G : LLGeom (Fin n)) {s s' : LLState (Fin n)} (hs : ButRates s s') {c c' : Option CtrlDict}
    (h : SameCtrl c c') : ButRates (processCtrl G s c) (processCtrl G s' c') := by
  obtain ⟨r, rfl⟩ := hs
  cases h with
  | same =>
    cases c with
    | none => exact ⟨r, rfl⟩
    | some c =>
      unfold processCtrl
      cases ht : c.truthy <;> simp only [ht, Bool.false_eq_true, if_false, if_true] <;> exact ⟨r, rfl⟩
  | entries c c' h =>
    unfold processCtrl
    simp only [h.given, h.given', if_true, h.aileron.value, h.elevator.value, h.rudder.value, h.flap.value]
    exact ⟨r, rfl⟩

theorem llSolve_omitted (G : LLGeom (Fin n)) {s s' : LLState (Fin n)} (hs : ButRates s s') {d d' : AeroDict (Fin n)}
    (h : SameDict d d') {c c' : Option CtrlDict} (hc : SameCtrl c c') :
    (llSolve G s' "linear" (some d') c').1 = (llSolve G s "linear" (some d) c).1 ∧
      ButRates (llSolve G s "linear" (some d) c).2 (llSolve G s' "linear" (some d') c').2 := by
  obtain ⟨h1, h2⟩ := processAero_omitted G hs h
  unfold llSolve
  rcases hq : processAero G s (some d) with ⟨e | ⟨⟩, t⟩ <;> rcases hq' : processAero G s' (some d') with ⟨e' | ⟨⟩, t'⟩ <;>
    rw [hq, hq'] at h1 h2
  · cases h1
    exact ⟨rfl, h2⟩
  · cases h1
  · cases h1
  · simp only [if_true]
    obtain ⟨r, hr⟩ := processCtrl_omitted G h2 hc
    have hrun : runLinear G (processCtrl G t' c') = runLinear G (processCtrl G t c) := by
      rw [hr]; rfl
    rw [hrun, hr]
    rcases runLinear G (processCtrl G t c) with e | R
    · cases e <;> exact ⟨rfl, r, rfl⟩
    · exact ⟨rfl, r, rfl⟩

theorem propFlow_omitted {d d' : AeroDict (Fin n)} (h : SameDict d d') : propFlow (some d') = propFlow (some d) := by
  rcases h.cases with rfl | h
  · rfl
  · unfold propFlow
    simp only [h.given, h.given', h.alpha.value, h.beta.value, h.Vmag, h.rho]

theorem propsLoop_omitted (simps : List ℝ → List ℝ → ℝ) (fuel : ℕ) {d d' : AeroDict (Fin n)} (h : SameDict d d') (ps : PropDict)
    (sls : List (PropSlot (Fin n))) : ∀ acc, propsLoop simps fuel (some d') ps sls acc = propsLoop simps fuel (some d) ps sls acc := by
  induction sls with
  | nil => intro acc; rfl
  | cons sl rest ih =>
    intro acc
    unfold propsLoop
    have hr : ∀ s, runProp simps fuel sl.model (some d') s = runProp simps fuel sl.model (some d) s := by
      intro s
      unfold runProp
      rw [propFlow_omitted h]
    simp only [hr, ih]

theorem propsSolve_omitted (simps : List ℝ → List ℝ → ℝ) (fuel : ℕ) (pts : Option (Fin n → V3)) {d d' : AeroDict (Fin n)}
    (h : SameDict d d') (ps : PropDict) : propsSolve simps fuel pts (some d') ps = propsSolve simps fuel pts (some d) ps := by
  have hf : propsForces simps fuel (some d') ps = propsForces simps fuel (some d) ps := by
    funext sls
    unfold propsForces
    have h1 : d'.alpha.getD 0 = d.alpha.getD 0 := h.read (f := fun d => d.alpha.getD 0) fun d d' h => h.alpha.value
    have h2 : d'.beta.getD 0 = d.beta.getD 0 := h.read (f := fun d => d.beta.getD 0) fun d d' h => h.beta.value
    simp only [propsLoop_omitted simps fuel h, h1, h2]
  unfold propsSolve
  rw [hf, propFlow_omitted h]

end

section
variable {o : Analyser} {p : Plane} {simps : List ℝ → List ℝ → ℝ} {fuel : ℕ}
  {bad : Act (LLState (Fin (sectionsOf o.wing)) × List (PropSlot (Fin (sectionsOf o.wing)))) (Option Loads)}

/-- two states of the solvers that agree except in the rotation rates stored in the wing model -/
def StateButRates (s s' : LLState (Fin n) × List (PropSlot (Fin n))) : Prop := ButRates s.1 s'.1 ∧ s'.2 = s.2

/-- a solve with an angle of attack that is `nan`/`inf` (what it does is a parameter of the model) does not look at the stored
rotation rates either -/
def BadIgnoresRates (bad : Act (LLState (Fin n) × List (PropSlot (Fin n))) (Option Loads)) : Prop :=
  ∀ s s', StateButRates s s' → (bad s').1 = (bad s).1 ∧ StateButRates (bad s).2 (bad s').2

theorem backend_propSolve_run (d : AeroDict (Fin (sectionsOf o.wing))) (ps : Option PropDict)
    (s : LLState (Fin (sectionsOf o.wing)) × List (PropSlot (Fin (sectionsOf o.wing)))) :
    (o.backend p simps fuel bad).propSolve d ps s =
      if o.slots.isSome then
        ((propsSolve simps fuel (if (!p.wings.isEmpty) then pointsOf o.wing else none) (some d) (ps.getD []) (s.2.map (·.withCg p.cg))).1,
          (s.1, (propsSolve simps fuel (if (!p.wings.isEmpty) then pointsOf o.wing else none) (some d) (ps.getD []) (s.2.map (·.withCg p.cg))).2))
      else (.error .attribute, s) := rfl

theorem backend_fills : Fills (o.backend p simps fuel bad) StateButRates where
  prop d d' ps h := by
    intro s s' hss
    obtain ⟨h1, h2⟩ := hss
    have k := backend_propSolve_run (o := o) (p := p) (simps := simps) (fuel := fuel) (bad := bad) d ps s
    have k' := backend_propSolve_run (o := o) (p := p) (simps := simps) (fuel := fuel) (bad := bad) d' ps s'
    rw [propsSolve_omitted simps fuel _ h, h2] at k'
    refine ⟨Outcome.of_eq ((congrArg Prod.fst k').trans (Eq.trans ?_ (congrArg Prod.fst k).symm)),
      Eq.mpr (congrArg₂ (fun a b => StateButRates a.2 b.2) k k') ?_⟩
    · split_ifs <;> rfl
    · split_ifs <;> first | exact ⟨h1, rfl⟩ | exact ⟨h1, h2⟩
  wing d d' c c' h hc := by
    rintro ⟨s1, s2⟩ ⟨t1, t2⟩ ⟨h1, h2⟩
    have h2 : t2 = s2 := h2
    subst h2
    obtain ⟨k1, k2⟩ := llSolve_omitted (geomOf p.cg o.wing) h1 h hc
    rw [backend_wingSolve, backend_wingSolve]
    split_ifs
    · exact ⟨Outcome.of_eq k1, k2, rfl⟩
    · exact ⟨rfl, h1, rfl⟩
  stall s s' h := by
    obtain ⟨⟨r, hr⟩, -⟩ := h
    show s'.1.results.bind _ = s.1.results.bind _
    rw [hr]

/-- one call on two objects in related states -/
theorem call_omitted {w w' : World (o.backend p simps fuel bad)} (hf : w'.files = w.files) (hs : StateButRates w.st w'.st)
    {c c' : AnyCall (o.backend p simps fuel bad)} (h : c.SameBut c')
    (hT : ∀ L e f, c.what = .targetLift L e f → BadIgnoresRates bad ∧ (alphaEntry c'.aero).isSome = (alphaEntry c.aero).isSome) :
    (c'.run p.cg w').1 = (c.run p.cg w).1 ∧ Reads StateButRates (c.run p.cg w).2 (c'.run p.cg w').2 := by
  have hr : Reads (B := o.backend p simps fuel bad) StateButRates { w with aero := c.aero, ctrl := c.ctrl } { w' with aero := c'.aero, ctrl := c'.ctrl } :=
    ⟨h.aero, h.ctrl, hf, hs⟩
  unfold AnyCall.run
  rw [h.what, h.ps]
  by_cases ht : ∃ L e f, c.what = .targetLift L e f
  · obtain ⟨L, e, f, ht⟩ := ht
    obtain ⟨hb, ha⟩ := hT L e f ht
    have hlock : Lock StateButRates Same (o.backend p simps fuel bad).solveBad (o.backend p simps fuel bad).solveBad :=
      fun s s' hss => ⟨Outcome.of_eq (hb s s' hss).1, (hb s s' hss).2⟩
    obtain ⟨h1, h2⟩ := Read.target (ps := c.ps) (backend_fills) hlock L e f hr ha
    have hp : perform c.ps p.cg (.targetLift L e f) =
        (targetLift (B := o.backend p simps fuel bad) c.ps L e f >>= fun r => pure (Answer.trim r)) := rfl
    rw [ht, hp, bind_def, bind_def]
    rcases hq : targetLift c.ps L e f { w with aero := c.aero, ctrl := c.ctrl } with ⟨er | a, w1⟩ <;>
      rcases hq' : targetLift c.ps L e f { w' with aero := c'.aero, ctrl := c'.ctrl } with ⟨er' | a', w1'⟩ <;> rw [hq, hq'] at h1 h2
    · have h1 : er = er' := h1
      subst h1
      exact ⟨rfl, h2⟩
    · exact h1.elim
    · exact h1.elim
    · have h1 : a' = a := h1
      subst h1
      exact ⟨rfl, h2⟩
  · obtain ⟨h1, h2⟩ := Read.any (ps := c.ps) backend_fills p.cg c.what (fun L e f hx => ht ⟨L, e, f, hx⟩) _ _ hr
    exact ⟨Outcome.to_eq h1, h2⟩

/-- **C133, what holds.** For any aircraft with any wings and propellers: in two sessions with the same calls, except that one
leaves out entries (`alpha`, `beta`, rotation rates, control deflections) the other sets to 0, every call has the same outcome,
writes the same files, and leaves the caller's two dictionaries the same except for such entries.
Missing: in calls of `target_lift` the entry `alpha` has to be given in both or in none, see `C133_target_key`. -/
theorem C133_sessions_partial (a0 : Option (AeroDict (Fin (sectionsOf o.wing)))) (c0 : Option CtrlDict)
    (hist hist' : List (AnyCall (o.backend p simps fuel bad))) (c c' : AnyCall (o.backend p simps fuel bad))
    (hh : List.Forall₂ AnyCall.SameBut (hist ++ [c]) (hist' ++ [c']))
    (hT : List.Forall₂ (fun x x' => ∀ L e f, x.what = Analysis.targetLift L e f →
      BadIgnoresRates bad ∧ (alphaEntry x'.aero).isSome = (alphaEntry x.aero).isSome) (hist ++ [c]) (hist' ++ [c'])) :
    let fresh := o.fresh p simps fuel bad a0 c0
    let r := c.run p.cg (afterCalls p.cg fresh hist)
    let r' := c'.run p.cg (afterCalls p.cg fresh hist')
    r'.1 = r.1 ∧ SameAero r.2.aero r'.2.aero ∧ SameCtrl r.2.ctrl r'.2.ctrl ∧ r'.2.files = r.2.files := by
  intro fresh r r'
  have key : ∀ (l l' : List (AnyCall (o.backend p simps fuel bad))) (w w' : World (o.backend p simps fuel bad)),
      w'.files = w.files → StateButRates w.st w'.st →
      List.Forall₂ AnyCall.SameBut (l ++ [c]) (l' ++ [c']) →
      List.Forall₂ (fun x x' => ∀ L e f, x.what = Analysis.targetLift L e f →
        BadIgnoresRates bad ∧ (alphaEntry x'.aero).isSome = (alphaEntry x.aero).isSome) (l ++ [c]) (l' ++ [c']) →
      (c'.run p.cg (afterCalls p.cg w' l')).1 = (c.run p.cg (afterCalls p.cg w l)).1 ∧
        Reads StateButRates (c.run p.cg (afterCalls p.cg w l)).2 (c'.run p.cg (afterCalls p.cg w' l')).2 := by
    intro l
    induction l with
    | nil =>
      intro l' w w' hf hs h1 h2
      have hl : l' = [] := by
        have := h1.length_eq
        simp only [List.nil_append, List.length_append, List.length_cons, List.length_nil] at this
        exact List.length_eq_zero_iff.1 (by omega)
      subst hl
      simp only [List.nil_append, List.forall₂_cons] at h1 h2
      exact call_omitted hf hs h1.1 h2.1
    | cons x l ih =>
      intro l' w w' hf hs h1 h2
      cases l' with
      | nil =>
        have := h1.length_eq
        simp at this
      | cons x' l' =>
        simp only [List.cons_append, List.forall₂_cons] at h1 h2
        obtain ⟨k1, k2⟩ := call_omitted hf hs h1.1 h2.1
        exact ih l' _ _ k2.files k2.st h1.2 h2.2
  obtain ⟨k1, k2⟩ := key hist hist' fresh fresh rfl ⟨⟨_, rfl⟩, rfl⟩ hh hT
  exact ⟨k1, k2.aero, k2.ctrl, k2.files⟩

end

/-! ### Entries that must be given -/

section
variable {ι : Type} {B : Backend ι} {ps : Option B.π}

/-- **C133, `target_lift`.** With an `aero_state` that leaves out `alpha`, `target_lift` raises `KeyError`, whatever the aircraft;
nothing is changed. -/
theorem C133_target_key (L error : ℝ) (filename : Option String) {w : World B} {d : AeroDict ι} (hd : w.aero = some d)
    (ht : d.truthy = true) (ha : d.alpha = none) : targetLift ps L error filename w = (.error .key, w) := by
  unfold targetLift targetBody
  rw [get_bind, if_pos (by simp [aeroGiven, hd, ht]), bind_def, bind_of_ok (getAero_some hd)]
  simp only [id, ha, needKey]
  rfl

/-- **C133, `stall_airspeed`.** Of an aircraft with wings, with an `aero_state` that leaves out `V_mag`, `stall_airspeed` raises
`KeyError`; nothing is changed. -/
theorem C133_airspeed_key (W error : ℝ) (filename : Option String) (n k : ℕ) {w : World B} {d : AeroDict ι} (hw : B.hasWings = true)
    (hd : w.aero = some d) (ht : d.truthy = true) (ha : d.Vmag = none) :
    stallAirspeed ps W error filename n k w = (.error .key, w) := by
  unfold stallAirspeed airspeedBody
  rw [if_pos hw, get_bind, if_pos (by simp [aeroGiven, hd, ht]), bind_def, bind_of_ok (getAero_some hd)]
  simp only [id, ha, needKey]
  rfl

/-- `m` does not raise `KeyError` -/
def NoKey {S α : Type} (m : Act S α) : Prop := ∀ s, (m s).1 ≠ .error .key

theorem NoKey.bind {S α β : Type} {m : Act S α} {f : α → Act S β} (hm : NoKey m) (hf : ∀ a, NoKey (f a)) : NoKey (m >>= f) := by
  intro s
  rw [bind_def]
  rcases hq : m s with ⟨e | a, s1⟩
  · have := hm s
    rw [hq] at this
    intro h
    apply this
    cases h
    rfl
  · exact hf a s1

theorem NoKey.pure {S α : Type} (a : α) : NoKey (pure a : Act S α) := fun _ h => by cases h

theorem noKey_withAero {α : Type} {d : AeroDict ι} {m : Act (World B) α} (hm : NoKey m) : NoKey (withAero d m) := by
  intro w h
  have := hm { w with aero := some d }
  unfold withAero at h
  rcases hq : m { w with aero := some d } with ⟨e | a, w1⟩ <;> rw [hq] at this h
  · apply this; cases h; rfl
  · cases h

theorem noKey_tryFinite {α : Type} {m : Act (World B) α} (hm : NoKey m) : NoKey (Act.tryFinite m) := by
  intro w h
  have := hm w
  unfold Act.tryFinite at h
  rcases hq : m w with ⟨e | a, w1⟩ <;> rw [hq] at this h
  · cases e <;> first | (cases h; done) | exact this rfl
  · cases h

/-- **C133, `target_lift` with `alpha`.** If no solve of the aircraft raises `KeyError`, then with an `aero_state` that gives
`alpha` (or without one) `target_lift` does not either. -/
theorem C133_target_given (hs : NoKey (muSolve (B := B) ps)) (hb : NoKey B.solveBad) (L error : ℝ) (filename : Option String)
    {w : World B} (ha : ∀ d, w.aero = some d → d.truthy = true → d.alpha.isSome) :
    (targetLift ps L error filename w).1 ≠ .error .key := by
  have hlift : ∀ d x, NoKey (liftAt (B := B) ps d x) := by
    intro d x
    cases x with
    | none => exact NoKey.bind (fun w h => hb w.st (by exact h)) fun _ => NoKey.pure _
    | some x => exact NoKey.bind (noKey_withAero (noKey_tryFinite hs)) fun _ => NoKey.pure _
  have hloop : ∀ (n : ℕ) (err : ℝ) (x0 y0 x1 y1 : Option ℝ) (d : AeroDict ι), NoKey (targetLoop (B := B) ps L err n x0 y0 x1 y1 d) := by
    intro n err
    induction n with
    | zero => intro x0 y0 x1 y1 d w h; cases h
    | succ n ih =>
      intro x0 y0 x1 y1 d
      unfold targetLoop
      intro w
      dsimp only
      split_ifs
      · exact NoKey.pure _ w
      · exact NoKey.bind (hlift _ _) (fun r => NoKey.pure _) w
      · exact NoKey.bind (hlift _ _) (fun r => ih _ _ _ _ _) w
  have hbody : ∀ (err : ℝ) (w : World B), (∀ d, w.aero = some d → d.alpha.isSome) → (targetBody ps L err w).1 ≠ .error .key := by
    intro err w hw
    unfold targetBody
    cases hd : w.aero with
    | none =>
      rw [bind_def]
      unfold getAero
      rw [hd]
      intro h; cases h
    | some d =>
      obtain ⟨x, hx⟩ := Option.isSome_iff_exists.1 (hw d hd)
      rw [bind_of_ok (getAero_some hd)]
      simp only [id, hx, needKey]
      rw [bind_of_ok (ret_run _ _)]
      exact NoKey.bind (hlift _ _) (fun r => NoKey.bind (hlift _ _) fun r' => hloop _ _ _ _ _ _ _) w
  have hwrite : ∀ (f : Option String) (doc : Doc ι) (r : TrimAnswer), NoKey (writeFile (B := B) f doc >>= fun _ => pure r) := by
    intro f doc r
    exact NoKey.bind (fun w h => by cases f <;> cases h) fun _ => NoKey.pure _
  unfold targetLift
  rw [get_bind]
  cases hg : aeroGiven w
  · simp only [Bool.false_eq_true, if_false]
    rw [bind_def]
    unfold withAero
    have := hbody (10 * 10 ^ (-10 : ℤ)) { w with aero := some defaultAeroDict } fun d hd => by cases hd; rfl
    rcases hq : targetBody ps L (10 * 10 ^ (-10 : ℤ)) { w with aero := some defaultAeroDict } with ⟨e | a, w1⟩ <;> rw [hq] at this
    · intro h; apply this; cases h; rfl
    · cases a
      · intro h; cases h
      · exact hwrite _ _ _ _
  · simp only [if_true]
    rw [bind_def]
    have := hbody error w fun d hd => ha d hd (by unfold aeroGiven at hg; rw [hd] at hg; exact hg)
    rcases hq : targetBody ps L error w with ⟨e | a, w1⟩ <;> rw [hq] at this
    · intro h; apply this; cases h; rfl
    · cases a
      · cases filename
        · intro h; cases h
        · exact hwrite _ _ _ _
      · exact hwrite _ _ _ _

end

/-! ### The refutation, on an aircraft -/

theorem noKey_onSolver {ι : Type} {B : Backend ι} {α : Type} {m : Act B.σ α} (hm : NoKey m) : NoKey (onSolver (B := B) m) :=
  fun w h => hm w.st h

theorem llSolve_noKey {n : ℕ} (G : LLGeom (Fin n)) (st : LLState (Fin n)) (a : Option (AeroDict (Fin n))) (c : Option CtrlDict) :
    (llSolve G st "linear" a c).1 ≠ .error .key := by
  have h1 : ∀ t : LLState (Fin n), runLinear G t ≠ .error .key := by
    intro t
    unfold runLinear
    split
    · split
      · intro h; cases h
      · intro h
        rename_i e _
        cases e <;> cases h
    · intro h; cases h
  have h2 : (processAero G st a).1 ≠ .error .key := by
    rcases a with _ | d
    · intro h; cases h
    · cases hd : d.truthy
      · unfold processAero
        simp only [hd, Bool.false_eq_true, if_false]
        intro h; cases h
      · have := processAero_explicit G st d hd
        cases ha : arrOf G d with
        | ok x => rw [ha] at this; obtain ⟨r, hr⟩ := this; rw [hr]; intro h; cases h
        | error e =>
          rw [ha] at this
          simp only at this
          rw [this]
          intro h
          cases h
          unfold arrOf at ha
          cases hl : d.localState <;> cases hV : d.Vmag <;> cases hr : d.rho <;> simp [hl, hV, hr] at ha
  unfold llSolve
  rcases hq : processAero G st a with ⟨e | ⟨⟩, t⟩ <;> rw [hq] at h2
  · exact fun h => h2 (by cases h; rfl)
  · simp only [if_true]
    have := h1 (processCtrl G t c)
    rcases hr : runLinear G (processCtrl G t c) with e | R <;> rw [hr] at this
    · cases e <;> first | exact absurd rfl this | (intro h; cases h; done)
    · intro h; cases h

section
variable {o : Analyser} {p : Plane} {simps : List ℝ → List ℝ → ℝ} {fuel : ℕ}
  {bad : Act (LLState (Fin (sectionsOf o.wing)) × List (PropSlot (Fin (sectionsOf o.wing)))) (Option Loads)}

theorem muSolve_noKey (hp : p.props = []) (ps : Option PropDict) : NoKey (muSolve (B := o.backend p simps fuel bad) ps) := by
  have hparts : NoKey (solveParts (B := o.backend p simps fuel bad) ps) := by
    unfold solveParts
    refine NoKey.bind (fun w h => ?_) fun d => NoKey.bind ?_ fun _ => NoKey.bind ?_ fun _ => NoKey.bind (fun w h => by cases h) fun _ => NoKey.pure _
    · unfold getAero at h
      cases ha : w.aero <;> rw [ha] at h <;> cases h
    · unfold solveProps
      have : (o.backend p simps fuel bad).hasProps = false := by show (!p.props.isEmpty) = false; rw [hp]; rfl
      rw [this]
      exact NoKey.pure _
    · unfold solveWings
      split_ifs
      · refine NoKey.bind (fun w h => by cases h) fun w => NoKey.bind (noKey_onSolver fun s h => ?_) fun _ => NoKey.pure _
        have k := backend_wingSolve (o := o) (p := p) (simps := simps) (fuel := fuel) (bad := bad) (w.aero.getD {}) w.ctrl s
        have h := (congrArg Prod.fst k).symm.trans h
        split_ifs at h
        · exact llSolve_noKey _ _ _ _ h
        · cases h
      · exact NoKey.pure _
  unfold muSolve
  intro w
  rw [get_bind]
  split_ifs
  · exact NoKey.bind hparts (fun _ => NoKey.pure _) w
  · exact NoKey.bind (noKey_withAero hparts) (fun _ => NoKey.pure _) w

/-- **C133, aircraft without propellers.** `target_lift` raises `KeyError` exactly if an `aero_state` is given and leaves out
`alpha`. -/
theorem C133_target_iff (hp : p.props = []) (hb : NoKey bad) (ps : Option PropDict) (L error : ℝ) (filename : Option String)
    (w : World (o.backend p simps fuel bad)) :
    (targetLift ps L error filename w).1 = .error .key ↔ ∃ d, w.aero = some d ∧ d.truthy = true ∧ d.alpha = none := by
  constructor
  · intro h
    by_contra hn
    refine C133_target_given (muSolve_noKey hp ps) hb L error filename (fun d hd ht => ?_) h
    rcases ha : d.alpha with _ | a
    · exact absurd ⟨d, hd, ht, ha⟩ hn
    · rfl
  · rintro ⟨d, hd, ht, ha⟩
    exact congrArg Prod.fst (C133_target_key (B := o.backend p simps fuel bad) (ps := ps) L error filename hd ht ha)

end

/-- **C133 is refuted** for `target_lift`: on an aircraft with a wing, `target_lift` with `"alpha": 0` in the `aero_state` does
not have the outcome it has with `alpha` left out. -/
theorem C133_refuted (table : String → ℝ → ℝ) (mem : String → ℕ → ℕ → Option ℝ) : ∃ o, openMachUp table mem unitPlane = .ok o ∧
    ∀ (simps : List ℝ → List ℝ → ℝ) (fuel : ℕ) bad, NoKey bad →
      ∃ c c' : AnyCall (o.backend unitPlane simps fuel bad), c.SameBut c' ∧ ∀ a0 c0,
        (c'.run unitPlane.cg (o.fresh unitPlane simps fuel bad a0 c0)).1 ≠ (c.run unitPlane.cg (o.fresh unitPlane simps fuel bad a0 c0)).1 := by
  obtain ⟨g, hg⟩ := grid_exists _ _ _ unit_wellFormed true
  refine ⟨_, unit_open table mem hg, fun simps fuel bad hb => ?_⟩
  refine ⟨⟨.targetLift 5 (1 / 100) none, some { Vmag := some 10, rho := some 1, alpha := some 0 }, none, none⟩,
    ⟨.targetLift 5 (1 / 100) none, some { Vmag := some 10, rho := some 1 }, none, none⟩,
    ⟨rfl, rfl, .entries _ _ ⟨rfl, rfl, rfl, rfl, rfl, .right, .same _, .same _, .same _, .same _⟩, .same _⟩, fun a0 c0 h => ?_⟩
  set B := Analyser.backend ⟨some ⟨g, 2, g.refArea / 2⟩, none⟩ unitPlane simps fuel bad with hB
  have h1 : ∀ w : World B, w.aero = some { Vmag := some 10, rho := some 1 } →
      (perform (B := B) none unitPlane.cg (.targetLift 5 (1 / 100) none) w).1 = .error .key := by
    intro w hw
    have := C133_target_key (B := B) (ps := none) 5 (1 / 100) none hw rfl rfl
    show ((targetLift (B := B) none 5 (1 / 100) none >>= fun r => pure (Answer.trim r)) w).1 = _
    rw [bind_def, this]
  have h2 : ∀ w : World B, w.aero = some { Vmag := some 10, rho := some 1, alpha := some 0 } →
      (perform (B := B) none unitPlane.cg (.targetLift 5 (1 / 100) none) w).1 ≠ .error .key := by
    intro w hw
    have := (C133_target_iff (o := ⟨some ⟨g, 2, g.refArea / 2⟩, none⟩) (p := unitPlane) (simps := simps) (fuel := fuel) rfl hb none 5 (1 / 100)
      none w).not.2 (by
        rintro ⟨d, hd, -, ha⟩
        cases hw.symm.trans hd
        cases ha)
    show ((targetLift (B := B) none 5 (1 / 100) none >>= fun r => pure (Answer.trim r)) w).1 ≠ _
    rw [bind_def]
    intro hk
    apply this
    rcases hq : targetLift (B := B) none 5 (1 / 100) none w with ⟨e | r, w1⟩ <;> rw [hq] at hk
    · exact (congrArg Prod.fst hq).trans (congrArg Except.error (Except.error.inj hk))
    · cases hk
  exact h2 _ rfl (h.symm.trans (h1 _ rfl))

/-- what a solve with `nan` may do in the examples: nothing -/
example : BadIgnoresRates (n := 2) (fun s => (.ok none, s)) ∧ NoKey (fun s => (.ok none, s) : Act (LLState (Fin 2) × List (PropSlot (Fin 2))) (Option Loads)) :=
  ⟨fun _ _ h => ⟨rfl, h⟩, fun _ h => by cases h⟩

/-- a session on an aircraft: `pitch_trim` after the derivatives, with and without the zeros -/
example (table : String → ℝ → ℝ) (mem : String → ℕ → ℕ → Option ℝ) (simps : List ℝ → List ℝ → ℝ) (fuel : ℕ) :
    ∃ o, openMachUp table mem unitPlane = .ok o ∧ ∀ bad,
      let session (d : AeroDict (Fin (sectionsOf o.wing))) (c : CtrlDict) :=
        ((⟨.pitchTrim 5 0 1 none, some d, some c, none⟩ : AnyCall (o.backend unitPlane simps fuel bad)).run unitPlane.cg
          (afterCalls unitPlane.cg (o.fresh unitPlane simps fuel bad none none) [⟨.derivatives (some "out.json"), some d, some c, none⟩])).1
      session { Vmag := some 10, rho := some 1 } { elevator := some 3 } =
        session { Vmag := some 10, rho := some 1, alpha := some 0, roll := some 0 } { elevator := some 3, flap := some 0 } := by
  obtain ⟨g, hg⟩ := grid_exists _ _ _ unit_wellFormed true
  refine ⟨_, unit_open table mem hg, fun bad => ?_⟩
  set d : AeroDict (Fin (sectionsOf (some ⟨g, 2, g.refArea / 2⟩))) := { Vmag := some 10, rho := some 1, alpha := some 0, roll := some 0 }
  set d' : AeroDict (Fin (sectionsOf (some ⟨g, 2, g.refArea / 2⟩))) := { Vmag := some 10, rho := some 1 }
  set c : CtrlDict := { elevator := some 3, flap := some 0 }
  set c' : CtrlDict := { elevator := some 3 }
  have hd : d.SameCondition d' := ⟨rfl, rfl, rfl, rfl, rfl, .right, .same _, .right, .same _, .same _⟩
  have hc : c.SameDeflections c' := ⟨rfl, rfl, .same _, .same _, .same _, .right⟩
  exact (C133_sessions_partial (o := ⟨some ⟨g, 2, g.refArea / 2⟩, none⟩) (p := unitPlane) (simps := simps) (fuel := fuel) (bad := bad) none none
    [⟨.derivatives (some "out.json"), some d, some c, none⟩] [⟨.derivatives (some "out.json"), some d', some c', none⟩]
    ⟨.pitchTrim 5 0 1 none, some d, some c, none⟩ ⟨.pitchTrim 5 0 1 none, some d', some c', none⟩
    (.cons ⟨rfl, rfl, .entries _ _ hd, .entries _ _ hc⟩ (.cons ⟨rfl, rfl, .entries _ _ hd, .entries _ _ hc⟩ .nil))
    (.cons (fun _ _ _ h => by cases h) (.cons (fun _ _ _ h => by cases h) .nil))).1

/-- `stall_airspeed` without `V_mag` on an aircraft -/
example (table : String → ℝ → ℝ) (mem : String → ℕ → ℕ → Option ℝ) (simps : List ℝ → List ℝ → ℝ) (fuel : ℕ) :
    ∃ o, openMachUp table mem unitPlane = .ok o ∧ ∀ bad c0,
      let w := o.fresh unitPlane simps fuel bad (some { rho := some 1, alpha := some 2 }) c0
      stallAirspeed none 50 1 none 100 1000 w = (.error .key, w) := by
  obtain ⟨g, hg⟩ := grid_exists _ _ _ unit_wellFormed true
  refine ⟨_, unit_open table mem hg, fun bad c0 => ?_⟩
  exact C133_airspeed_key (ps := none) 50 1 none 100 1000 rfl rfl rfl rfl

end Verif
